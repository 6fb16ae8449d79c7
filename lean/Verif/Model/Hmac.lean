import Verif.Model.Encoding

/-!
Model of `/repo/hash/hmac.py`, `/repo/hash/pbkdf2.py` and `/repo/hash/prf_dot11.py`.

The base class `crypto.hash.hash.Hash` and the hash functions are not in the repository.  A hash
object is modelled by the octets absorbed since its last `reset`; `update` appends, `digest` applies
an arbitrary function `H`, and calling the object is `reset`, `update`, `digest`.
-/

namespace Cryptopy.Model

/-- What `hashFunction()` provides: attributes `raw_block_size`, `digest_size` and the function.
As used in `hash/hmac.py` lines 28-43. -/
structure HashLib where
  rawBlockSize : Nat
  digestSize : Nat
  H : Bytes → Bytes

/-- Attributes of an `HMAC` object, `hash/hmac.py` lines 31-43: the data absorbed by `self.H` and by
`self.H_outer`, and `(k_xor_ipad, k_xor_opad)`, which exist exactly when `keyed` is not `None`. -/
structure Hmac where
  inner : Bytes
  outer : Bytes
  pads : Option (Bytes × Bytes)

/-- `HMAC.reset`, `hash/hmac.py` lines 56-60. -/
def Hmac.reset (o : Hmac) : Hmac × Py Unit :=
  let o := { o with inner := [] }
  match o.pads with
  | none => (o, .error .stringRaise)
  | some (ipad, _) => ({ o with inner := o.inner ++ ipad }, .ok ())

/-- `HMAC.setKey`, `hash/hmac.py` lines 45-54. -/
def Hmac.setKey (h : HashLib) (o : Hmac) (key : Bytes) : Hmac × Py Unit :=
  let (key, inner) :=
    if key.length > h.rawBlockSize then (h.H key, key)
    else (key ++ List.replicate (h.rawBlockSize - key.length) 0, o.inner)
  let kXorIpad := key.map (· ^^^ 0x36)
  let kXorOpad := key.map (· ^^^ 0x5C)
  Hmac.reset { o with inner := inner, pads := some (kXorIpad, kXorOpad) }

/-- `HMAC.__init__`, `hash/hmac.py` lines 28-43. -/
def Hmac.new (h : HashLib) (key : Option Bytes) : Hmac :=
  let o : Hmac := ⟨[], [], none⟩
  match key with
  | some k => (o.setKey h k).1
  | none => o

/-- `HMAC.update`, `hash/hmac.py` lines 62-65. -/
def Hmac.update (o : Hmac) (data : Bytes) : Hmac × Py Unit :=
  match o.pads with
  | none => (o, .error .stringRaise)
  | some _ => ({ o with inner := o.inner ++ data }, .ok ())

/-- `HMAC.digest`, `hash/hmac.py` lines 66-69; the call of `self.H_outer` resets that object and
leaves its argument absorbed. -/
def Hmac.digest (h : HashLib) (o : Hmac) : Hmac × Py Bytes :=
  match o.pads with
  | none => (o, .error .stringRaise)
  | some (_, opad) =>
    let arg := opad ++ h.H o.inner
    ({ o with outer := arg }, .ok (h.H arg))

/-- Calling the object: `__call__` of the base class is `reset`, `update`, `digest`.
The base class is imported in `hash/hmac.py` line 22; the methods are lines 56-70. -/
def Hmac.call (h : HashLib) (o : Hmac) (data : Bytes) : Hmac × Py Bytes :=
  match o.reset with
  | (o, .error e) => (o, .error e)
  | (o, .ok _) =>
    match o.update data with
    | (o, .error e) => (o, .error e)
    | (o, .ok _) => o.digest h

/-- One method call on an `HMAC` object.  The methods of `hash/hmac.py` lines 45-70. -/
inductive HmacOp
  | setKey (key : Bytes)
  | reset
  | update (data : Bytes)
  | digest
  | call (data : Bytes)

/-- The effect and the result of one method call; a method without result gives `none`.
The methods of `hash/hmac.py` lines 45-70. -/
def Hmac.step (h : HashLib) (o : Hmac) : HmacOp → Hmac × Py (Option Bytes)
  | .setKey k => let r := o.setKey h k; (r.1, r.2.map fun _ => none)
  | .reset => let r := o.reset; (r.1, r.2.map fun _ => none)
  | .update d => let r := o.update d; (r.1, r.2.map fun _ => none)
  | .digest => let r := o.digest h; (r.1, r.2.map some)
  | .call d => let r := o.call h d; (r.1, r.2.map some)

/-- A history of method calls: the final object and the list of results.  The methods of `hash/hmac.py` lines 45-70. -/
def Hmac.run (h : HashLib) : Hmac → List HmacOp → Hmac × List (Py (Option Bytes))
  | o, [] => (o, [])
  | o, op :: ops =>
    let r := o.step h op
    let rest := Hmac.run h r.1 ops
    (rest.1, r.2 :: rest.2)

/-! ### PBKDF2 -/

/-- A keyed pseudorandom function object class: `PRF(key=password)(data)` and its `digest_size`.
As used in `hash/pbkdf2.py` lines 24-33. -/
structure PrfLib where
  digestSize : Nat
  prf : Bytes → Bytes → Bytes

/-- `HMAC_SHA1` and the like: `HMAC.__init__` with the key and then a call,
`hash/hmac.py` lines 71-83. -/
def hmacPrf (h : HashLib) : PrfLib where
  digestSize := h.digestSize
  prf key data := match ((Hmac.new h (some key)).call h data).2 with
    | .ok r => r
    | .error _ => []

/-- `pack('>i', block)` for `0 ≤ block < 2^31`.  `hash/pbkdf2.py` lines 29-30. -/
def packBE32 (n : Nat) : Bytes :=
  [UInt8.ofNat (n / 16777216 % 256), UInt8.ofNat (n / 65536 % 256), UInt8.ofNat (n / 256 % 256),
    UInt8.ofNat (n % 256)]

/-- The loop `for count in range(2,iterations+1)`, `hash/pbkdf2.py` lines 31-33, with `k` iterations
left. -/
def pbkdf2Inner (prf : Bytes → Bytes) : Nat → Bytes → Bytes → Py Bytes
  | 0, _, F => .ok F
  | k + 1, U, F =>
    let U := prf U
    match xor F U with
    | .error e => .error e
    | .ok F => pbkdf2Inner prf k U F

/-- The loop over blocks, `hash/pbkdf2.py` lines 27-34, from `block` with `k` blocks left. -/
def pbkdf2Outer (prf : Bytes → Bytes) (salt : Bytes) (iterations : Int) :
    Nat → Nat → Bytes → Py Bytes
  | _, 0, key => .ok key
  | block, k + 1, key =>
    let F := prf (salt ++ packBE32 block)
    let U := prf (salt ++ packBE32 block)
    match pbkdf2Inner prf (iterations - 1).toNat U F with
    | .error e => .error e
    | .ok F => pbkdf2Outer prf salt iterations (block + 1) k (key ++ F)

/-- `pbkdf2`, `hash/pbkdf2.py` lines 16-35.  `floatRange` says whether the interpreter's `range`
accepts the float `numBlocks + 1` (Python before 2.7) or raises `TypeError`.  The float computation
`ceil(1.*keySize/digest_size)` is modelled by the exact ceiling: for `keySize ≤ 10000` the rounding
of the quotient cannot cross an integer. -/
def pbkdf2 (floatRange : Bool) (P : PrfLib) (password salt : Bytes) (iterations keySize : Int) :
    Py Bytes :=
  if password.length > 63 then .error .stringRaise
  else if keySize > 10000 then .error .stringRaise
  else if P.digestSize = 0 then .error .zeroDivision
  else if !floatRange then .error .type
  else
    let numBlocks : Int := -((-keySize) / (P.digestSize : Int))
    match pbkdf2Outer (P.prf password) salt iterations 1 numBlocks.toNat [] with
    | .error e => .error e
    | .ok key => .ok (Py.sliceTo key keySize)

/-- `dot11PassPhraseToPSK`, `hash/pbkdf2.py` lines 37-42. -/
def dot11PassPhraseToPSK (floatRange : Bool) (P : PrfLib) (passPhrase ssid : Bytes) : Py Bytes :=
  if 7 < passPhrase.length ∧ passPhrase.length < 64 then
    pbkdf2 floatRange P passPhrase ssid 4096 32
  else .error .assertion

/-! ### The 802.11 PRF -/

/-- The loop of `PRF`, `hash/prf_dot11.py` lines 23-26.  `hmacNew key msg` is
`hmac.new(key, msg, sha).digest()`.  `chr(i)` raises `ValueError` for `i > 255`. -/
def prfLoop (hmacNew : Bytes → Bytes → Py Bytes) (key pre data : Bytes) (octets : Int)
    (i : Nat) (R : Bytes) : Py Bytes :=
  if (R.length : Int) ≤ octets then
    if i < 256 then
      match hmacNew key (pre ++ [0x00] ++ data ++ [UInt8.ofNat i]) with
      | .error e => .error e
      | .ok d => prfLoop hmacNew key pre data octets (i + 1) (R ++ d)
    else .error .value
  else .ok R
termination_by 256 - i

/-- `PRF`, `hash/prf_dot11.py` lines 12-27. -/
def prfDot11 (hmacNew : Bytes → Bytes → Py Bytes) (key pre data : Bytes) (numberOfBits : Int) :
    Py Bytes :=
  let octets := numberOfBits / 8
  let remainder := numberOfBits % 8
  if remainder ≠ 0 then .error .value
  else
    match prfLoop hmacNew key pre data octets 0 [] with
    | .error e => .error e
    | .ok R => .ok (Py.sliceTo R octets)

/-- `PRF_128`, `hash/prf_dot11.py` line 29. -/
def prf128 (hmacNew : Bytes → Bytes → Py Bytes) (key A B : Bytes) : Py Bytes :=
  prfDot11 hmacNew key A B 128

/-- `PRF_192`, `hash/prf_dot11.py` line 30. -/
def prf192 (hmacNew : Bytes → Bytes → Py Bytes) (key A B : Bytes) : Py Bytes :=
  prfDot11 hmacNew key A B 192

/-- `PRF_256`, `hash/prf_dot11.py` line 31. -/
def prf256 (hmacNew : Bytes → Bytes → Py Bytes) (key A B : Bytes) : Py Bytes :=
  prfDot11 hmacNew key A B 256

/-- `PRF_384`, `hash/prf_dot11.py` line 32. -/
def prf384 (hmacNew : Bytes → Bytes → Py Bytes) (key A B : Bytes) : Py Bytes :=
  prfDot11 hmacNew key A B 384

/-- `PRF_512`, `hash/prf_dot11.py` line 33. -/
def prf512 (hmacNew : Bytes → Bytes → Py Bytes) (key A B : Bytes) : Py Bytes :=
  prfDot11 hmacNew key A B 512

/-- `PRF_768`, `hash/prf_dot11.py` line 34. -/
def prf768 (hmacNew : Bytes → Bytes → Py Bytes) (key A B : Bytes) : Py Bytes :=
  prfDot11 hmacNew key A B 768

/-- `import hmac` inside the package resolves to the sibling module `hash/hmac.py` under Python 2's
implicit relative imports; that module has no attribute `new`, so line 24 raises
`AttributeError`. -/
def siblingHmacNew (_key _msg : Bytes) : Py Bytes := .error .attribute

end Cryptopy.Model
