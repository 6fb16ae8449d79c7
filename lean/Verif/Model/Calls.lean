import Verif.Model.Siv
import Verif.Model.Hmac

/-!
The functions of `/repo/cipher/aes_cmac.py`, `/repo/cipher/aes_siv.py`, `/repo/hash/pbkdf2.py` and `/repo/hash/prf_dot11.py` once
more, each with the list of all calls it makes of the block cipher or of the keyed hash, in order.

Each function below is the one without the suffix `Calls`.  If it raises an exception, the calls before that are listed.
-/

namespace Cryptopy.Model

/-- The calls made, and the result.
Used for `cipher/aes_cmac.py` lines 19-59, `cipher/aes_siv.py` lines 27-98,
`hash/pbkdf2.py` lines 16-43 and `hash/prf_dot11.py` lines 12-27. -/
structure Calls (ι α : Type) where
  calls : List ι
  result : Py α

instance {ι : Type} : Monad (Calls ι) where
  pure a := ⟨[], .ok a⟩
  bind m f := match m.result with
    | .error e => ⟨m.calls, .error e⟩
    | .ok a => ⟨m.calls ++ (f a).calls, (f a).result⟩

/-- One call with argument `i` which returns `v`.  For example `hash/pbkdf2.py` line 29. -/
def Calls.call {ι α : Type} (i : ι) (v : α) : Calls ι α := ⟨[i], .ok v⟩

/-- A computation without calls.  For example `hash/pbkdf2.py` line 25. -/
def Calls.none {ι α : Type} (r : Py α) : Calls ι α := ⟨[], r⟩

/-- `subkey`, `cipher/aes_cmac.py` lines 39-59.  A call of the cipher is a key and a block. -/
def subkeyCalls (C : CipherLib) (key : Bytes) : Calls (Bytes × Bytes) (Bytes × Bytes) := do
  Calls.none (if C.keyOk key then .ok () else .error .value)
  Calls.none (if C.blockSize = 16 then .ok () else .error .assertion)
  let el ← Calls.call (key, List.replicate C.blockSize 0) (C.enc key (List.replicate C.blockSize 0))
  let k1 := dblInt (stringToInt el)
  let k2 := dblInt k1
  let s1 ← Calls.none (intToString k1 none)
  let s2 ← Calls.none (intToString k2 none)
  return (s1, s2)

/-- The chaining loop, `cipher/aes_cmac.py` lines 34-35, from index `i` on with `k` rounds left. -/
def cmacLoopCalls (C : CipherLib) (key Mp : Bytes) : Nat → Nat → Bytes → Calls (Bytes × Bytes) Bytes
  | _, 0, x => return x
  | i, k + 1, x => do
    let y ← Calls.none (xor x ((Mp.drop (i * 16)).take 16))
    let x ← Calls.call (key, y) (C.enc key y)
    cmacLoopCalls C key Mp (i + 1) k x

/-- `aes_cmac(key, M)`, `cipher/aes_cmac.py` lines 19-37, with the default cipher. -/
def aesCmacCalls (aes : CipherLib) (key M : Bytes) : Calls (Bytes × Bytes) Bytes := do
  Calls.none (if aes.keyOk key then .ok () else .error .value)
  Calls.none (if aes.blockSize = 16 then .ok () else .error .assertion)
  let (k1, k2) ← subkeyCalls aes key
  let blocks := M.length / 16
  let leftover := M.length % 16
  let mp : Py Bytes :=
    if leftover = 0 ∧ blocks > 0 then
      match xor (M.drop ((blocks - 1) * 16)) k1 with
      | .error e => .error e
      | .ok y => .ok (M.take ((blocks - 1) * 16) ++ y)
    else
      match xor (pad (M.drop (blocks * 16))) k2 with
      | .error e => .error e
      | .ok y => .ok (M.take (blocks * 16) ++ y)
  let Mp ← Calls.none mp
  cmacLoopCalls aes key Mp 0 (Mp.length / 16) (List.replicate 16 0)

/-- The loop over all but the last component, `cipher/aes_siv.py` lines 49-50. -/
def s2vLoopCalls (aes : CipherLib) (key : Bytes) : List Bytes → Bytes → Calls (Bytes × Bytes) Bytes
  | [], d => return d
  | s :: rest, d => do
    let dd ← Calls.none (dbl d)
    let m ← aesCmacCalls aes key s
    let d' ← Calls.none (xor dd m)
    s2vLoopCalls aes key rest d'

/-- `s2v`, `cipher/aes_siv.py` lines 42-56. -/
def s2vCalls (aes : CipherLib) (key : Bytes) (adList : List Bytes) : Calls (Bytes × Bytes) Bytes :=
  match adList.getLast? with
  | none => aesCmacCalls aes key (List.replicate 15 0 ++ [1])
  | some last => do
    let d0 ← aesCmacCalls aes key (List.replicate 16 0)
    let d ← s2vLoopCalls aes key adList.dropLast d0
    let t : Py Bytes :=
      if last.length ≥ 16 then
        match xor (Py.sliceFrom last (-16)) d with
        | .error e => .error e
        | .ok y => .ok (Py.sliceTo last (-16) ++ y)
      else
        match dbl d with
        | .error e => .error e
        | .ok dd => xor dd (pad last)
    let t ← Calls.none t
    aesCmacCalls aes key t

/-- The key stream loop, `cipher/aes_siv.py` lines 70-71 and 88-89, from counter `i` with `k` blocks left. -/
def sivStreamCalls (aes : CipherLib) (key2 iv : Bytes) : Nat → Nat → Bytes → Calls (Bytes × Bytes) Bytes
  | _, 0, x => return x
  | i, k + 1, x => do
    let b ← Calls.none (sivCounterBlock iv i)
    let e ← Calls.call (key2, b) (aes.enc key2 b)
    sivStreamCalls aes key2 iv (i + 1) k (x ++ e)

/-- `siv_encrypt`, `cipher/aes_siv.py` lines 58-74. -/
def sivEncryptCalls (aes : CipherLib) (key pt : Bytes) (adList : List Bytes) : Calls (Bytes × Bytes) Bytes := do
  let keysize := key.length / 2
  let key1 := key.take keysize
  let key2 := Py.sliceFrom key (-(keysize : Int))
  let iv ← s2vCalls aes key1 (adList ++ [pt])
  Calls.none (if aes.keyOk key2 then .ok () else .error .value)
  let x ← sivStreamCalls aes key2 iv 0 ((pt.length + 16 - 1) / 16) []
  let ct ← Calls.none (xor pt (x.take pt.length))
  return iv ++ ct

/-- `siv_decrypt`, `cipher/aes_siv.py` lines 76-97. -/
def sivDecryptCalls (aes : CipherLib) (key c : Bytes) (adList : List Bytes) : Calls (Bytes × Bytes) Bytes := do
  let iv := c.take 16
  let ct := c.drop 16
  let keysize := key.length / 2
  let key1 := key.take keysize
  let key2 := Py.sliceFrom key (-(keysize : Int))
  Calls.none (if aes.keyOk key2 then .ok () else .error .value)
  let x ← sivStreamCalls aes key2 iv 0 ((ct.length + 16 - 1) / 16) []
  let pt ← Calls.none (xor ct (x.take ct.length))
  let t ← s2vCalls aes key1 (adList ++ [pt])
  if t = iv then return pt else Calls.none (.error .stringRaise)

/-- The loop `for count in range(2,iterations+1)`, `hash/pbkdf2.py` lines 31-33, with `k` iterations left.  A call is the argument
of `prf`. -/
def pbkdf2InnerCalls (prf : Bytes → Bytes) : Nat → Bytes → Bytes → Calls Bytes Bytes
  | 0, _, F => return F
  | k + 1, U, F => do
    let U ← Calls.call U (prf U)
    let F ← Calls.none (xor F U)
    pbkdf2InnerCalls prf k U F

/-- The loop over blocks, `hash/pbkdf2.py` lines 27-34, from `block` with `k` blocks left. -/
def pbkdf2OuterCalls (prf : Bytes → Bytes) (salt : Bytes) (iterations : Int) : Nat → Nat → Bytes → Calls Bytes Bytes
  | _, 0, key => return key
  | block, k + 1, key => do
    let F ← Calls.call (salt ++ packBE32 block) (prf (salt ++ packBE32 block))
    let U ← Calls.call (salt ++ packBE32 block) (prf (salt ++ packBE32 block))
    let F ← pbkdf2InnerCalls prf (iterations - 1).toNat U F
    pbkdf2OuterCalls prf salt iterations (block + 1) k (key ++ F)

/-- `pbkdf2`, `hash/pbkdf2.py` lines 16-35; see `pbkdf2` for the simplifications. -/
def pbkdf2Calls (floatRange : Bool) (P : PrfLib) (password salt : Bytes) (iterations keySize : Int) : Calls Bytes Bytes :=
  if password.length > 63 then Calls.none (.error .stringRaise)
  else if keySize > 10000 then Calls.none (.error .stringRaise)
  else if P.digestSize = 0 then Calls.none (.error .zeroDivision)
  else if !floatRange then Calls.none (.error .type)
  else do
    let numBlocks : Int := -((-keySize) / (P.digestSize : Int))
    let key ← pbkdf2OuterCalls (P.prf password) salt iterations 1 numBlocks.toNat []
    return Py.sliceTo key keySize

/-- `dot11PassPhraseToPSK`, `hash/pbkdf2.py` lines 37-42. -/
def dot11PassPhraseToPSKCalls (floatRange : Bool) (P : PrfLib) (passPhrase ssid : Bytes) : Calls Bytes Bytes :=
  if 7 < passPhrase.length ∧ passPhrase.length < 64 then pbkdf2Calls floatRange P passPhrase ssid 4096 32
  else Calls.none (.error .assertion)

/-- The loop of `PRF`, `hash/prf_dot11.py` lines 23-26.  A call is the message given to `hmac.new`. -/
def prfLoopCalls (hmacNew : Bytes → Bytes → Py Bytes) (key pre data : Bytes) (octets : Int) (i : Nat) (R : Bytes) :
    Calls Bytes Bytes :=
  if (R.length : Int) ≤ octets then
    if i < 256 then
      let msg := pre ++ [0x00] ++ data ++ [UInt8.ofNat i]
      match hmacNew key msg with
      | .error e => ⟨[msg], .error e⟩
      | .ok d =>
        let r := prfLoopCalls hmacNew key pre data octets (i + 1) (R ++ d)
        ⟨msg :: r.calls, r.result⟩
    else Calls.none (.error .value)
  else Calls.none (.ok R)
termination_by 256 - i

/-- `PRF`, `hash/prf_dot11.py` lines 12-27. -/
def prfDot11Calls (hmacNew : Bytes → Bytes → Py Bytes) (key pre data : Bytes) (numberOfBits : Int) : Calls Bytes Bytes :=
  let octets := numberOfBits / 8
  let remainder := numberOfBits % 8
  if remainder ≠ 0 then Calls.none (.error .value)
  else do
    let R ← prfLoopCalls hmacNew key pre data octets 0 []
    return Py.sliceTo R octets

end Cryptopy.Model
