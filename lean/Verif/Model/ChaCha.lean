import Verif.Py

/-!
Model of `/repo/cipher/chacha_poly.py`: ChaCha20, Poly1305 and the AEAD classes.

Words are Python integers; those that occur are never negative (the counter passed by the caller is
taken to be a natural number), so they are natural numbers without an upper bound.  The system
random source is an explicit argument.
-/

namespace Cryptopy.Model

/-- `chacha_q_round`, `cipher/chacha_poly.py` lines 32-55. -/
def chachaQRound (a b c d : Nat) : Nat × Nat × Nat × Nat :=
  let a := (a + b) &&& 0xFFFFFFFF
  let d := d ^^^ a
  let d := ((d <<< 16) &&& 0xFFFFFFFF) ||| (d >>> 16)
  let c := (c + d) &&& 0xFFFFFFFF
  let b := b ^^^ c
  let b := ((b <<< 12) &&& 0xFFFFFFFF) ||| (b >>> 20)
  let a := (a + b) &&& 0xFFFFFFFF
  let d := d ^^^ a
  let d := ((d <<< 8) &&& 0xFFFFFFFF) ||| (d >>> 24)
  let c := (c + d) &&& 0xFFFFFFFF
  let b := b ^^^ c
  let b := ((b <<< 7) &&& 0xFFFFFFFF) ||| (b >>> 25)
  (a, b, c, d)

/-- `quarter_round`, `cipher/chacha_poly.py` lines 79-80: the four indexed words of the state list are replaced. -/
def quarterRound (state : List Nat) (x y z w : Nat) : List Nat :=
  let r := chachaQRound (state.getD x 0) (state.getD y 0) (state.getD z 0) (state.getD w 0)
  (((state.set x r.1).set y r.2.1).set z r.2.2.1).set w r.2.2.2

/-- `inner_block`, `cipher/chacha_poly.py` lines 122-134. -/
def innerBlock (s : List Nat) : List Nat :=
  let s := quarterRound s 0 4 8 12
  let s := quarterRound s 1 5 9 13
  let s := quarterRound s 2 6 10 14
  let s := quarterRound s 3 7 11 15
  let s := quarterRound s 0 5 10 15
  let s := quarterRound s 1 6 11 12
  let s := quarterRound s 2 7 8 13
  let s := quarterRound s 3 4 9 14
  s

/-- `unpack('<I...', s)` of the standard library on a string of a multiple of four octets
(`cipher/chacha_poly.py` lines 176 and 185). -/
def unpackLE32 : Bytes → List Nat
  | a :: b :: c :: d :: rest =>
    (a.toNat + 256 * b.toNat + 65536 * c.toNat + 16777216 * d.toNat) :: unpackLE32 rest
  | _ => []

/-- `pack('<I', word)` of the standard library for a word below `2^32` (`cipher/chacha_poly.py` line 199). -/
def packLE32 (w : Nat) : Bytes :=
  [UInt8.ofNat (w % 256), UInt8.ofNat (w / 256 % 256), UInt8.ofNat (w / 65536 % 256),
    UInt8.ofNat (w / 16777216 % 256)]

/-- The instance attribute `state` of class `ChaCha`.  `cipher/chacha_poly.py` lines 145-185. -/
structure ChaCha where
  state : List Nat
  deriving DecidableEq

/-- `ChaCha.initialize`, `cipher/chacha_poly.py` lines 159-185. -/
def ChaCha.initialize (key : Bytes) (blockCounter : Nat) (nonce : Bytes) : Py ChaCha :=
  if key.length = 32 then
    if nonce.length = 12 then
      .ok ⟨[0x61707865, 0x3320646e, 0x79622d32, 0x6b206574] ++ unpackLE32 key ++ [blockCounter] ++
        unpackLE32 nonce⟩
    else .error .assertion
  else .error .assertion

/-- `ChaCha.__init__`, `cipher/chacha_poly.py` lines 229-234.  `rand` is what `urandom(12)` returns if it is called;
`if not nonce` holds for `None` and for the empty string. -/
def ChaCha.new (rand : Bytes) (key : Bytes) (counter : Nat := 0) (nonce : Option Bytes := none) :
    Py ChaCha :=
  match nonce with
  | none => ChaCha.initialize key counter rand
  | some n => if n = [] then ChaCha.initialize key counter rand else ChaCha.initialize key counter n

/-- `for i in range(10): inner_block(working_state)`, `cipher/chacha_poly.py` lines 194-195, with `k` iterations left. -/
def innerLoop : Nat → List Nat → List Nat
  | 0, s => s
  | k + 1, s => innerLoop k (innerBlock s)

/-- `ChaCha.chacha20_block`, `cipher/chacha_poly.py` lines 187-199. -/
def ChaCha.block (o : ChaCha) : Bytes :=
  let workingState := innerLoop 10 o.state
  let outState := List.zipWith (fun s ws => (s + ws) &&& 0xFFFFFFFF) o.state workingState
  (outState.map packLE32).flatten

/-- `self.state[12] += 1`, `cipher/chacha_poly.py` line 214. -/
def ChaCha.bump (o : ChaCha) : ChaCha := ⟨o.state.set 12 (o.state.getD 12 0 + 1)⟩

/-- The loop of `ChaCha.encrypt`, `cipher/chacha_poly.py` lines 212-220, from block `j` with `k` blocks left. -/
def ChaCha.encryptLoop (plainText : Bytes) : Nat → Nat → ChaCha → Bytes → ChaCha × Bytes
  | _, 0, o, out => (o, out)
  | j, k + 1, o, out =>
    let keyStream := o.block
    let o := o.bump
    let block := plainText.drop (j * 64)
    let encryptedBlock := List.zipWith (fun b k => b ^^^ k) block keyStream
    ChaCha.encryptLoop plainText (j + 1) k o (out ++ encryptedBlock)

/-- `ChaCha.encrypt`, `cipher/chacha_poly.py` lines 201-222: the new object state and the result. -/
def ChaCha.encrypt (o : ChaCha) (plainText : Bytes) : ChaCha × Bytes :=
  let blocks := plainText.length / 64
  let remainder := plainText.length % 64
  let blocks := if remainder > 0 then blocks + 1 else blocks
  ChaCha.encryptLoop plainText 0 blocks o []

/-- `ChaCha.decrypt`, `cipher/chacha_poly.py` lines 224-227. -/
def ChaCha.decrypt (o : ChaCha) (plainText : Bytes) : ChaCha × Bytes := o.encrypt plainText

/-- `clamp`, `cipher/chacha_poly.py` lines 283-285. -/
def clamp (r : Nat) : Nat := r &&& 0x0ffffffc0ffffffc0ffffffc0fffffff

/-- `le_bytes_to_num`, `cipher/chacha_poly.py` lines 308-310: `int(hexlify(bytes[::-1]), 16)`.  `int('', 16)` raises
`ValueError`. -/
def leBytesToNum (b : Bytes) : Py Nat :=
  if b = [] then .error .value
  else .ok (b.reverse.foldl (fun acc c => 256 * acc + c.toNat) 0)

/-- `''.join(map(lambda i: chr(0xff & (num >> 8*i)), range(k)))`: `num_to_16_le_bytes`
`cipher/chacha_poly.py` lines 312-314 with `k = 16` and `num_to_8_le_bytes` lines 522-524 with `k = 8`. -/
def numToLeBytes (k num : Nat) : Bytes :=
  (List.range k).map fun i => UInt8.ofNat (0xff &&& (num >>> (8 * i)))

/-- The block loop of `poly1305_mac`, `cipher/chacha_poly.py` lines 295-298, from block `i` with `k` blocks left. -/
def poly1305Loop (msg : Bytes) (r p : Nat) : Nat → Nat → Nat → Py Nat
  | _, 0, a => .ok a
  | i, k + 1, a =>
    match leBytesToNum ((msg.take ((i + 1) * 16)).drop (i * 16) ++ [0x01]) with
    | .error e => .error e
    | .ok n => poly1305Loop msg r p (i + 1) k ((r * (a + n)) % p)

/-- `poly1305_mac`, `cipher/chacha_poly.py` lines 287-306. -/
def poly1305Mac (msg key : Bytes) : Py Bytes :=
  match leBytesToNum (key.take 16) with
  | .error e => .error e
  | .ok r =>
    let r := clamp r
    match leBytesToNum ((key.take 32).drop 16) with
    | .error e => .error e
    | .ok s =>
      let p := (1 <<< 130) - 5
      let blocks := msg.length / 16
      let remainder := msg.length % 16
      match poly1305Loop msg r p 0 blocks 0 with
      | .error e => .error e
      | .ok a =>
        if remainder ≠ 0 then
          match leBytesToNum (msg.drop (blocks * 16) ++ [0x01]) with
          | .error e => .error e
          | .ok n => .ok (numToLeBytes 16 ((r * (a + n)) % p + s))
        else .ok (numToLeBytes 16 (a + s))

/-- `poly1305_key_gen`, `cipher/chacha_poly.py` lines 367-371. -/
def poly1305KeyGen (rand key nonce : Bytes) : Py Bytes :=
  match ChaCha.new rand key 0 (some nonce) with
  | .error e => .error e
  | .ok o => .ok (o.block.take 32)

/-- `pad16`, `cipher/chacha_poly.py` lines 515-520. -/
def pad16 (x : Bytes) : Bytes :=
  let extraBytes := x.length % 16
  if extraBytes = 0 then [] else List.replicate (16 - extraBytes) 0

/-- The attributes of `ChaCha20_AEAD`, `cipher/chacha_poly.py` lines 539-541. -/
structure Aead where
  key : Bytes
  constant : Bytes

/-- The octet string under the MAC, `cipher/chacha_poly.py` lines 548-551. -/
def macData (aad cipherText : Bytes) : Bytes :=
  aad ++ pad16 aad ++ (cipherText ++ pad16 cipherText) ++ numToLeBytes 8 aad.length ++
    numToLeBytes 8 cipherText.length

/-- `ChaCha20_AEAD.encrypt`, `cipher/chacha_poly.py` lines 543-553.  `rand1` and `rand2` are the results of the first and
the second call of `urandom`, used only when `constant + iv` is empty. -/
def Aead.encrypt (rand1 rand2 : Bytes) (o : Aead) (aad iv plainText : Bytes) : Py (Bytes × Bytes) :=
  let nonce := o.constant ++ iv
  match poly1305KeyGen rand1 o.key nonce with
  | .error e => .error e
  | .ok otk =>
    match ChaCha.new rand2 o.key 1 (some nonce) with
    | .error e => .error e
    | .ok chacha20 =>
      let cipherText := (chacha20.encrypt plainText).2
      match poly1305Mac (macData aad cipherText) otk with
      | .error e => .error e
      | .ok tag => .ok (cipherText, tag)

/-- `ChaCha20_AEAD.decrypt`, `cipher/chacha_poly.py` lines 555-557. -/
def Aead.decrypt (rand1 rand2 : Bytes) (o : Aead) (aad iv cipherText : Bytes) :
    Py (Bytes × Bytes) :=
  o.encrypt rand1 rand2 aad iv cipherText

/-- The call `super()` without arguments, `cipher/chacha_poly.py` lines 562 and 568: in Python 2 `super` takes at least one
argument and raises `TypeError`. -/
def superNoArgs {α : Type} : Py α := .error .type

/-- `ChaCha_Poly_AEAD.encrypt`, `cipher/chacha_poly.py` lines 561-563. -/
def ChaChaPolyAead.encrypt (_o : Aead) (_aad iv _plainText : Bytes) : Py Bytes :=
  match (superNoArgs : Py (Bytes × Bytes)) with
  | .error e => .error e
  | .ok (cipherText, tag) => .ok (iv ++ cipherText ++ tag)

/-- `ChaCha_Poly_AEAD.decrypt`, `cipher/chacha_poly.py` lines 565-569: `tag_length` on line 567 is not defined in any
scope, so evaluation of the slice raises `NameError`. -/
def ChaChaPolyAead.decrypt (_o : Aead) (_aad _ivCipherTextTag : Bytes) : Py Unit :=
  match (.error .name : Py Int) with
  | .error e => .error e
  | .ok _tagLength => superNoArgs

end Cryptopy.Model
