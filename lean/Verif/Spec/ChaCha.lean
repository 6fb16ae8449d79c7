import Verif.Spec.Encoding
import Mathlib.Algebra.BigOperators.Group.Finset.Basic
import Mathlib.Data.Nat.ModEq

/-!
Specifications written from RFC 7539, on 32-bit machine words.
-/

namespace Cryptopy.Spec

/-- Little-endian value of an octet string: octet `i` has weight `256^i`. -/
def leValue : Bytes → Nat
  | [] => 0
  | c :: s => c.toNat + 256 * leValue s

/-- The `k` octet little-endian representation of `n` (of `n mod 256^k`). -/
def leBytes : Nat → Nat → Bytes
  | 0, _ => []
  | k + 1, n => UInt8.ofNat (n % 256) :: leBytes k (n / 256)

/-- A 32-bit word. -/
abbrev Word := BitVec 32

/-- RFC 7539 section 2.1. -/
def quarter (a b c d : Word) : Word × Word × Word × Word :=
  let a := a + b; let d := (d ^^^ a).rotateLeft 16
  let c := c + d; let b := (b ^^^ c).rotateLeft 12
  let a := a + b; let d := (d ^^^ a).rotateLeft 8
  let c := c + d; let b := (b ^^^ c).rotateLeft 7
  (a, b, c, d)

/-- The ChaCha state, sixteen words. -/
abbrev State := Fin 16 → Word

/-- RFC 7539 section 2.2: the quarter round on four entries of the state. -/
def quarterAt (x y z w : Fin 16) (s : State) : State :=
  let r := quarter (s x) (s y) (s z) (s w)
  fun i => if i = x then r.1 else if i = y then r.2.1 else if i = z then r.2.2.1
    else if i = w then r.2.2.2 else s i

/-- RFC 7539 section 2.3: a column round and a diagonal round. -/
def doubleRound (s : State) : State :=
  (quarterAt 3 4 9 14 ∘ quarterAt 2 7 8 13 ∘ quarterAt 1 6 11 12 ∘ quarterAt 0 5 10 15 ∘
   quarterAt 3 7 11 15 ∘ quarterAt 2 6 10 14 ∘ quarterAt 1 5 9 13 ∘ quarterAt 0 4 8 12) s

/-- Word `i` of an octet string read as little-endian words. -/
def leWord (s : Bytes) (i : Nat) : Word := BitVec.ofNat 32 (leValue ((s.drop (4 * i)).take 4))

/-- The octets of the ASCII text "expand 32-byte k". -/
def sigma : Bytes := [101, 120, 112, 97, 110, 100, 32, 51, 50, 45, 98, 121, 116, 101, 32, 107]

/-- RFC 7539 section 2.3: the initial state. -/
def initState (key : Bytes) (counter : Word) (nonce : Bytes) : State := fun i =>
  if i < 4 then leWord sigma i
  else if i < 12 then leWord key (i - 4)
  else if i = 12 then counter
  else leWord nonce (i - 13)

/-- Serialisation of a state, word by word in little-endian order. -/
def serialize (s : State) : Bytes := (List.ofFn fun i => leBytes 4 (s i).toNat).flatten

/-- RFC 7539 section 2.3: the block function, twenty rounds and addition of the input state. -/
def chachaBlock (key : Bytes) (counter : Word) (nonce : Bytes) : Bytes :=
  let s := initState key counter nonce
  serialize fun i => s i + doubleRound^[10] s i

/-- RFC 7539 section 2.4: the key stream of `n` blocks from a given counter. -/
def chachaStream (key : Bytes) (counter : Nat) (nonce : Bytes) (n : Nat) : Bytes :=
  (List.range n).flatMap fun j => chachaBlock key (BitVec.ofNat 32 (counter + j)) nonce

/-- RFC 7539 section 2.4. -/
def chachaEncrypt (key : Bytes) (counter : Nat) (nonce pt : Bytes) : Bytes :=
  xorBytes pt (chachaStream key counter nonce ((pt.length + 63) / 64))

/-- RFC 7539 section 2.5: `r[3], r[7], r[11], r[15]` get their top four bits cleared and
`r[4], r[8], r[12]` their bottom two bits. -/
def clampOctets (r : Bytes) : Bytes :=
  r.mapIdx fun i c =>
    if i = 3 ∨ i = 7 ∨ i = 11 ∨ i = 15 then c &&& 15
    else if i = 4 ∨ i = 8 ∨ i = 12 then c &&& 252 else c

/-- The prime of Poly1305. -/
def P1305 : Nat := 2 ^ 130 - 5

/-- Number of 16 octet blocks, the last one possibly short. -/
def polyBlocks (m : Bytes) : Nat := (m.length + 15) / 16

/-- Block `i` (from 0) as a number, with one more bit set beyond its octets. -/
def polyCoeff (m : Bytes) (i : Nat) : Nat :=
  let b := (m.drop (16 * i)).take 16
  leValue b + 2 ^ (8 * b.length)

/-- The polynomial hash of Poly1305: `c_1 r^q + c_2 r^(q-1) + ... + c_q r mod 2^130 - 5`. -/
def polyHash (m : Bytes) (r : Nat) : Nat :=
  (∑ i ∈ Finset.range (polyBlocks m), polyCoeff m i * r ^ (polyBlocks m - i)) % P1305

/-- RFC 7539 section 2.5 for a 32 octet key. -/
def poly1305 (m key : Bytes) : Bytes :=
  leBytes 16 (polyHash m (leValue (clampOctets (key.take 16))) + leValue (key.drop 16))

/-- RFC 7539 section 2.8: zero padding to a multiple of 16 octets. -/
def pad16 (x : Bytes) : Bytes := List.replicate ((16 - x.length % 16) % 16) 0

/-- RFC 7539 section 2.8: AEAD encryption, giving ciphertext and tag. -/
def aeadEncrypt (key nonce aad pt : Bytes) : Bytes × Bytes :=
  let otk := (chachaBlock key 0 nonce).take 32
  let ct := chachaEncrypt key 1 nonce pt
  (ct, poly1305 (aad ++ pad16 aad ++ ct ++ pad16 ct ++ leBytes 8 aad.length ++ leBytes 8 ct.length)
    otk)

end Cryptopy.Spec
