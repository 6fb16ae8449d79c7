import Mathlib.Data.ZMod.Basic

/-!
RFC 7748 section 5: the functions decodeLittleEndian, decodeUCoordinate, decodeScalar25519, encodeUCoordinate, the
ladder and X25519.
-/

namespace Cryptopy.Spec.Rfc7748

/-- The variables of the ladder. -/
structure State (K : Type) where
  x2 : K
  z2 : K
  x3 : K
  z3 : K
  swap : Bool

/-- `cswap(swap, ., .)` of both pairs. -/
def State.cswap {K : Type} (s : State K) (swap : Bool) : State K :=
  if swap then { s with x2 := s.x3, z2 := s.z3, x3 := s.x2, z3 := s.z2 } else s

/-- The body of the loop for bit `t` of the scalar `k`; all operations are those of the field. -/
def step {K : Type} [CommRing K] (a24 x1 : K) (k : Nat) (s : State K) (t : Nat) : State K :=
  let kt := k.testBit t
  let s := s.cswap (s.swap ^^ kt)
  let A := s.x2 + s.z2
  let AA := A ^ 2
  let B := s.x2 - s.z2
  let BB := B ^ 2
  let E := AA - BB
  let C := s.x3 + s.z3
  let D := s.x3 - s.z3
  let DA := D * A
  let CB := C * B
  { x3 := (DA + CB) ^ 2
    z3 := x1 * (DA - CB) ^ 2
    x2 := AA * BB
    z2 := E * (AA + a24 * E)
    swap := kt }

/-- The variables after the loop over `bits - 1` down to 0 and the last conditional swap. -/
def loop {K : Type} [CommRing K] (bits : Nat) (a24 u : K) (k : Nat) : State K :=
  let s := (List.range bits).reverse.foldl (step a24 u k) ⟨1, 0, u, 1, false⟩
  s.cswap s.swap

/-- `x_2 * (z_2^(p - 2))` in the field with `p` elements. -/
def ladder (p bits : Nat) (a24 : ZMod p) (k : Nat) (u : ZMod p) : ZMod p :=
  (loop bits a24 u k).x2 * (loop bits a24 u k).z2 ^ (p - 2)

/-- decodeLittleEndian. -/
def decodeLE (b : List UInt8) : Nat := b.foldr (fun c r => c.toNat + 256 * r) 0

/-- decodeUCoordinate for 255 bits: the last bit of the last octet is masked. -/
def decodeU (u : List UInt8) : Nat := decodeLE (u.set 31 (u.getD 31 0 &&& 127))

/-- decodeScalar25519. -/
def decodeScalar (k : List UInt8) : Nat :=
  decodeLE ((k.set 0 (k.getD 0 0 &&& 248)).set 31 (((k.set 0 (k.getD 0 0 &&& 248)).getD 31 0 &&& 127) ||| 64))

/-- encodeUCoordinate for 255 bits, of a number below `p`. -/
def encodeU (x : Nat) : List UInt8 := (List.range 32).map fun i => UInt8.ofNat (x / 256 ^ i % 256)

/-- X25519: `a24` is 121665. -/
def x25519 (k u : List UInt8) : List UInt8 :=
  encodeU (ladder (2 ^ 255 - 19) 255 121665 (decodeScalar k) (decodeU u : ZMod (2 ^ 255 - 19))).val

end Cryptopy.Spec.Rfc7748
