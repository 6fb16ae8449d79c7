import Mathlib.Algebra.Polynomial.Basic
import Mathlib.Data.ZMod.Defs

/-!
Published definitions of 8-bit substitution boxes, from which the tables can be computed: FIPS 197 (AES),
the algebraic form of GB/T 32907 (SMS4) and STB 34.101.31 (BelT). An octet is a polynomial of degree below 8 over
the field of two elements, bit `i` being the coefficient of `X^i`.
-/

namespace Cryptopy.Spec.Sbox8
open Polynomial

/-- The polynomial over the field of two elements whose coefficient of `X^i` is bit `i` of `n`. -/
noncomputable def poly (n : Nat) : (ZMod 2)[X] := ∑ i ∈ Finset.range 16, if n.testBit i then X ^ i else 0

/-- `y` is the inverse of `x` modulo the polynomial of `m`, where 0 is the inverse of 0. -/
def InverseMod (m x y : Nat) : Prop :=
  x < 256 ∧ y < 256 ∧ ((x = 0 ∧ y = 0) ∨ poly m ∣ poly x * poly y - 1)

/-- Bit `i`, counted modulo 8. -/
def bit (x i : Nat) : Bool := x.testBit (i % 8)

/-- FIPS 197 section 5.1.1: inversion modulo `X^8 + X^4 + X^3 + X + 1`, then
`b_i + b_(i+4) + b_(i+5) + b_(i+6) + b_(i+7) + c_i` with `c` the octet 63. -/
def IsAes (x s : Nat) : Prop :=
  s < 256 ∧ ∃ y, InverseMod 0b100011011 x y ∧
    ∀ i < 8, bit s i = (bit y i ^^ bit y (i + 4) ^^ bit y (i + 5) ^^ bit y (i + 6) ^^ bit y (i + 7) ^^ bit 0x63 i)

/-- `t` is the SMS4 affine map of `x`: the circulant matrix with first row A7 and the constant D3. -/
def Sms4Affine (x t : Nat) : Prop :=
  t < 256 ∧ ∀ i < 8, bit t i = (bit x i ^^ bit x (i + 1) ^^ bit x (i + 2) ^^ bit x (i + 5) ^^ bit x (i + 7) ^^ bit 0xd3 i)

/-- SMS4: the affine map, inversion modulo `X^8 + X^7 + X^6 + X^5 + X^4 + X^2 + 1`, the affine map. -/
def IsSms4 (x s : Nat) : Prop :=
  ∃ t y, Sms4Affine x t ∧ InverseMod 0b111110101 t y ∧ Sms4Affine y s

/-- One step of the shift register of STB 34.101.31: bits move down by one and the top bit becomes the sum of
bits 0, 1, 5 and 6. -/
def beltShift (t : Nat) : Nat :=
  t / 2 + 128 * (bit t 0 ^^ bit t 1 ^^ bit t 5 ^^ bit t 6).toNat

/-- STB 34.101.31: the table is 0 at 10 and 8E at 11, and each further entry, cyclically up to the one at 9, is the
one before it moved on by 116 steps. -/
def IsBelt (table : List Nat) : Prop :=
  table.length = 256 ∧ table[10]? = some 0 ∧ table[11]? = some 0x8e ∧
    ∀ k < 254, table[(12 + k) % 256]? = (table[(11 + k) % 256]?).map beltShift^[116]

end Cryptopy.Spec.Sbox8
