import Mathlib.Data.Nat.Bitwise
import Mathlib.Data.Finset.Card
import Mathlib.Data.Finset.Range
import Mathlib.Order.ConditionallyCompleteLattice.Basic
import Mathlib.Order.Lattice.Nat

/-!
Specification of the Boolean function analysis: affine functions, Hamming distance, non-linearity.
-/

namespace Cryptopy.Spec

/-- The exclusive or of the input bits whose numbers are in `S`. -/
def linear (S : Finset Nat) (x : Nat) : Bool := decide ((S.filter fun i => x.testBit i = true).card % 2 = 1)

/-- An affine Boolean function. -/
def affine (S : Finset Nat) (c : Bool) (x : Nat) : Bool := xor c (linear S x)

/-- The number of inputs of `n` bits on which two functions differ. -/
def distance (n : Nat) (f g : Nat → Bool) : Nat := ((Finset.range (2 ^ n)).filter fun x => f x ≠ g x).card

/-- The distance of a function of `n` bits to the nearest affine function. -/
noncomputable def nonlin (n : Nat) (f : Nat → Bool) : Nat := sInf {d | ∃ S c, d = distance n f (affine S c)}

/-- The number of the set bits of a number is odd. -/
def oddBits (x : Nat) : Bool := decide (((Finset.range x).filter fun i => x.testBit i = true).card % 2 = 1)

end Cryptopy.Spec
