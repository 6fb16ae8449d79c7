import Verif.Py
import Mathlib.Data.Nat.Digits.Defs

/-!
Specification vocabulary for octet strings, written without reference to the model.
-/

namespace Cryptopy.Spec

/-- Big-endian value of an octet string: the octet at distance `k` from the end has weight `256^k`. -/
def beValue : Bytes → Nat
  | [] => 0
  | c :: s => c.toNat * 256 ^ s.length + beValue s

/-- The shortest big-endian representation: no leading zero octet, except that zero is one octet. -/
def Canonical (s : Bytes) : Prop := s = [0] ∨ ∃ c t, s = c :: t ∧ c ≠ 0

/-- Positional value in base `b`, most significant digit first. -/
def posValue (b : Nat) : List Nat → Nat
  | [] => 0
  | d :: ds => d * b ^ ds.length + posValue b ds

/-- Octet-wise exclusive or of two strings, as long as the shorter one. -/
def xorBytes (a b : Bytes) : Bytes := List.zipWith (· ^^^ ·) a b

end Cryptopy.Spec
