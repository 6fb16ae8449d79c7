import Mathlib.Algebra.Polynomial.Basic
import Mathlib.Data.ZMod.Basic

/-! Specification vocabulary for the number theory properties. -/

namespace Cryptopy.Spec

open Polynomial

/-- The polynomial over `Z/p` whose coefficients, in increasing powers, are the given integers. -/
noncomputable def poly (p : Nat) : List Int → (ZMod p)[X]
  | [] => 0
  | a :: l => C (a : ZMod p) + X * poly p l

end Cryptopy.Spec
