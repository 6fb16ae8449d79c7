import Verif.Spec.Encoding
import Mathlib.Algebra.Polynomial.Div
import Mathlib.Data.ZMod.Basic

/-!
The field `GF(2^128)` as polynomials over `ZMod 2` modulo `x^128 + x^7 + x^2 + x + 1`.
-/

namespace Cryptopy.Spec
open Polynomial

/-- The polynomial whose coefficient of `x^i` is bit `i` of `n`. -/
noncomputable def bitPoly (k n : Nat) : (ZMod 2)[X] :=
  ∑ i ∈ Finset.range k, if n.testBit i then X ^ i else 0

/-- A 16 octet string as a polynomial of degree below 128, most significant bit first. -/
noncomputable def polyOf (s : Bytes) : (ZMod 2)[X] := bitPoly 128 (beValue s)

/-- The reduction polynomial of GCM, CMAC and SIV. -/
noncomputable def gf128 : (ZMod 2)[X] := X ^ 128 + (X ^ 7 + X ^ 2 + X + 1)

end Cryptopy.Spec
