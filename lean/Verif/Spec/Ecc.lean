import Mathlib.AlgebraicGeometry.EllipticCurve.Affine.Point
import Mathlib.Data.ZMod.Basic
import Mathlib.Algebra.Field.ZMod

/-!
Specification of elliptic curves over `ZMod p`: the group of points of Mathlib.
-/

namespace Cryptopy.Spec

/-- The curve `y² = x³ + a x + b` over the integers modulo `p`. -/
def wCurve (p : Nat) (a b : Int) : WeierstrassCurve.Affine (ZMod p) :=
  { a₁ := 0, a₂ := 0, a₃ := 0, a₄ := (a : ZMod p), a₆ := (b : ZMod p) }

/-- The curve `y² = x³ + a x² + x` over the integers modulo `p`. -/
def mCurve (p : Nat) (a : Int) : WeierstrassCurve.Affine (ZMod p) :=
  { a₁ := 0, a₂ := (a : ZMod p), a₃ := 0, a₄ := 1, a₆ := 0 }

/-- The same curve over another field. -/
def mCurveOver (K : Type) [Field K] (a : Int) : WeierstrassCurve.Affine K :=
  { a₁ := 0, a₂ := (a : K), a₃ := 0, a₄ := 1, a₆ := 0 }

/-- A pair of integer coordinates, or a pair of missing ones, stands for a point of the group. -/
inductive Represents {p : Nat} {a b : Int} : Option Int → Option Int → (wCurve p a b).Point → Prop
  | infinity : Represents none none 0
  | affine (x y : Int) (h : (wCurve p a b).Nonsingular (x : ZMod p) (y : ZMod p)) :
      Represents (some x) (some y) (.some (x : ZMod p) (y : ZMod p) h)

/-- A missing coordinate, or an integer in `[0, p)`. -/
def InRange (p : Nat) (o : Option Int) : Prop := ∀ v, o = some v → 0 ≤ v ∧ v < p

/-- The affine x-coordinate, 0 for the point at infinity. -/
def xOrZero {F : Type} [Field F] {W : WeierstrassCurve.Affine F} : W.Point → F
  | .zero => 0
  | .some x _ _ => x

end Cryptopy.Spec
