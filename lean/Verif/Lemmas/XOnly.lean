import Mathlib.AlgebraicGeometry.EllipticCurve.Affine.Point
import Mathlib.Tactic.LinearCombination
import Mathlib.Tactic.FieldSimp

/-!
Arithmetic of x-coordinates on a Weierstrass curve with `a₁ = a₃ = 0` over a field whose characteristic
is not two.
-/

namespace Cryptopy.XOnly
open WeierstrassCurve

variable {F : Type} [Field F] [DecidableEq F] {W : Affine F}

/-- The projective x-coordinate `(X : Z)` of a point; `Z = 0` for the point at infinity. -/
def XRep (X Z : F) : W.Point → Prop
  | .zero => Z = 0 ∧ X ≠ 0
  | .some x _ _ => Z ≠ 0 ∧ X = x * Z

omit [DecidableEq F] in
theorem xrep_zero {X Z : F} : XRep X Z (0 : W.Point) ↔ Z = 0 ∧ X ≠ 0 := Iff.rfl

omit [DecidableEq F] in
theorem xrep_some {X Z x y : F} {h : W.Nonsingular x y} :
    XRep X Z (Affine.Point.some x y h) ↔ Z ≠ 0 ∧ X = x * Z := Iff.rfl

omit [DecidableEq F] in
theorem xrep_neg {X Z : F} {Q : W.Point} : XRep X Z (-Q) ↔ XRep X Z Q := by
  cases Q with
  | zero => rfl
  | some x y h => rfl

omit [DecidableEq F] in
theorem negY_eq (h1 : W.a₁ = 0) (h3 : W.a₃ = 0) (x y : F) : W.negY x y = -y := by
  rw [Affine.negY, h1, h3]; ring

omit [DecidableEq F] in
theorem equation (h1 : W.a₁ = 0) (h3 : W.a₃ = 0) {x y : F} (h : W.Equation x y) :
    y ^ 2 = x ^ 3 + W.a₂ * x ^ 2 + W.a₄ * x + W.a₆ := by
  rw [Affine.equation_iff, h1, h3] at h
  linear_combination h

/-- Points with different x-coordinates. -/
theorem add_x (h1 : W.a₁ = 0) {x2 y2 x3 y3 : F} (n2 : W.Nonsingular x2 y2)
    (n3 : W.Nonsingular x3 y3) (hx : x2 ≠ x3) :
    ∃ x y h, Affine.Point.some x2 y2 n2 + Affine.Point.some x3 y3 n3 = Affine.Point.some x y h ∧
      x * (x2 - x3) ^ 2 = (y2 - y3) ^ 2 - (W.a₂ + x2 + x3) * (x2 - x3) ^ 2 := by
  refine ⟨_, _, _, Affine.Point.add_of_X_ne hx, ?_⟩
  have hd : x2 - x3 ≠ 0 := sub_ne_zero.mpr hx
  rw [Affine.addX, Affine.slope_of_X_ne hx, h1]
  field_simp
  ring

/-- Doubling a point that is not of order two. -/
theorem dbl_x (h1 : W.a₁ = 0) (h3 : W.a₃ = 0) (h2 : (2 : F) ≠ 0) {x y : F} (n : W.Nonsingular x y)
    (hy : y ≠ 0) :
    ∃ x' y' h, Affine.Point.some x y n + Affine.Point.some x y n = Affine.Point.some x' y' h ∧
      x' * (4 * y ^ 2) = (3 * x ^ 2 + 2 * W.a₂ * x + W.a₄) ^ 2 - 4 * y ^ 2 * (W.a₂ + 2 * x) := by
  have hne : y ≠ W.negY x y := by
    rw [negY_eq h1 h3]
    intro h
    exact (mul_ne_zero h2 hy) (by linear_combination h)
  refine ⟨_, _, _, Affine.Point.add_self_of_Y_ne hne, ?_⟩
  rw [Affine.addX, Affine.slope_of_Y_ne rfl hne, negY_eq h1 h3, h1]
  have hd : y - -y ≠ 0 := by rw [sub_neg_eq_add, ← two_mul]; exact mul_ne_zero h2 hy
  rw [show y - -y = 2 * y by ring] at hd ⊢
  field_simp
  ring

theorem dbl_zero (h1 : W.a₁ = 0) (h3 : W.a₃ = 0) {x : F} (n : W.Nonsingular x 0) :
    Affine.Point.some x 0 n + Affine.Point.some x 0 n = 0 :=
  Affine.Point.add_of_Y_eq rfl (by rw [negY_eq h1 h3, neg_zero])

omit [DecidableEq F] in
/-- Two finite points with the same x-coordinate are equal or opposite. -/
theorem eq_or_neg (h1 : W.a₁ = 0) (h3 : W.a₃ = 0) {x y y' : F} (n : W.Nonsingular x y)
    (n' : W.Nonsingular x y') :
    Affine.Point.some x y n = Affine.Point.some x y' n' ∨ Affine.Point.some x y n = -Affine.Point.some x y' n' := by
  have e := equation h1 h3 n.1
  have e' := equation h1 h3 n'.1
  have : (y - y') * (y + y') = 0 := by linear_combination e - e'
  rcases mul_eq_zero.mp this with h | h
  · left
    rw [Affine.Point.some.injEq]; exact ⟨rfl, sub_eq_zero.mp h⟩
  · right
    rw [Affine.Point.neg_some, Affine.Point.some.injEq, negY_eq h1 h3]
    exact ⟨rfl, eq_neg_of_add_eq_zero_left h⟩

/-- x-coordinate of the double. -/
theorem xrep_double (h1 : W.a₁ = 0) (h3 : W.a₃ = 0) (h2 : (2 : F) ≠ 0) {X Z : F} {Q : W.Point}
    (h : XRep X Z Q)
    (hns : ∀ x : F, x ^ 3 + W.a₂ * x ^ 2 + W.a₄ * x + W.a₆ = 0 →
      (x ^ 2 - W.a₄) ^ 2 - 8 * W.a₆ * x - 4 * W.a₂ * W.a₆ ≠ 0) :
    XRep ((X ^ 2 - W.a₄ * Z ^ 2) ^ 2 - 8 * W.a₆ * X * Z ^ 3 - 4 * W.a₂ * W.a₆ * Z ^ 4)
      (4 * Z * (X ^ 3 + W.a₂ * X ^ 2 * Z + W.a₄ * X * Z ^ 2 + W.a₆ * Z ^ 3)) (Q + Q) := by
  cases Q with
  | zero =>
    change XRep _ _ ((0 : W.Point) + 0)
    rw [add_zero, xrep_zero]
    obtain ⟨hz, hx⟩ := h
    subst hz
    constructor
    · ring
    · have : (X ^ 2 - W.a₄ * 0 ^ 2) ^ 2 - 8 * W.a₆ * X * 0 ^ 3 - 4 * W.a₂ * W.a₆ * 0 ^ 4 = X ^ 4 := by ring
      rw [this]; exact pow_ne_zero _ hx
  | some x y n =>
    obtain ⟨hz, hx⟩ := xrep_some.mp h
    have e := equation h1 h3 n.1
    subst hx
    have eZ : 4 * Z * ((x * Z) ^ 3 + W.a₂ * (x * Z) ^ 2 * Z + W.a₄ * (x * Z) * Z ^ 2 + W.a₆ * Z ^ 3)
        = 4 * y ^ 2 * Z ^ 4 := by rw [e]; ring
    have eX : ((x * Z) ^ 2 - W.a₄ * Z ^ 2) ^ 2 - 8 * W.a₆ * (x * Z) * Z ^ 3 - 4 * W.a₂ * W.a₆ * Z ^ 4
        = ((x ^ 2 - W.a₄) ^ 2 - 8 * W.a₆ * x - 4 * W.a₂ * W.a₆) * Z ^ 4 := by ring
    rw [eZ, eX]
    by_cases hy : y = 0
    · subst hy
      rw [dbl_zero h1 h3, xrep_zero]
      refine ⟨by ring, mul_ne_zero (hns x ?_) (pow_ne_zero _ hz)⟩
      rw [← e]; ring
    · obtain ⟨x', y', h', hs, hx'⟩ := dbl_x h1 h3 h2 n hy
      rw [hs, xrep_some]
      have h4 : (4 : F) ≠ 0 := by
        rw [show (4 : F) = 2 * 2 by norm_num]; exact mul_ne_zero h2 h2
      refine ⟨mul_ne_zero (mul_ne_zero h4 (pow_ne_zero _ hy)) (pow_ne_zero _ hz), ?_⟩
      linear_combination (- Z ^ 4) * hx' + Z ^ 4 * (4 * (W.a₂ + 2 * x)) * e

/-- Product of the x-coordinates of sum and difference. -/
theorem sum_diff (h1 : W.a₁ = 0) (h3 : W.a₃ = 0) {x2 y2 x3 y3 : F} (n2 : W.Nonsingular x2 y2)
    (n3 : W.Nonsingular x3 y3) (hx : x2 ≠ x3) :
    ∃ xs ys hs xd yd hd, Affine.Point.some x2 y2 n2 + Affine.Point.some x3 y3 n3 = Affine.Point.some xs ys hs ∧
      Affine.Point.some x3 y3 n3 - Affine.Point.some x2 y2 n2 = Affine.Point.some xd yd hd ∧
      xs * xd * (x2 - x3) ^ 2 = (x2 * x3 - W.a₄) ^ 2 - 4 * W.a₆ * (x2 + x3 + W.a₂) ∧
      (xs + xd) * (x2 - x3) ^ 2 = 2 * ((x2 + x3) * (x2 * x3 + W.a₄) + 2 * W.a₂ * x2 * x3 + 2 * W.a₆) := by
  have e2 := equation h1 h3 n2.1
  have e3 := equation h1 h3 n3.1
  obtain ⟨xs, ys, hs, s1, s2⟩ := add_x h1 n2 n3 hx
  have n2' : W.Nonsingular x2 (W.negY x2 y2) := (Affine.nonsingular_neg ..).mpr n2
  obtain ⟨xd, yd, hd, d1, d2⟩ := add_x h1 n3 n2' (Ne.symm hx)
  rw [negY_eq h1 h3] at d2
  have hne : (x2 - x3) ^ 2 ≠ 0 := pow_ne_zero _ (sub_ne_zero.mpr hx)
  refine ⟨xs, ys, hs, xd, yd, hd, s1, by rw [sub_eq_add_neg, Affine.Point.neg_some]; exact d1, ?_, ?_⟩
  · refine mul_right_cancel₀ hne ?_
    have d2' : xd * (x2 - x3) ^ 2 = (y3 + y2) ^ 2 - (W.a₂ + x2 + x3) * (x2 - x3) ^ 2 := by
      linear_combination d2
    calc xs * xd * (x2 - x3) ^ 2 * (x2 - x3) ^ 2 = (xs * (x2 - x3) ^ 2) * (xd * (x2 - x3) ^ 2) := by ring
      _ = ((y2 - y3) ^ 2 - (W.a₂ + x2 + x3) * (x2 - x3) ^ 2) * ((y3 + y2) ^ 2 - (W.a₂ + x2 + x3) * (x2 - x3) ^ 2) := by
        rw [s2, d2']
      _ = (y2 ^ 2 - y3 ^ 2) ^ 2 - 2 * (y2 ^ 2 + y3 ^ 2) * ((W.a₂ + x2 + x3) * (x2 - x3) ^ 2)
          + ((W.a₂ + x2 + x3) * (x2 - x3) ^ 2) ^ 2 := by ring
      _ = _ := by rw [e2, e3]; ring
  · linear_combination s2 + d2 + 2 * e2 + 2 * e3

end Cryptopy.XOnly
