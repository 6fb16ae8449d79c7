import Verif.Lemmas.Ecc

/-!
The map `(x, y) ↦ (u² x, u³ y)` between two curves in short Weierstrass form is a homomorphism of groups.
-/

namespace Cryptopy
open Spec WeierstrassCurve

variable {p : Nat} [hpf : Fact p.Prime] {a b a' b' : Int} {u : ZMod p}

theorem scale_nonsing (hu : u ≠ 0) (ha : (a' : ZMod p) = u ^ 4 * a) (hb : (b' : ZMod p) = u ^ 6 * b) {x y : ZMod p}
    (h : (wCurve p a b).Nonsingular x y) : (wCurve p a' b').Nonsingular (u ^ 2 * x) (u ^ 3 * y) := by
  rw [Affine.nonsingular_iff', Affine.equation_iff'] at h ⊢
  simp only [wCurve, zero_mul, add_zero, mul_zero, zero_sub, ha, hb] at h ⊢
  refine ⟨by linear_combination u ^ 6 * h.1, h.2.imp ?_ ?_⟩
  · intro h1 h2
    exact h1 ((mul_eq_zero.mp (show u ^ 4 * (-(3 * x ^ 2 + (a : ZMod p))) = 0 by linear_combination h2)).resolve_left
      (pow_ne_zero _ hu))
  · intro h1 h2
    exact h1 ((mul_eq_zero.mp (show u ^ 3 * (2 * y) = 0 by linear_combination h2)).resolve_left (pow_ne_zero _ hu))

/-- The map on points. -/
def scalePoint (hu : u ≠ 0) (ha : (a' : ZMod p) = u ^ 4 * a) (hb : (b' : ZMod p) = u ^ 6 * b) :
    (wCurve p a b).Point → (wCurve p a' b').Point
  | .zero => .zero
  | .some _ _ h => .some _ _ (scale_nonsing hu ha hb h)

private theorem negY_short {a b : Int} (x y : ZMod p) : (wCurve p a b).negY x y = -y := by
  simp [Affine.negY, wCurve]

private theorem slope_scale (hu : u ≠ 0) (ha : (a' : ZMod p) = u ^ 4 * a) {x1 x2 y1 y2 : ZMod p} :
    (wCurve p a' b').slope (u ^ 2 * x1) (u ^ 2 * x2) (u ^ 3 * y1) (u ^ 3 * y2) = u * (wCurve p a b).slope x1 x2 y1 y2 := by
  have h2 : u ^ 2 ≠ 0 := pow_ne_zero _ hu
  have h3 : u ^ 3 ≠ 0 := pow_ne_zero _ hu
  by_cases hx : x1 = x2
  · subst hx
    by_cases hy : y1 = -y2
    · subst hy
      rw [Affine.slope_of_Y_eq rfl (by rw [negY_short]; ring), Affine.slope_of_Y_eq rfl (by rw [negY_short]), mul_zero]
    · have hy' : u ^ 3 * y1 ≠ -(u ^ 3 * y2) := by
        intro h
        exact hy (mul_left_cancel₀ h3 (by linear_combination h))
      rw [Affine.slope_of_Y_ne rfl (by rwa [negY_short]), Affine.slope_of_Y_ne rfl (by rwa [negY_short]), negY_short,
        negY_short]
      simp only [wCurve, ha, mul_zero, zero_mul, add_zero, sub_zero]
      by_cases h0 : y1 - -y1 = 0
      · rw [h0, show u ^ 3 * y1 - -(u ^ 3 * y1) = u ^ 3 * (y1 - -y1) by ring, h0]
        simp
      · rw [show u ^ 3 * y1 - -(u ^ 3 * y1) = u ^ 3 * (y1 - -y1) by ring, mul_div_assoc', div_eq_div_iff
          (mul_ne_zero h3 h0) h0]
        ring
  · have hx' : u ^ 2 * x1 ≠ u ^ 2 * x2 := fun h => hx (mul_left_cancel₀ h2 h)
    have hs : x1 - x2 ≠ 0 := sub_ne_zero.mpr hx
    rw [Affine.slope_of_X_ne hx', Affine.slope_of_X_ne hx, ← mul_sub, ← mul_sub, mul_div_assoc',
      div_eq_div_iff (mul_ne_zero h2 hs) hs]
    ring

omit hpf in
theorem point_some_congr {W : Affine (ZMod p)} {x y x' y' : ZMod p} (h : W.Nonsingular x y) (hx : x = x') (hy : y = y')
    (h' : W.Nonsingular x' y') : Affine.Point.some _ _ h = Affine.Point.some _ _ h' := by
  subst hx hy; rfl

theorem scalePoint_add (hu : u ≠ 0) (ha : (a' : ZMod p) = u ^ 4 * a) (hb : (b' : ZMod p) = u ^ 6 * b)
    (P Q : (wCurve p a b).Point) :
    scalePoint hu ha hb (P + Q) = scalePoint hu ha hb P + scalePoint hu ha hb Q := by
  cases P with
  | zero =>
    change scalePoint hu ha hb (0 + Q) = 0 + _
    rw [zero_add, zero_add]
  | some x1 y1 h1 =>
    cases Q with
    | zero =>
      change scalePoint hu ha hb (_ + 0) = _ + 0
      rw [add_zero, add_zero]
    | some x2 y2 h2 =>
      have h3 : u ^ 3 ≠ 0 := pow_ne_zero _ hu
      by_cases hxy : x1 = x2 ∧ y1 = (wCurve p a b).negY x2 y2
      · rw [Affine.Point.add_of_Y_eq hxy.1 hxy.2]
        change (0 : (wCurve p a' b').Point) = Affine.Point.some _ _ _ + Affine.Point.some _ _ _
        rw [Affine.Point.add_of_Y_eq (by rw [hxy.1]) (by rw [hxy.2, negY_short, negY_short]; ring)]
      · rw [Affine.Point.add_some hxy]
        change Affine.Point.some _ _ _ = Affine.Point.some _ _ _ + Affine.Point.some _ _ _
        have hxy' : ¬ (u ^ 2 * x1 = u ^ 2 * x2 ∧ u ^ 3 * y1 = (wCurve p a' b').negY (u ^ 2 * x2) (u ^ 3 * y2)) := by
          rintro ⟨e1, e2⟩
          refine hxy ⟨mul_left_cancel₀ (pow_ne_zero 2 hu) e1, ?_⟩
          rw [negY_short] at e2 ⊢
          exact mul_left_cancel₀ h3 (by linear_combination e2)
        rw [Affine.Point.add_some hxy']
        apply point_some_congr
        · rw [slope_scale hu ha]
          simp only [Affine.addX, wCurve]
          ring
        · rw [slope_scale hu ha]
          simp only [Affine.addY, Affine.negAddY, Affine.addX, Affine.negY, wCurve]
          ring

/-- The map as a homomorphism. -/
def scaleHom (hu : u ≠ 0) (ha : (a' : ZMod p) = u ^ 4 * a) (hb : (b' : ZMod p) = u ^ 6 * b) :
    (wCurve p a b).Point →+ (wCurve p a' b').Point where
  toFun := scalePoint hu ha hb
  map_zero' := rfl
  map_add' := scalePoint_add hu ha hb

end Cryptopy
