import Mathlib.AlgebraicGeometry.EllipticCurve.Affine.Point
import Verif.Spec.Edwards
import Verif.Lemmas.XOnly

/-!
The group of a complete twisted Edwards curve is the group of a Weierstrass curve (Bernstein, Birkner, Joye, Lange,
Peters). Independent of the code.
-/

namespace Cryptopy.EW
open WeierstrassCurve Spec Spec.Edwards

variable {K : Type} [Field K] [DecidableEq K] {E : Edwards K}

/-! ### Addition on a short Weierstrass curve -/

/-- The point is the finite one with these coordinates. -/
def Is {W : Affine K} (Q : W.Point) (x y : K) : Prop := ∃ n, Q = .some x y n

section short
variable {W : Affine K} (h1 : W.a₁ = 0) (h2 : W.a₂ = 0) (h3 : W.a₃ = 0)
include h1 h2 h3

theorem add_is {P Q : W.Point} {x1 y1 x2 y2 x3 y3 l : K} (hP : Is P x1 y1) (hQ : Is Q x2 y2) (hx : x1 ≠ x2)
    (hl : l * (x1 - x2) = y1 - y2) (hx3 : x3 = l ^ 2 - x1 - x2) (hy3 : y3 = l * (x1 - x3) - y1) : Is (P + Q) x3 y3 := by
  obtain ⟨n1, rfl⟩ := hP
  obtain ⟨n2, rfl⟩ := hQ
  have hs : W.slope x1 x2 y1 y2 = l := by
    rw [Affine.slope_of_X_ne hx, div_eq_iff (sub_ne_zero.mpr hx), hl]
  have hX : W.addX x1 x2 l = x3 := by rw [Affine.addX, h1, h2, hx3]; ring
  have hY : W.addY x1 x2 y1 l = y3 := by
    rw [Affine.addY, Affine.negAddY, hX, XOnly.negY_eq h1 h3, hy3]; ring
  have e := Affine.Point.add_of_X_ne (h₁ := n1) (h₂ := n2) hx
  have hns := Affine.nonsingular_add n1 n2 (fun hxy => hx hxy.left)
  rw [hs, hX, hY] at hns
  refine ⟨hns, ?_⟩
  rw [e, Affine.Point.some.injEq, hs, hX, hY]
  exact ⟨rfl, rfl⟩

theorem double_is (h22 : (2 : K) ≠ 0) {P : W.Point} {x1 y1 x3 y3 l : K} (hP : Is P x1 y1) (hy : y1 ≠ 0)
    (hl : l * (2 * y1) = 3 * x1 ^ 2 + W.a₄) (hx3 : x3 = l ^ 2 - x1 - x1) (hy3 : y3 = l * (x1 - x3) - y1) :
    Is (P + P) x3 y3 := by
  obtain ⟨n1, rfl⟩ := hP
  have hneg : y1 ≠ W.negY x1 y1 := by
    rw [XOnly.negY_eq h1 h3]
    intro h
    exact (mul_ne_zero h22 hy) (by linear_combination h)
  have hs : W.slope x1 x1 y1 y1 = l := by
    rw [Affine.slope_of_Y_ne rfl hneg, XOnly.negY_eq h1 h3, div_eq_iff, h1, h2]
    · linear_combination -hl
    · rw [sub_neg_eq_add, ← two_mul]; exact mul_ne_zero h22 hy
  have hX : W.addX x1 x1 l = x3 := by rw [Affine.addX, h1, h2, hx3]; ring
  have hY : W.addY x1 x1 y1 l = y3 := by
    rw [Affine.addY, Affine.negAddY, hX, XOnly.negY_eq h1 h3, hy3]; ring
  have e := Affine.Point.add_self_of_Y_ne (h₁ := n1) hneg
  have hns := Affine.nonsingular_add n1 n1 (fun hxy => hneg hxy.right)
  rw [hs, hX, hY] at hns
  refine ⟨hns, ?_⟩
  rw [e, Affine.Point.some.injEq, hs, hX, hY]
  exact ⟨rfl, rfl⟩

end short

omit [DecidableEq K] in
theorem is_unique {W : Affine K} {P Q : W.Point} {x y : K} (hP : Is P x y) (hQ : Is Q x y) : P = Q := by
  obtain ⟨_, rfl⟩ := hP
  obtain ⟨_, rfl⟩ := hQ
  rfl

/-! ### The Weierstrass curve -/

/-- `(a - d) / 4`. -/
def sOf (E : Edwards K) : K := (E.a - E.d) / 4

/-- `(a + d) / 6`. -/
def tOf (E : Edwards K) : K := (E.a + E.d) / 6

/-- The curve `y² = x³ + (s² - 3 t²) x + (2 t³ - t s²)`. -/
def curve (E : Edwards K) : Affine K :=
  { a₁ := 0, a₂ := 0, a₃ := 0, a₄ := sOf E ^ 2 - 3 * tOf E ^ 2, a₆ := 2 * tOf E ^ 3 - tOf E * sOf E ^ 2 }

omit [DecidableEq K] in
theorem four_ne (E : Edwards K) : (4 : K) ≠ 0 := by
  rw [show (4 : K) = 2 * 2 by norm_num]; exact mul_ne_zero E.two E.two

omit [DecidableEq K] in
theorem s_ne (E : Edwards K) : sOf E ≠ 0 := div_ne_zero (sub_ne_zero.mpr E.a_ne_d) (four_ne E)

omit [DecidableEq K] in
theorem s_eq (E : Edwards K) : 4 * sOf E = E.a - E.d := by
  rw [sOf, mul_div_cancel₀ _ (four_ne E)]

omit [DecidableEq K] in
theorem t_eq (E : Edwards K) (h3 : (3 : K) ≠ 0) : 6 * tOf E = E.a + E.d := by
  rw [tOf, mul_div_cancel₀]
  rw [show (6 : K) = 2 * 3 by norm_num]; exact mul_ne_zero E.two h3

omit [DecidableEq K] in
/-- Points of the Weierstrass curve are not singular. -/
theorem nonsing (h3 : (3 : K) ≠ 0) {x y : K}
    (h : y ^ 2 = x ^ 3 + (sOf E ^ 2 - 3 * tOf E ^ 2) * x + (2 * tOf E ^ 3 - tOf E * sOf E ^ 2)) :
    (curve E).Nonsingular x y := by
  refine (Affine.equation_iff_nonsingular_of_Δ_ne_zero ?_).mp ?_
  · have e : (curve E).Δ = 2 ^ 4 * sOf E ^ 4 * (E.a * E.d) := by
      have hs := s_eq E
      have ht := t_eq E h3
      have : (2 : K) ^ 2 * (E.a * E.d) = 2 ^ 2 * (9 * tOf E ^ 2 - 4 * sOf E ^ 2) := by
        linear_combination (-(E.a + E.d) - 6 * tOf E) * ht + ((E.a - E.d) + 4 * sOf E) * hs
      rw [mul_left_cancel₀ (pow_ne_zero 2 E.two) this]
      simp only [WeierstrassCurve.Δ, WeierstrassCurve.b₂, WeierstrassCurve.b₄, WeierstrassCurve.b₆,
        WeierstrassCurve.b₈, curve]
      ring
    rw [e]
    exact mul_ne_zero (mul_ne_zero (pow_ne_zero _ E.two) (pow_ne_zero _ (s_ne E))) (mul_ne_zero E.a_ne E.d_ne)
  · rw [Affine.equation_iff]
    simp only [curve]
    linear_combination h

/-! ### Identities -/

section algebra
variable {a d s t x y x1 y1 x2 y2 x3 y3 : K}

omit [DecidableEq K]

/-- The image satisfies the equation. -/
theorem alg_on (hs : 4 * s = a - d) (ht : 6 * t = a + d) (h2 : (2 : K) ≠ 0) (hx : x ≠ 0) (hy : 1 - y ≠ 0)
    (e : a * x ^ 2 + y ^ 2 = 1 + d * x ^ 2 * y ^ 2) :
    (s * ((1 + y) / (1 - y)) / x) ^ 2 = (s * ((1 + y) / (1 - y)) + t) ^ 3 +
      (s ^ 2 - 3 * t ^ 2) * (s * ((1 + y) / (1 - y)) + t) + (2 * t ^ 3 - t * s ^ 2) := by
  have e' : (1 + y) = x ^ 2 * (s * (1 + y) ^ 2 + 3 * t * (1 + y) * (1 - y) + s * (1 - y) ^ 2) / (1 - y) := by
    rw [eq_div_iff hy]
    have : (2 : K) * ((1 + y) * (1 - y)) =
        2 * (x ^ 2 * (s * (1 + y) ^ 2 + 3 * t * (1 + y) * (1 - y) + s * (1 - y) ^ 2)) := by
      linear_combination (-2) * e - x ^ 2 * (1 + y ^ 2) * hs - x ^ 2 * (1 - y ^ 2) * ht
    exact mul_left_cancel₀ h2 this
  rw [eq_div_iff hy] at e'
  field_simp
  linear_combination s ^ 2 * (1 + y) * e'

/-- Dual form of the y-coordinate of a sum. -/
theorem alg_y3 (e1 : a * x1 ^ 2 + y1 ^ 2 = 1 + d * x1 ^ 2 * y1 ^ 2) (e2 : a * x2 ^ 2 + y2 ^ 2 = 1 + d * x2 ^ 2 * y2 ^ 2)
    (hm : 1 - d * x1 * x2 * y1 * y2 ≠ 0) (h3 : y3 = (y1 * y2 - a * x1 * x2) / (1 - d * x1 * x2 * y1 * y2)) :
    y3 * (x1 * y2 - x2 * y1) = x1 * y1 - x2 * y2 := by
  rw [h3, div_mul_eq_mul_div, div_eq_iff hm]
  linear_combination (-(x2 * y2)) * e1 + x1 * y1 * e2

/-- Different x-coordinates: the third x. -/
theorem alg_add_x (hs : 4 * s = a - d) (ht : 6 * t = a + d) (h2 : (2 : K) ≠ 0) (hx1 : x1 ≠ 0) (hx2 : x2 ≠ 0)
    (h1 : 1 - y1 ≠ 0) (h1' : 1 - y2 ≠ 0) (hyy : y2 ^ 2 - y1 ^ 2 ≠ 0) (hxx : x1 + x2 ≠ 0)
    (e1 : a * x1 ^ 2 + y1 ^ 2 = 1 + d * x1 ^ 2 * y1 ^ 2) (e2 : a * x2 ^ 2 + y2 ^ 2 = 1 + d * x2 ^ 2 * y2 ^ 2)
    (hy3 : y3 * (x1 * y2 - x2 * y1) = x1 * y1 - x2 * y2) (h3 : 1 - y3 ≠ 0) :
    s * ((1 + y3) / (1 - y3)) + t =
      (((1 + y1) / (1 - y1) / x1 - (1 + y2) / (1 - y2) / x2) / ((1 + y1) / (1 - y1) - (1 + y2) / (1 - y2))) ^ 2 -
        (s * ((1 + y1) / (1 - y1)) + t) - (s * ((1 + y2) / (1 - y2)) + t) := by
  have hym : y2 - y1 ≠ 0 := fun h => hyy (by linear_combination (y2 + y1) * h)
  have hyp : y2 + y1 ≠ 0 := fun h => hyy (by linear_combination (y2 - y1) * h)
  have w3 : (1 + y3) / (1 - y3) = (x1 - x2) * (y1 + y2) / ((x1 + x2) * (y2 - y1)) := by
    rw [div_eq_div_iff h3 (mul_ne_zero hxx hym)]
    linear_combination 2 * hy3
  rw [w3]
  have hw : (1 + y1) / (1 - y1) - (1 + y2) / (1 - y2) = 2 * (y1 - y2) / ((1 - y1) * (1 - y2)) := by
    field_simp; ring
  rw [hw]
  have hD : x1 ^ 2 * x2 ^ 2 * (y2 ^ 2 - y1 ^ 2) ≠ 0 := by
    exact mul_ne_zero (mul_ne_zero (pow_ne_zero _ hx1) (pow_ne_zero _ hx2)) hyy
  have es : 4 * s * (x1 ^ 2 * x2 ^ 2 * (y2 ^ 2 - y1 ^ 2)) = (1 - y1 ^ 2) * (1 - y2 ^ 2) * (x1 ^ 2 - x2 ^ 2) := by
    linear_combination (x1 ^ 2 * x2 ^ 2 * (y2 ^ 2 - y1 ^ 2)) * hs + (x2 ^ 2 * y2 ^ 2 - x2 ^ 2) * e1 - (x1 ^ 2 * y1 ^ 2 - x1 ^ 2) * e2
  have et : 6 * t * (x1 ^ 2 * x2 ^ 2 * (y2 ^ 2 - y1 ^ 2)) =
      (1 - y1 ^ 2) * (1 + y2 ^ 2) * x2 ^ 2 - (1 - y2 ^ 2) * (1 + y1 ^ 2) * x1 ^ 2 := by
    linear_combination (x1 ^ 2 * x2 ^ 2 * (y2 ^ 2 - y1 ^ 2)) * ht + (x2 ^ 2 * y2 ^ 2 + x2 ^ 2) * e1 - (x1 ^ 2 * y1 ^ 2 + x1 ^ 2) * e2
  have key : (1 - y1 ^ 2) * (1 - y2 ^ 2) * (x1 ^ 2 - x2 ^ 2) * ((1 + y1) / (1 - y1) + (1 + y2) / (1 - y2) +
      (x1 - x2) * (y1 + y2) / ((x1 + x2) * (y2 - y1))) +
      2 * ((1 - y1 ^ 2) * (1 + y2 ^ 2) * x2 ^ 2 - (1 - y2 ^ 2) * (1 + y1 ^ 2) * x1 ^ 2) =
      4 * (x1 ^ 2 * x2 ^ 2 * (y2 ^ 2 - y1 ^ 2)) *
        (((1 + y1) / (1 - y1) / x1 - (1 + y2) / (1 - y2) / x2) / (2 * (y1 - y2) / ((1 - y1) * (1 - y2)))) ^ 2 := by
    have hym' : y1 - y2 ≠ 0 := fun h => hym (by linear_combination -h)
    rw [show y2 - y1 = -(y1 - y2) by ring]
    field_simp
    ring
  have h4 : (4 : K) * (x1 ^ 2 * x2 ^ 2 * (y2 ^ 2 - y1 ^ 2)) ≠ 0 :=
    mul_ne_zero (by rw [show (4 : K) = 2 * 2 by norm_num]; exact mul_ne_zero h2 h2) hD
  refine mul_left_cancel₀ h4 ?_
  rw [← es, ← et] at key
  linear_combination key

/-- Different x-coordinates: the third y. -/
theorem alg_add_y (h2 : (2 : K) ≠ 0) (hx1 : x1 ≠ 0) (hx2 : x2 ≠ 0)
    (h1 : 1 - y1 ≠ 0) (h1' : 1 - y2 ≠ 0) (hyy : y2 ^ 2 - y1 ^ 2 ≠ 0) (hxx : x1 + x2 ≠ 0)
    (e1 : a * x1 ^ 2 + y1 ^ 2 = 1 + d * x1 ^ 2 * y1 ^ 2) (e2 : a * x2 ^ 2 + y2 ^ 2 = 1 + d * x2 ^ 2 * y2 ^ 2)
    (hx3 : x3 = (x1 * y2 + x2 * y1) / (1 + d * x1 * x2 * y1 * y2)) (h0 : x3 ≠ 0)
    (hy3 : y3 * (x1 * y2 - x2 * y1) = x1 * y1 - x2 * y2) (h3 : 1 - y3 ≠ 0) :
    (1 + y3) / (1 - y3) / x3 =
      ((1 + y1) / (1 - y1) / x1 - (1 + y2) / (1 - y2) / x2) / ((1 + y1) / (1 - y1) - (1 + y2) / (1 - y2)) *
        ((1 + y1) / (1 - y1) - (1 + y3) / (1 - y3)) - (1 + y1) / (1 - y1) / x1 := by
  have hym : y2 - y1 ≠ 0 := fun h => hyy (by linear_combination (y2 + y1) * h)
  have hyp : y2 + y1 ≠ 0 := fun h => hyy (by linear_combination (y2 - y1) * h)
  have w3 : (1 + y3) / (1 - y3) = (x1 - x2) * (y1 + y2) / ((x1 + x2) * (y2 - y1)) := by
    rw [div_eq_div_iff h3 (mul_ne_zero hxx hym)]
    linear_combination 2 * hy3
  rw [w3]
  have hw : (1 + y1) / (1 - y1) - (1 + y2) / (1 - y2) = 2 * (y1 - y2) / ((1 - y1) * (1 - y2)) := by
    field_simp; ring
  rw [hw]
  have hn : x1 * y2 + x2 * y1 ≠ 0 := fun h => h0 (by rw [hx3, h, zero_div])
  have ex : (1 + d * x1 * x2 * y1 * y2) * (x1 * x2 * (y2 ^ 2 - y1 ^ 2)) =
      x1 * x2 * (y2 ^ 2 - y1 ^ 2) + y1 * y2 * ((1 - y1 ^ 2) * x2 ^ 2 - (1 - y2 ^ 2) * x1 ^ 2) := by
    linear_combination y1 * y2 * x2 ^ 2 * e1 - y1 * y2 * x1 ^ 2 * e2
  have hD : x1 * x2 * (y2 ^ 2 - y1 ^ 2) ≠ 0 := mul_ne_zero (mul_ne_zero hx1 hx2) hyy
  have ix : x3⁻¹ = (x1 * x2 * (y2 ^ 2 - y1 ^ 2) + y1 * y2 * ((1 - y1 ^ 2) * x2 ^ 2 - (1 - y2 ^ 2) * x1 ^ 2)) /
      (x1 * x2 * (y2 ^ 2 - y1 ^ 2) * (x1 * y2 + x2 * y1)) := by
    rw [hx3, inv_div, div_eq_div_iff hn (mul_ne_zero hD hn), ← ex]
    ring
  rw [div_eq_mul_inv _ x3, ix]
  have hym' : y1 - y2 ≠ 0 := fun h => hym (by linear_combination -h)
  rw [show y2 ^ 2 - y1 ^ 2 = -((y1 - y2) * (y1 + y2)) by ring]
  have hyp' : y1 + y2 ≠ 0 := fun h => hyp (by linear_combination h)
  rw [show y2 - y1 = -(y1 - y2) by ring]
  field_simp
  ring

/-- Doubling: the slope. -/
theorem alg_slope (hs : 4 * s = a - d) (ht : 6 * t = a + d) (h2 : (2 : K) ≠ 0) (hx : x ≠ 0) (h1 : 1 - y ≠ 0)
    (e : a * x ^ 2 + y ^ 2 = 1 + d * x ^ 2 * y ^ 2) :
    (2 + y - d * x ^ 2 * y) / (2 * x) * (2 * (s * ((1 + y) / (1 - y)) / x)) =
      3 * (s * ((1 + y) / (1 - y)) + t) ^ 2 + (s ^ 2 - 3 * t ^ 2) := by
  have key : (2 + y - d * x ^ 2 * y) * (1 + y) * (1 - y) = x ^ 2 * (3 * s * (1 + y) ^ 2 + 6 * t * (1 + y) * (1 - y) +
      s * (1 - y) ^ 2) := by
    have h4 : (4 : K) ≠ 0 := by rw [show (4 : K) = 2 * 2 by norm_num]; exact mul_ne_zero h2 h2
    refine mul_left_cancel₀ h4 ?_
    linear_combination (-4) * (2 + y) * e - x ^ 2 * (3 * (1 + y) ^ 2 + (1 - y) ^ 2) * hs -
      4 * x ^ 2 * (1 + y) * (1 - y) * ht
  field_simp
  linear_combination s * key

/-- Doubling: `(1 + y₃) / (1 - y₃)`. -/
theorem alg_w3 (h2 : (2 : K) ≠ 0) (e : a * x ^ 2 + y ^ 2 = 1 + d * x ^ 2 * y ^ 2)
    (hm : 1 - d * x * x * y * y ≠ 0) (hy3 : y3 = (y * y - a * x * x) / (1 - d * x * x * y * y)) :
    (1 + y3) / (1 - y3) = y ^ 2 * (1 - d * x ^ 2) / ((1 - y) * (1 + y)) := by
  have n1 : 1 - y3 = 2 * ((1 - y) * (1 + y)) / (1 - d * x * x * y * y) := by
    rw [hy3, eq_div_iff hm, sub_mul, div_mul_cancel₀ _ hm]
    linear_combination e
  have n2 : 1 + y3 = 2 * (y ^ 2 * (1 - d * x ^ 2)) / (1 - d * x * x * y * y) := by
    rw [hy3, eq_div_iff hm, add_mul, div_mul_cancel₀ _ hm]
    linear_combination -e
  rw [n1, n2, div_div_div_cancel_right₀ hm, mul_div_mul_left _ _ h2]

/-- Doubling: the x-coordinate. -/
theorem alg_dbl_x (hs : 4 * s = a - d) (ht : 6 * t = a + d) (h2 : (2 : K) ≠ 0) (hx : x ≠ 0)
    (h1 : 1 - y ≠ 0) (h1' : 1 + y ≠ 0) (e : a * x ^ 2 + y ^ 2 = 1 + d * x ^ 2 * y ^ 2) {w3 : K}
    (hw : w3 = y ^ 2 * (1 - d * x ^ 2) / ((1 - y) * (1 + y))) :
    s * w3 + t = ((2 + y - d * x ^ 2 * y) / (2 * x)) ^ 2 - (s * ((1 + y) / (1 - y)) + t) -
      (s * ((1 + y) / (1 - y)) + t) := by
  have h4 : (4 : K) ≠ 0 := by rw [show (4 : K) = 2 * 2 by norm_num]; exact mul_ne_zero h2 h2
  have hD : 4 * x ^ 2 ≠ 0 := mul_ne_zero h4 (pow_ne_zero _ hx)
  have es : 4 * s * x ^ 2 = (1 - y) * (1 + y) * (1 - d * x ^ 2) := by linear_combination x ^ 2 * hs + e
  have et : 6 * t * x ^ 2 = 1 - y ^ 2 + d * x ^ 2 * (1 + y ^ 2) := by linear_combination x ^ 2 * ht + e
  have key : (1 - y) * (1 + y) * (1 - d * x ^ 2) * (y ^ 2 * (1 - d * x ^ 2) / ((1 - y) * (1 + y)) +
      2 * ((1 + y) / (1 - y))) + 2 * (1 - y ^ 2 + d * x ^ 2 * (1 + y ^ 2)) =
      4 * x ^ 2 * ((2 + y - d * x ^ 2 * y) / (2 * x)) ^ 2 := by
    field_simp
    ring
  refine mul_left_cancel₀ hD ?_
  rw [← es, ← et, ← hw] at key
  linear_combination key

/-- Doubling: the y-coordinate. -/
theorem alg_dbl_y (h2 : (2 : K) ≠ 0) (hx : x ≠ 0) (h1 : 1 - y ≠ 0) (h1' : 1 + y ≠ 0) {w3 : K}
    (hw : w3 = y ^ 2 * (1 - d * x ^ 2) / ((1 - y) * (1 + y)))
    (hx3 : x3 = (x * y + x * y) / (1 + d * x * x * y * y)) :
    w3 / x3 = (2 + y - d * x ^ 2 * y) / (2 * x) * ((1 + y) / (1 - y) - w3) - (1 + y) / (1 - y) / x := by
  rw [hw, hx3, ← two_mul]
  field_simp
  ring

/-- Adding the point of order two. -/
theorem alg_two (hs : 4 * s = a - d) (ht : 6 * t = a + d) (hx : x ≠ 0) (h1 : 1 - y ≠ 0) (h1' : 1 + y ≠ 0)
    (h2 : (2 : K) ≠ 0) (e : a * x ^ 2 + y ^ 2 = 1 + d * x ^ 2 * y ^ 2) :
    s * ((1 + -y) / (1 - -y)) + t = (1 / x) ^ 2 - (s * ((1 + y) / (1 - y)) + t) - t := by
  have h4 : (4 : K) ≠ 0 := by rw [show (4 : K) = 2 * 2 by norm_num]; exact mul_ne_zero h2 h2
  have h5 : 1 - -y ≠ 0 := by rwa [sub_neg_eq_add]
  have es : 4 * s * x ^ 2 = (1 - y) * (1 + y) * (1 - d * x ^ 2) := by linear_combination x ^ 2 * hs + e
  have et : 6 * t * x ^ 2 = 1 - y ^ 2 + d * x ^ 2 * (1 + y ^ 2) := by linear_combination x ^ 2 * ht + e
  have key : (1 - y) * (1 + y) * (1 - d * x ^ 2) * ((1 + -y) / (1 - -y) + (1 + y) / (1 - y)) +
      2 * (1 - y ^ 2 + d * x ^ 2 * (1 + y ^ 2)) = 4 * x ^ 2 * (1 / x) ^ 2 := by
    field_simp
    ring
  refine mul_left_cancel₀ (mul_ne_zero h4 (pow_ne_zero 2 hx)) ?_
  rw [← es, ← et] at key
  linear_combination key

end algebra

/-! ### The map -/

omit [DecidableEq K] in
theorem y_cases {P : E.Point} (h : P.x = 0) : P.y = 1 ∨ P.y = -1 := by
  have e := P.eqn
  unfold Equation at e
  rw [h] at e
  have : (P.y - 1) * (P.y + 1) = 0 := by linear_combination e
  rcases mul_eq_zero.mp this with h | h
  · exact .inl (sub_eq_zero.mp h)
  · exact .inr (eq_neg_of_add_eq_zero_left h)

omit [DecidableEq K] in
theorem y_ne {P : E.Point} (h : P.x ≠ 0) : 1 - P.y ≠ 0 ∧ 1 + P.y ≠ 0 := by
  have e := P.eqn
  unfold Equation at e
  have key : P.y ^ 2 ≠ 1 := by
    intro hy
    apply E.a_ne_d
    have : P.x ^ 2 * (E.a - E.d) = 0 := by linear_combination e + (E.d * P.x ^ 2 - 1) * hy
    exact sub_eq_zero.mp ((mul_eq_zero.mp this).resolve_left (pow_ne_zero _ h))
  constructor <;> intro hy <;> apply key
  · linear_combination (-1 - P.y) * hy
  · linear_combination (P.y - 1) * hy

/-- The point `(0, -1)`. -/
def two (E : Edwards K) : E.Point := ⟨0, -1, by unfold Equation; ring⟩

/-- The point of the Weierstrass curve for a point of the Edwards curve. -/
noncomputable def toW (h3 : (3 : K) ≠ 0) (P : E.Point) : (curve E).Point :=
  if h : P.x = 0 then
    if P.y = 1 then 0 else .some (tOf E) 0 (nonsing h3 (by ring))
  else .some (sOf E * ((1 + P.y) / (1 - P.y)) + tOf E) (sOf E * ((1 + P.y) / (1 - P.y)) / P.x)
    (nonsing h3 (alg_on (s_eq E) (t_eq E h3) E.two h (y_ne h).1 P.eqn))

variable (h3 : (3 : K) ≠ 0)

theorem toW_zero : toW h3 (0 : E.Point) = 0 := by
  rw [toW, dif_pos (show (0 : E.Point).x = 0 from rfl), if_pos (show (0 : E.Point).y = 1 from rfl)]

omit [DecidableEq K] in
theorem one_ne_neg_one (E : Edwards K) : (-1 : K) ≠ 1 := fun h => E.two (by linear_combination -h)

theorem toW_two : Is (toW h3 (two E)) (tOf E) 0 := by
  rw [toW, dif_pos (show (two E).x = 0 from rfl), if_neg (show (two E).y ≠ 1 from one_ne_neg_one E)]
  exact ⟨_, rfl⟩

theorem toW_is {P : E.Point} (h : P.x ≠ 0) : Is (toW h3 P) (sOf E * ((1 + P.y) / (1 - P.y)) + tOf E)
    (sOf E * ((1 + P.y) / (1 - P.y)) / P.x) := by
  rw [toW, dif_neg h]
  exact ⟨_, rfl⟩

theorem cases_x (P : E.Point) : P = 0 ∨ P = two E ∨ P.x ≠ 0 := by
  by_cases h : P.x = 0
  · rcases y_cases h with hy | hy
    · exact .inl (Edwards.Point.ext h hy)
    · exact .inr (.inl (Edwards.Point.ext h hy))
  · exact .inr (.inr h)

omit [DecidableEq K] in
theorem neg_is {P : (curve E).Point} {x y : K} (h : Is P x y) : Is (-P) x (-y) := by
  obtain ⟨n, rfl⟩ := h
  have e := XOnly.negY_eq (W := curve E) rfl rfl x y
  have n' : (curve E).Nonsingular x (-y) := e ▸ (Affine.nonsingular_neg _ _).mpr n
  exact ⟨n', by rw [Affine.Point.neg_some, Affine.Point.some.injEq]; exact ⟨rfl, e⟩⟩

omit [DecidableEq K] in
theorem two_neg : -two E = two E := Edwards.Point.ext (by simp [two]) rfl

theorem toW_neg (P : E.Point) : toW h3 (-P) = -toW h3 P := by
  rcases cases_x P with rfl | rfl | h
  · rw [neg_zero, toW_zero, neg_zero]
  · rw [two_neg]
    have := neg_is (toW_two (E := E) h3)
    rw [neg_zero] at this
    exact is_unique (toW_two h3) this
  · have h' : (-P).x ≠ 0 := by rw [neg_x]; exact neg_ne_zero.mpr h
    refine is_unique (toW_is h3 h') ?_
    have := neg_is (toW_is h3 h)
    rwa [← div_neg] at this

omit [DecidableEq K] in
theorem add_two (P : E.Point) : (P + two E).x = -P.x ∧ (P + two E).y = -P.y := by
  rw [add_x, add_y]
  simp [two]

theorem toW_add_two (P : E.Point) : toW h3 (P + two E) = toW h3 P + toW h3 (two E) := by
  rcases cases_x P with rfl | rfl | h
  · rw [zero_add, toW_zero, zero_add]
  · have h0 : two E + two E = 0 := by
      have := add_two (two E)
      exact Edwards.Point.ext (by rw [this.1]; simp [two]) (by rw [this.2]; simp [two])
    have hn := toW_neg h3 (two E)
    rw [two_neg] at hn
    rw [h0, toW_zero]
    exact (add_eq_zero_iff_eq_neg.mpr hn).symm
  · obtain ⟨e1, e2⟩ := add_two P
    have hx : (P + two E).x ≠ 0 := by rw [e1]; exact neg_ne_zero.mpr h
    obtain ⟨y1, y2⟩ := y_ne h
    have hw : sOf E * ((1 + P.y) / (1 - P.y)) ≠ 0 := mul_ne_zero (s_ne E) (div_ne_zero y2 y1)
    refine is_unique (toW_is h3 hx) (add_is (W := curve E) rfl rfl rfl (toW_is h3 h) (toW_two h3) (l := 1 / P.x) ?_ ?_ ?_ ?_)
    · intro he
      exact hw (by linear_combination he)
    · field_simp; ring
    · rw [e2]
      exact alg_two (s_eq E) (t_eq E h3) h y1 y2 E.two P.eqn
    · rw [e1, e2]
      have y2' : 1 - -P.y ≠ 0 := by rwa [sub_neg_eq_add]
      field_simp
      ring

theorem toW_double (P : E.Point) : toW h3 (P + P) = toW h3 P + toW h3 P := by
  rcases cases_x P with rfl | rfl | h
  · rw [add_zero, toW_zero, zero_add]
  · exact toW_add_two h3 _
  · obtain ⟨y1, y2⟩ := y_ne h
    have e := P.eqn
    unfold Equation at e
    have n1 := one_add_ne P.eqn P.eqn
    have n2 := one_sub_ne P.eqn P.eqn
    by_cases hy : P.y = 0
    · have : P + P = two E := by
        refine Edwards.Point.ext ?_ ?_
        · rw [add_x, hy]; simp [two]
        · rw [add_y, hy]
          rw [hy] at e
          simp only [two]
          rw [div_eq_iff (by simp)]
          linear_combination -e
      rw [this]
      refine is_unique (toW_two h3) (double_is (W := curve E) rfl rfl rfl E.two (toW_is h3 h)
        (l := (2 + P.y - E.d * P.x ^ 2 * P.y) / (2 * P.x)) ?_ ?_ ?_ ?_)
      · rw [hy]; simpa using ⟨s_ne E, h⟩
      · exact alg_slope (s_eq E) (t_eq E h3) E.two h y1 e
      · have := alg_dbl_x (s_eq E) (t_eq E h3) E.two h y1 y2 e (w3 := 0) (by rw [hy]; simp)
        rw [← this]; ring
      · rw [hy]
        have := E.two
        field_simp
        ring
    · have hx3 : (P + P).x ≠ 0 := by
        rw [add_x]
        refine div_ne_zero ?_ n1
        rw [← two_mul]
        exact mul_ne_zero E.two (mul_ne_zero h hy)
      have w3 := alg_w3 E.two e n2 (add_y P P)
      refine is_unique (toW_is h3 hx3) (double_is (W := curve E) rfl rfl rfl E.two (toW_is h3 h)
        (l := (2 + P.y - E.d * P.x ^ 2 * P.y) / (2 * P.x)) ?_ ?_ ?_ ?_)
      · exact div_ne_zero (mul_ne_zero (s_ne E) (div_ne_zero y2 y1)) h
      · exact alg_slope (s_eq E) (t_eq E h3) E.two h y1 e
      · exact alg_dbl_x (s_eq E) (t_eq E h3) E.two h y1 y2 e w3
      · have := alg_dbl_y E.two h y1 y2 w3 (add_x P P)
        rw [mul_div_assoc, this]
        ring

theorem toW_add (P Q : E.Point) : toW h3 (P + Q) = toW h3 P + toW h3 Q := by
  rcases cases_x P with rfl | rfl | hP
  · rw [zero_add, toW_zero, zero_add]
  · rw [add_comm, toW_add_two, add_comm]
  rcases cases_x Q with rfl | rfl | hQ
  · rw [add_zero, toW_zero, add_zero]
  · exact toW_add_two h3 P
  have e1 := P.eqn
  have e2 := Q.eqn
  unfold Equation at e1 e2
  have dz : ∀ x : K, 1 - E.d * x ^ 2 ≠ 0 := by
    intro x hx
    rcases eq_or_ne x 0 with rfl | h0
    · simp at hx
    · exact E.hd ⟨x⁻¹, by field_simp; linear_combination -hx⟩
  by_cases hyy : Q.y ^ 2 - P.y ^ 2 = 0
  · have hxx : (Q.x - P.x) * (Q.x + P.x) = 0 := by
      have hz : E.a - E.d * P.y ^ 2 ≠ 0 := by
        intro hz
        have : P.y ^ 2 = 1 := by linear_combination e1 - P.x ^ 2 * hz
        rw [this] at hz
        exact E.a_ne_d (by linear_combination hz)
      have : (Q.x - P.x) * (Q.x + P.x) * (E.a - E.d * P.y ^ 2) = 0 := by
        linear_combination e2 - e1 + (E.d * Q.x ^ 2 - 1) * hyy
      exact (mul_eq_zero.mp this).resolve_right hz
    have hyy' : (Q.y - P.y) * (Q.y + P.y) = 0 := by linear_combination hyy
    obtain ⟨a1, a2⟩ := add_two P
    obtain ⟨b1, b2⟩ := add_two (-P)
    rcases mul_eq_zero.mp hxx with hx | hx <;> rcases mul_eq_zero.mp hyy' with hy | hy
    · have : Q = P := Edwards.Point.ext (sub_eq_zero.mp hx) (sub_eq_zero.mp hy)
      rw [this]; exact toW_double h3 P
    · have : Q = -P + two E := Edwards.Point.ext (by rw [b1, neg_x, neg_neg]; exact sub_eq_zero.mp hx)
        (by rw [b2, neg_y]; exact eq_neg_of_add_eq_zero_left hy)
      rw [this, toW_add_two, add_neg_cancel_left, toW_neg, add_neg_cancel_left]
    · have : Q = -P := Edwards.Point.ext (by rw [neg_x]; exact eq_neg_of_add_eq_zero_left hx) (sub_eq_zero.mp hy)
      rw [this, add_neg_cancel, toW_neg, add_neg_cancel, toW_zero]
    · have : Q = P + two E := Edwards.Point.ext (by rw [a1]; exact eq_neg_of_add_eq_zero_left hx)
        (by rw [a2]; exact eq_neg_of_add_eq_zero_left hy)
      rw [this, toW_add_two, ← add_assoc, toW_add_two, toW_double, add_assoc]
  · obtain ⟨y1, y1'⟩ := y_ne hP
    obtain ⟨y2, y2'⟩ := y_ne hQ
    have hxx : P.x ^ 2 - Q.x ^ 2 ≠ 0 := by
      intro hx
      have : (Q.y ^ 2 - P.y ^ 2) * (1 - E.d * P.x ^ 2) = 0 := by
        linear_combination e2 - e1 + (E.a - E.d * Q.y ^ 2) * hx
      exact hyy ((mul_eq_zero.mp this).resolve_right (dz _))
    have hxp : P.x + Q.x ≠ 0 := fun h => hxx (by linear_combination (P.x - Q.x) * h)
    have n1 := one_add_ne P.eqn Q.eqn
    have n2 := one_sub_ne P.eqn Q.eqn
    have hy3 := alg_y3 e1 e2 n2 (add_y P Q)
    have hx3 : (P + Q).x ≠ 0 := by
      intro h0
      rw [add_x] at h0
      have hn := (div_eq_zero_iff.mp h0).resolve_right n1
      rcases y_cases (P := P + Q) (by rw [add_x]; exact h0) with h | h <;> rw [h] at hy3
      · apply hyy
        have k1 : (P.x + Q.x) * (Q.y - P.y) = 0 := by linear_combination hy3
        have k2 := (mul_eq_zero.mp k1).resolve_left hxp
        linear_combination (Q.y + P.y) * k2
      · apply hyy
        have hxm : P.x - Q.x ≠ 0 := fun h => hxx (by linear_combination (P.x + Q.x) * h)
        have k1 : (P.x - Q.x) * (Q.y + P.y) = 0 := by linear_combination -hy3
        have k2 := (mul_eq_zero.mp k1).resolve_left hxm
        linear_combination (Q.y - P.y) * k2
    obtain ⟨y3, y3'⟩ := y_ne hx3
    have hww : (1 + P.y) / (1 - P.y) - (1 + Q.y) / (1 - Q.y) ≠ 0 := by
      rw [sub_ne_zero, Ne, div_eq_div_iff y1 y2]
      intro h
      apply hyy
      have : (2 : K) * (Q.y - P.y) = 0 := by linear_combination -h
      have k := (mul_eq_zero.mp this).resolve_left E.two
      linear_combination (Q.y + P.y) * k
    refine is_unique (toW_is h3 hx3) (add_is (W := curve E) rfl rfl rfl (toW_is h3 hP) (toW_is h3 hQ)
      (l := ((1 + P.y) / (1 - P.y) / P.x - (1 + Q.y) / (1 - Q.y) / Q.x) /
        ((1 + P.y) / (1 - P.y) - (1 + Q.y) / (1 - Q.y))) ?_ ?_ ?_ ?_)
    · intro h
      exact hww (mul_left_cancel₀ (s_ne E) (by linear_combination h))
    · rw [div_mul_eq_mul_div, div_eq_iff hww]
      ring
    · exact alg_add_x (s_eq E) (t_eq E h3) E.two hP hQ y1 y2 hyy hxp e1 e2 hy3 y3
    · have := alg_add_y E.two hP hQ y1 y2 hyy hxp e1 e2 (add_x P Q) hx3 hy3 y3
      rw [mul_div_assoc, this]
      ring

theorem toW_injective : Function.Injective (toW (E := E) h3) := by
  intro P Q h
  have key : ∀ R : E.Point, toW h3 R = 0 → R = 0 := by
    intro R hR
    rcases cases_x R with rfl | rfl | hx
    · rfl
    · obtain ⟨n, hn⟩ := toW_two (E := E) h3
      rw [hn] at hR; cases hR
    · obtain ⟨n, hn⟩ := toW_is h3 hx
      rw [hn] at hR; cases hR
  have := key (P + -Q) (by rw [toW_add, toW_neg, h, add_neg_cancel])
  exact add_neg_eq_zero.mp this

omit [DecidableEq K] in
theorem is_of_eq {W : Affine K} {x y x' y' : K} (n : W.Nonsingular x y) (hx : x = x') (hy : y = y') :
    Is (Affine.Point.some x y n) x' y' := by
  subst hx; subst hy; exact ⟨n, rfl⟩

theorem toW_surjective : Function.Surjective (toW (E := E) h3) := by
  intro Q
  cases Q with
  | zero => exact ⟨0, toW_zero h3⟩
  | some x y n =>
    have e := XOnly.equation (W := curve E) rfl rfl n.1
    simp only [curve] at e
    have hs := s_eq E
    have ht := t_eq E h3
    have hs0 := s_ne E
    obtain ⟨w, rfl⟩ : ∃ w, x = sOf E * w + tOf E := ⟨(x - tOf E) / sOf E, by field_simp; ring⟩
    have e' : 2 * y ^ 2 = sOf E ^ 2 * w * (2 * sOf E * w ^ 2 + (E.a + E.d) * w + 2 * sOf E) := by
      rw [← ht]; linear_combination 2 * e
    by_cases hw : w = 0
    · subst hw
      have hy : y = 0 := by
        have : (2 : K) * y ^ 2 = 0 := by linear_combination e'
        exact pow_eq_zero_iff (two_ne_zero) |>.mp ((mul_eq_zero.mp this).resolve_left E.two)
      subst hy
      refine ⟨two E, is_unique (toW_two h3) (is_of_eq n ?_ rfl)⟩
      ring
    · have e4 : 4 * y ^ 2 = sOf E ^ 2 * w * (E.a * (w + 1) ^ 2 - E.d * (w - 1) ^ 2) := by
        linear_combination 2 * e' + sOf E ^ 2 * w * (w ^ 2 + 1) * hs
      have hy : y ≠ 0 := by
        rintro rfl
        have h0 : E.a * (w + 1) ^ 2 - E.d * (w - 1) ^ 2 = 0 := by
          have : sOf E ^ 2 * w * (E.a * (w + 1) ^ 2 - E.d * (w - 1) ^ 2) = 0 := by linear_combination -e4
          exact (mul_eq_zero.mp this).resolve_left (mul_ne_zero (pow_ne_zero _ hs0) hw)
        by_cases h1 : w - 1 = 0
        · have : w = 1 := sub_eq_zero.mp h1
          subst this
          have : E.a * 2 ^ 2 = 0 := by linear_combination h0
          exact (mul_ne_zero E.a_ne (pow_ne_zero _ E.two)) this
        · exact d_square (E := E) (u := E.α * (w + 1)) h1 (by
            have : E.a = E.α ^ 2 := rfl
            rw [this] at h0
            linear_combination h0)
      have hw1 : w + 1 ≠ 0 := by
        intro h1
        have : w = -1 := eq_neg_of_add_eq_zero_left h1
        subst this
        have h4 : (4 : K) ≠ 0 := four_ne E
        have : y ^ 2 = E.d * sOf E ^ 2 := mul_left_cancel₀ h4 (by linear_combination e4)
        exact d_square (E := E) hs0 this
      have hxx : sOf E * w / y ≠ 0 := div_ne_zero (mul_ne_zero hs0 hw) hy
      let P : E.Point := ⟨sOf E * w / y, (w - 1) / (w + 1), by
        unfold Equation
        field_simp
        linear_combination (-w) * e4⟩
      have hP : P.x ≠ 0 := hxx
      have hwy : (1 + P.y) / (1 - P.y) = w := by
        have h2 := E.two
        change (1 + (w - 1) / (w + 1)) / (1 - (w - 1) / (w + 1)) = w
        have n1 : 1 + (w - 1) / (w + 1) = 2 * w / (w + 1) := by field_simp; ring
        have n2 : 1 - (w - 1) / (w + 1) = 2 / (w + 1) := by field_simp; ring
        rw [n1, n2]
        field_simp
      refine ⟨P, is_unique (toW_is h3 hP) (is_of_eq n (by rw [hwy]) ?_)⟩
      rw [hwy]
      change y = sOf E * w / (sOf E * w / y)
      field_simp

/-- The groups are isomorphic. -/
noncomputable def equiv : E.Point ≃+ (curve E).Point :=
  { Equiv.ofBijective (toW (E := E) h3) ⟨toW_injective h3, toW_surjective h3⟩ with
    map_add' := toW_add h3 }

theorem equiv_apply (P : E.Point) : equiv h3 P = toW h3 P := rfl


end Cryptopy.EW
