import Verif.Model.Montgomery
import Verif.Lemmas.Ecc
import Verif.Lemmas.XOnly

/-!
Affine Montgomery arithmetic of the model against the group law.
-/

namespace Cryptopy.Model
open Spec WeierstrassCurve

variable {p : Nat} [hpf : Fact p.Prime] {a : Int}

theorem mCurve_equation (x y : ZMod p) :
    (mCurve p a).Equation x y ↔ y ^ 2 = x ^ 3 + a * x ^ 2 + x := by
  rw [Affine.equation_iff]
  simp [mCurve]

theorem m_nonsingular (h2p : p ≠ 2) (ha : (a : ZMod p) ^ 2 ≠ 4) {x y : ZMod p}
    (he : y ^ 2 = x ^ 3 + a * x ^ 2 + x) : (mCurve p a).Nonsingular x y := by
  have h2 := two_ne_zero_zmod (p := p) h2p
  refine (Affine.equation_iff_nonsingular_of_Δ_ne_zero ?_).mp ((mCurve_equation _ _).mpr he)
  have : (mCurve p a).Δ = 2 ^ 4 * ((a : ZMod p) ^ 2 - 4) := by
    simp only [WeierstrassCurve.Δ, WeierstrassCurve.b₂, WeierstrassCurve.b₄, WeierstrassCurve.b₆,
      WeierstrassCurve.b₈, mCurve]
    ring
  rw [this]
  exact mul_ne_zero (pow_ne_zero _ h2) (sub_ne_zero.mpr ha)

theorem m_onCurve (c : MCurve) (hca : c.a = some a) (hc : c.p = p) (x y : Int) :
    c.onCurve x y = .ok (decide ((y : ZMod p) ^ 2 = (x : ZMod p) ^ 3 + a * (x : ZMod p) ^ 2 + x)) := by
  obtain ⟨r1, h1, h2, h3, h4⟩ := pyMod_ok hpf.out.pos (y * y)
  obtain ⟨r2, h5, h6, h7, h8⟩ := pyMod_ok hpf.out.pos (x * (x * x) + a * (x * x) + x)
  rw [MCurve.onCurve, hca, hc]
  simp only [attr]
  change (do let l ← pyMod (y * y) p; _) = _
  rw [h1]
  change (do let r ← pyMod (x * (x * x) + a * (x * x) + x) p; _) = _
  rw [h5]
  change Except.ok (r1 == r2) = _
  congr 1
  rw [Bool.eq_iff_iff, beq_iff_eq, decide_eq_true_eq]
  push_cast at h4 h8
  rw [show (y : ZMod p) ^ 2 = y * y by ring,
    show (x : ZMod p) ^ 3 + a * (x : ZMod p) ^ 2 + x = x * (x * x) + a * (x * x) + x by ring, ← h4, ← h8]
  constructor
  · rintro rfl; rfl
  · exact eq_of_cast_eq h2 h3 h6 h7

theorem m_point (c : MCurve) (hca : c.a = some a) (hc : c.p = p) (x y : Int)
    (h : (y : ZMod p) ^ 2 = (x : ZMod p) ^ 3 + a * (x : ZMod p) ^ 2 + x) : c.point x y = .ok (x, y) := by
  rw [MCurve.point, m_onCurve c hca hc, decide_eq_true h]
  rfl

/-- Doubling of an affine point whose y is not zero. -/
theorem m_double (c : MCurve) (hca : c.a = some a) (hc : c.p = p) (h2p : p ≠ 2) (x y : Int)
    (h : (mCurve p a).Nonsingular (x : ZMod p) (y : ZMod p)) (hy : (y : ZMod p) ≠ 0) :
    ∃ (x3 y3 : Int) (h3 : (mCurve p a).Nonsingular (x3 : ZMod p) (y3 : ZMod p)),
      c.doublePoint (some x, some y) = .ok (some x3, some y3) ∧
      0 ≤ x3 ∧ x3 < p ∧ 0 ≤ y3 ∧ y3 < p ∧
      Affine.Point.some (x : ZMod p) (y : ZMod p) h + Affine.Point.some (x : ZMod p) (y : ZMod p) h =
        Affine.Point.some (x3 : ZMod p) (y3 : ZMod p) h3 := by
  have h2 := two_ne_zero_zmod (p := p) h2p
  have h2y : ((2 * y : Int) : ZMod p) ≠ 0 := by push_cast; exact mul_ne_zero h2 hy
  obtain ⟨i, hi1, hi2⟩ := inverseMod_zmod (2 * y) h2y
  generalize hl : (3 * x * x + 2 * a * x + 1) * i = l
  obtain ⟨x3, hx1, hx2, hx3, hx⟩ := pyMod_ok hpf.out.pos (l * l - a - 2 * x)
  obtain ⟨y3, hy1, hy2, hy3, hyy⟩ := pyMod_ok hpf.out.pos (l * (x - (l * l - a - 2 * x)) - y)
  push_cast at hi2 hx hyy
  have hneg : (y : ZMod p) ≠ (mCurve p a).negY x y := by
    rw [Affine.negY]
    simp only [mCurve]
    intro he
    apply mul_ne_zero h2 hy
    linear_combination he
  have hslope : (mCurve p a).slope (x : ZMod p) x y y = l := by
    rw [Affine.slope_of_Y_ne rfl hneg, ← hl, Affine.negY]
    push_cast
    rw [hi2]
    simp only [mCurve]
    rw [div_eq_mul_inv]
    congr 1
    · ring
    · congr 1; ring
  have hsum := Affine.Point.add_self_of_Y_ne (h₁ := h) hneg
  have hX : (mCurve p a).addX (x : ZMod p) x l = x3 := by
    rw [Affine.addX, hx]; simp only [mCurve]; ring
  have hY : (mCurve p a).addY (x : ZMod p) x y l = y3 := by
    rw [Affine.addY, Affine.negAddY, hX, Affine.negY, hyy, hx]; simp only [mCurve]; ring
  have hns := Affine.nonsingular_add h h (fun hxy => hneg hxy.right)
  rw [hslope, hX, hY] at hns
  refine ⟨x3, y3, hns, ?_, hx2, hx3, hy2, hy3, ?_⟩
  · have heq := (mCurve_equation _ _).mp hns.1
    rw [MCurve.doublePoint, hca, hc]
    simp only [num, attr]
    change (do let i ← inverseMod (2 * y) p; _) = _
    rw [hi1]
    change (do let x3 ← pyMod ((3 * x * x + 2 * a * x + 1) * i * ((3 * x * x + 2 * a * x + 1) * i) - a - 2 * x) p; _) = _
    rw [hl, hx1]
    change (do let y3 ← pyMod (l * (x - (l * l - a - 2 * x)) - y) p; _) = _
    rw [hy1]
    change (do let (x, y) ← c.point x3 y3; _) = _
    rw [m_point c hca hc x3 y3 heq]
    rfl
  · rw [hsum, Affine.Point.some.injEq, hslope, hX, hY]
    exact ⟨rfl, rfl⟩

theorem m_double_two (c : MCurve) (hca : c.a = some a) (hc : c.p = p) (x y : Int) (hy : (y : ZMod p) = 0) :
    c.doublePoint (some x, some y) = .error .assertion := by
  rw [MCurve.doublePoint, hca, hc]
  simp only [num, attr]
  change (do let i ← inverseMod (2 * y) p; _) = _
  rw [inverseMod_zero (p := p) _ (by push_cast; rw [hy, mul_zero])]
  rfl

/-- Addition of affine points with different x. -/
theorem m_add (c : MCurve) (hca : c.a = some a) (hc : c.p = p) (ident : MPt) (x1 y1 x2 y2 : Int)
    (i1 : (some x1, some y1) ≠ ident) (i2 : (some x2, some y2) ≠ ident)
    (h1 : (mCurve p a).Nonsingular (x1 : ZMod p) (y1 : ZMod p))
    (h2 : (mCurve p a).Nonsingular (x2 : ZMod p) (y2 : ZMod p))
    (hne : (x1 : ZMod p) ≠ x2) :
    ∃ (x3 y3 : Int) (h3 : (mCurve p a).Nonsingular (x3 : ZMod p) (y3 : ZMod p)),
      c.addPoints ident (some x1, some y1) (some x2, some y2) = .ok (some x3, some y3) ∧
      0 ≤ x3 ∧ x3 < p ∧ 0 ≤ y3 ∧ y3 < p ∧
      Affine.Point.some (x1 : ZMod p) (y1 : ZMod p) h1 + Affine.Point.some (x2 : ZMod p) (y2 : ZMod p) h2 =
        Affine.Point.some (x3 : ZMod p) (y3 : ZMod p) h3 := by
  have hd : ((x2 - x1 : Int) : ZMod p) ≠ 0 := by
    push_cast; exact sub_ne_zero.mpr (Ne.symm hne)
  obtain ⟨i, hi1, hi2⟩ := inverseMod_zmod (x2 - x1) hd
  generalize hl : (y2 - y1) * i = l
  obtain ⟨x3, hx1, hx2, hx3, hx⟩ := pyMod_ok hpf.out.pos (l ^ 2 - a - x1 - x2)
  obtain ⟨y3, hy1, hy2, hy3, hyy⟩ := pyMod_ok hpf.out.pos (l * (x1 - (l ^ 2 - a - x1 - x2)) - y1)
  push_cast at hi2 hx hyy hd
  have hslope : (mCurve p a).slope (x1 : ZMod p) x2 y1 y2 = l := by
    rw [Affine.slope_of_X_ne hne, ← hl]
    push_cast
    rw [hi2, div_eq_mul_inv, ← neg_sub (y2 : ZMod p), ← neg_sub (x2 : ZMod p), inv_neg]
    ring
  have hX : (mCurve p a).addX (x1 : ZMod p) x2 l = x3 := by
    rw [Affine.addX, hx]; simp only [mCurve]; ring
  have hY : (mCurve p a).addY (x1 : ZMod p) x2 y1 l = y3 := by
    rw [Affine.addY, Affine.negAddY, hX, Affine.negY, hyy, hx]; simp only [mCurve]; ring
  have hns := Affine.nonsingular_add h1 h2 (fun hxy => hne hxy.left)
  rw [hslope, hX, hY] at hns
  refine ⟨x3, y3, hns, ?_, hx2, hx3, hy2, hy3, ?_⟩
  · have heq := (mCurve_equation _ _).mp hns.1
    have hne' : ¬ ((some x1 : Option Int) = some x2) := by
      intro he
      injection he with he
      exact hne (by rw [he])
    rw [MCurve.addPoints, if_neg i2, if_neg i1, hca, hc]
    simp only [num, attr, if_neg hne']
    change (do let i ← inverseMod (x2 - x1) p; _) = _
    rw [hi1]
    change (do let x3 ← pyMod (((y2 - y1) * i) ^ 2 - a - x1 - x2) p; _) = _
    rw [hl, hx1]
    change (do let y3 ← pyMod (l * (x1 - (l ^ 2 - a - x1 - x2)) - y1) p; _) = _
    rw [hy1]
    change (do let (x, y) ← c.point x3 y3; _) = _
    rw [m_point c hca hc x3 y3 heq]
    rfl
  · rw [Affine.Point.add_of_X_ne hne, Affine.Point.some.injEq, hslope, hX, hY]
    exact ⟨rfl, rfl⟩

/-- Congruent but different x-coordinates. -/
theorem m_add_congruent (c : MCurve) (hca : c.a = some a) (hc : c.p = p) (ident : MPt) (x1 y1 x2 y2 : Int)
    (i1 : (some x1, some y1) ≠ ident) (i2 : (some x2, some y2) ≠ ident) (hne : x1 ≠ x2)
    (hx : (x1 : ZMod p) = x2) :
    c.addPoints ident (some x1, some y1) (some x2, some y2) = .error .assertion := by
  have hne' : ¬ ((some x1 : Option Int) = some x2) := by simpa using hne
  rw [MCurve.addPoints, if_neg i2, if_neg i1, hca, hc]
  simp only [num, attr, if_neg hne']
  change (do let i ← inverseMod (x2 - x1) p; _) = _
  rw [inverseMod_zero (p := p) _ (by push_cast; rw [hx, sub_self])]
  rfl

omit hpf in
/-- Equal x-coordinates. -/
theorem m_add_same (c : MCurve) (hca : c.a = some a) (ident : MPt) (x y1 y2 : Int)
    (i1 : (some x, some y1) ≠ ident) (i2 : (some x, some y2) ≠ ident) :
    c.addPoints ident (some x, some y1) (some x, some y2) =
      if y1 = y2 then c.doublePoint (some x, some y1)
      else if y1 + y2 = 0 then .ok (some x, some y1) else .error .assertion := by
  rw [MCurve.addPoints, if_neg i2, if_neg i1, hca]
  by_cases h : y1 = y2
  · subst h
    change (if some x = some x then (if some y1 = some y1 then _ else _) else _) = _
    rw [if_pos rfl, if_pos rfl, if_pos rfl]
  · rw [if_neg h]
    change (if some x = some x then (if some y1 = some y2 then _ else _) else _) = _
    rw [if_pos rfl, if_neg (by simpa using h)]
    change (do Py.assert (y1 + y2 = 0); _) = _
    rw [Py.assert]
    by_cases h0 : y1 + y2 = 0
    · rw [if_pos h0, if_pos h0]; rfl
    · rw [if_neg h0, if_neg h0]; rfl

end Cryptopy.Model
