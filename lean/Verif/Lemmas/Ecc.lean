import Verif.Model.Ecc
import Verif.Spec.Ecc
import Verif.Props.Arith
import Mathlib.Data.Nat.Bitwise

/-!
Weierstrass arithmetic of the model against the group law.
-/

namespace Cryptopy.Model
open Spec WeierstrassCurve

theorem pyMod_ok {p : Nat} (hp : 0 < p) (v : Int) :
    ∃ r, pyMod v p = .ok r ∧ 0 ≤ r ∧ r < p ∧ (r : ZMod p) = v := by
  refine ⟨v.fmod p, by rw [pyMod, if_neg (by omega)], Int.fmod_nonneg_of_pos _ (by omega),
    Int.fmod_lt_of_pos _ (by omega), ?_⟩
  rw [fmod_pos_eq _ (by omega), emod_cast]

variable {p : Nat} [hpf : Fact p.Prime] {a b : Int}

theorem inverseMod_zmod (v : Int) (h : (v : ZMod p) ≠ 0) :
    ∃ i, inverseMod v p = .ok i ∧ (i : ZMod p) = (v : ZMod p)⁻¹ := by
  have hp := hpf.out.one_lt
  have hg : Int.gcd v p = 1 := by
    rw [Int.gcd_comm, ← Int.isCoprime_iff_gcd_eq_one]
    rw [Ne, ZMod.intCast_zmod_eq_zero_iff_dvd] at h
    exact (Nat.prime_iff_prime_int.mp hpf.out).coprime_iff_not_dvd.mpr h
  obtain ⟨i, h1, -, -, -, h5⟩ := (C54_inverse_mod v p (by omega)).2 hg
  refine ⟨i, h1, ?_⟩
  have := (ZMod.intCast_zmod_eq_zero_iff_dvd (v * i - 1) p).mpr h5
  push_cast at this
  exact eq_inv_of_mul_eq_one_right (sub_eq_zero.mp this)

theorem inverseMod_zero (v : Int) (h : (v : ZMod p) = 0) : inverseMod v p = .error .assertion := by
  have hp := hpf.out.one_lt
  apply (C54_inverse_mod v p (by omega)).1
  rw [ZMod.intCast_zmod_eq_zero_iff_dvd] at h
  rw [Int.gcd_comm, Int.gcd_eq_left_iff_dvd (by omega) |>.mpr h |> Int.natCast_inj.mp |> id]
  omega

theorem wCurve_equation (x y : ZMod p) :
    (wCurve p a b).Equation x y ↔ y ^ 2 = x ^ 3 + a * x + b := by
  rw [Affine.equation_iff]
  simp [wCurve]

theorem wCurve_disc (h2 : p ≠ 2) (hd : (4 * a ^ 3 + 27 * b ^ 2 : ZMod p) ≠ 0) :
    (wCurve p a b).Δ ≠ 0 := by
  have : (wCurve p a b).Δ = -16 * (4 * a ^ 3 + 27 * b ^ 2) := by
    simp only [WeierstrassCurve.Δ, WeierstrassCurve.b₂, WeierstrassCurve.b₄, WeierstrassCurve.b₆,
      WeierstrassCurve.b₈, wCurve]
    ring
  rw [this]
  apply mul_ne_zero _ hd
  have h2' : (2 : ZMod p) ≠ 0 := by
    have := (ZMod.natCast_eq_zero_iff 2 p).not.mpr (fun h => h2 ((Nat.prime_dvd_prime_iff_eq hpf.out Nat.prime_two).mp h))
    simpa using this
  have : (-16 : ZMod p) = -(2 ^ 4) := by norm_num
  rw [this]
  exact neg_ne_zero.mpr (pow_ne_zero 4 h2')

theorem two_ne_zero_zmod (h2 : p ≠ 2) : (2 : ZMod p) ≠ 0 := by
  have := (ZMod.natCast_eq_zero_iff 2 p).not.mpr (fun h => h2 ((Nat.prime_dvd_prime_iff_eq hpf.out Nat.prime_two).mp h))
  simpa using this

theorem onCurve_affine (c : WCurve) (hc : c.p = p) (c' : WCurve) (x y : Int) :
    c.onCurve ⟨c', some x, some y⟩ =
      .ok (decide ((y : ZMod p) ^ 2 = (x : ZMod p) ^ 3 + c.a * x + c.b)) := by
  obtain ⟨r1, h1, h2, h3, h4⟩ := pyMod_ok hpf.out.pos (y ^ 2)
  obtain ⟨r2, h5, h6, h7, h8⟩ := pyMod_ok hpf.out.pos (x ^ 3 + c.a * x + c.b)
  rw [WCurve.onCurve, if_neg (by simp [WPoint.eq, WCurve.identity])]
  simp only [num, hc]
  change (do let l ← pyMod (y ^ 2) p; _) = _
  rw [h1]
  change (do let r ← pyMod (x ^ 3 + c.a * x + c.b) p; _) = _
  rw [h5]
  change Except.ok (r1 == r2) = _
  congr 1
  rw [Bool.eq_iff_iff, beq_iff_eq, decide_eq_true_eq]
  push_cast at h4 h8
  rw [← h4, ← h8]
  constructor
  · rintro rfl; rfl
  · exact eq_of_cast_eq h2 h3 h6 h7

theorem point_affine (c : WCurve) (hc : c.p = p) (x y : Int) :
    c.point (some x) (some y) =
      if (y : ZMod p) ^ 2 = (x : ZMod p) ^ 3 + c.a * x + c.b then .ok ⟨c, some x, some y⟩
      else .error .assertion := by
  rw [WCurve.point, onCurve_affine c hc]
  change (if decide _ = true then _ else _) = _
  simp only [decide_eq_true_eq]

theorem point_infinity (c : WCurve) : c.point none none = .ok ⟨c, none, none⟩ := by
  rw [WCurve.point, WCurve.onCurve, if_pos (by simp [WPoint.eq, WCurve.identity])]
  rfl

/-- Everything the arithmetic needs to know about a curve object. -/
structure Good (c : WCurve) (p : Nat) : Prop where
  hp : c.p = p
  two : p ≠ 2
  disc : (4 * c.a ^ 3 + 27 * c.b ^ 2 : ZMod p) ≠ 0

/-- A point object on the curve object `c` that stands for `Q`, with reduced x. -/
structure Stands (c : WCurve) (p : Nat) (P : WPoint) (Q : (wCurve p c.a c.b).Point) : Prop where
  curve : P.curve = c
  rep : Represents P.x P.y Q
  red : InRange p P.x

theorem eq_identity_infinity (c : WCurve) : (⟨c, none, none⟩ : WPoint).eq c.identity = true := by
  simp [WPoint.eq, WCurve.identity]

theorem eq_identity_affine (c c' : WCurve) (x y : Int) :
    (⟨c', some x, some y⟩ : WPoint).eq c.identity = false := by
  simp [WPoint.eq, WCurve.identity]

omit hpf in
theorem reduced_some {v : Int} (h0 : 0 ≤ v) (h1 : v < p) : InRange p (some v) := by
  intro w hw
  injection hw with hw
  omega

theorem nonsing {c : WCurve} (g : Good c p) {x y : ZMod p} (h : y ^ 2 = x ^ 3 + c.a * x + c.b) :
    (wCurve p c.a c.b).Nonsingular x y := by
  rw [← Affine.equation_iff_nonsingular_of_Δ_ne_zero (wCurve_disc g.two g.disc), wCurve_equation]
  exact h

/-- Doubling of an affine point whose y is not zero. -/
theorem double_affine {c : WCurve} (g : Good c p) (c' : WCurve) (x y : Int)
    (h : (wCurve p c.a c.b).Nonsingular (x : ZMod p) (y : ZMod p)) (hy : (y : ZMod p) ≠ 0) :
    ∃ x3 y3 : Int, c.doublePoint ⟨c', some x, some y⟩ = .ok ⟨c, some x3, some y3⟩ ∧
      0 ≤ x3 ∧ x3 < p ∧ 0 ≤ y3 ∧ y3 < p ∧
      Represents (some x3) (some y3)
        (Affine.Point.some (x : ZMod p) (y : ZMod p) h + Affine.Point.some (x : ZMod p) (y : ZMod p) h) := by
  have h2 := two_ne_zero_zmod g.two
  have h2y : ((2 * y : Int) : ZMod p) ≠ 0 := by push_cast; exact mul_ne_zero h2 hy
  obtain ⟨i, hi1, hi2⟩ := inverseMod_zmod (2 * y) h2y
  obtain ⟨l, hl1, -, -, hl⟩ := pyMod_ok hpf.out.pos ((3 * x * x + c.a) * i)
  obtain ⟨x3, hx1, hx2, hx3, hx⟩ := pyMod_ok hpf.out.pos (l * l - 2 * x)
  obtain ⟨y3, hy1, hy2, hy3, hyy⟩ := pyMod_ok hpf.out.pos (l * (x - x3) - y)
  push_cast at hi2 hl hx hyy
  have hneg : (y : ZMod p) ≠ (wCurve p c.a c.b).negY x y := by
    rw [Affine.negY]
    simp only [wCurve]
    intro he
    apply mul_ne_zero h2 hy
    linear_combination he
  have hslope : (wCurve p c.a c.b).slope (x : ZMod p) x y y = l := by
    rw [Affine.slope_of_Y_ne rfl hneg, hl, hi2, Affine.negY]
    simp only [wCurve]
    rw [div_eq_mul_inv]
    congr 1
    · ring
    · congr 1; ring
  have hsum := Affine.Point.add_self_of_Y_ne (h₁ := h) hneg
  have hX : (wCurve p c.a c.b).addX (x : ZMod p) x l = x3 := by
    rw [Affine.addX, hx]; simp only [wCurve]; ring
  have hY : (wCurve p c.a c.b).addY (x : ZMod p) x y l = y3 := by
    rw [Affine.addY, Affine.negAddY, hX, Affine.negY, hyy]; simp only [wCurve]; ring
  have hns := Affine.nonsingular_add h h (fun hxy => hneg hxy.right)
  rw [hslope, hX, hY] at hns
  refine ⟨x3, y3, ?_, hx2, hx3, hy2, hy3, ?_⟩
  · have heq : (y3 : ZMod p) ^ 2 = (x3 : ZMod p) ^ 3 + c.a * x3 + c.b :=
      (wCurve_equation _ _).mp hns.1
    rw [WCurve.doublePoint]
    simp only [num, WCurve.inverse, g.hp]
    change (do let i ← inverseMod (2 * y) p; _) = _
    rw [hi1]
    change (do let l ← pyMod ((3 * x * x + c.a) * i) p; _) = _
    rw [hl1]
    change (do let x3 ← pyMod (l * l - 2 * x) p; _) = _
    rw [hx1]
    change (do let y3 ← pyMod (l * (x - x3) - y) p; _) = _
    rw [hy1]
    change c.point (some x3) (some y3) = _
    rw [point_affine c g.hp, if_pos heq]
  · have : Affine.Point.some (x : ZMod p) (y : ZMod p) h + Affine.Point.some (x : ZMod p) (y : ZMod p) h
        = Affine.Point.some (x3 : ZMod p) (y3 : ZMod p) hns := by
      rw [hsum, Affine.Point.some.injEq, hslope, hX, hY]
      exact ⟨rfl, rfl⟩
    rw [this]
    exact .affine x3 y3 hns

/-- Addition of affine points with different x. -/
theorem add_affine {c : WCurve} (g : Good c p) (x1 y1 x2 y2 : Int)
    (h1 : (wCurve p c.a c.b).Nonsingular (x1 : ZMod p) (y1 : ZMod p))
    (h2 : (wCurve p c.a c.b).Nonsingular (x2 : ZMod p) (y2 : ZMod p))
    (hne : (x1 : ZMod p) ≠ x2) :
    ∃ x3 y3 : Int, c.addPoints ⟨c, some x1, some y1⟩ ⟨c, some x2, some y2⟩ =
        .ok ⟨c, some x3, some y3⟩ ∧
      0 ≤ x3 ∧ x3 < p ∧ 0 ≤ y3 ∧ y3 < p ∧
      Represents (some x3) (some y3)
        (Affine.Point.some (x1 : ZMod p) (y1 : ZMod p) h1 + Affine.Point.some (x2 : ZMod p) (y2 : ZMod p) h2) := by
  have hd : ((x2 - x1 : Int) : ZMod p) ≠ 0 := by
    push_cast; exact sub_ne_zero.mpr (Ne.symm hne)
  obtain ⟨i, hi1, hi2⟩ := inverseMod_zmod (x2 - x1) hd
  obtain ⟨l, hl1, -, -, hl⟩ := pyMod_ok hpf.out.pos ((y2 - y1) * i)
  obtain ⟨x3, hx1, hx2, hx3, hx⟩ := pyMod_ok hpf.out.pos (l * l - x1 - x2)
  obtain ⟨y3, hy1, hy2, hy3, hyy⟩ := pyMod_ok hpf.out.pos (l * (x1 - x3) - y1)
  push_cast at hi2 hl hx hyy hd
  have hslope : (wCurve p c.a c.b).slope (x1 : ZMod p) x2 y1 y2 = l := by
    rw [Affine.slope_of_X_ne hne, hl, hi2]
    rw [div_eq_mul_inv, ← neg_sub (y2 : ZMod p), ← neg_sub (x2 : ZMod p), inv_neg]
    ring
  have hX : (wCurve p c.a c.b).addX (x1 : ZMod p) x2 l = x3 := by
    rw [Affine.addX, hx]; simp only [wCurve]; ring
  have hY : (wCurve p c.a c.b).addY (x1 : ZMod p) x2 y1 l = y3 := by
    rw [Affine.addY, Affine.negAddY, hX, Affine.negY, hyy]; simp only [wCurve]; ring
  have hns := Affine.nonsingular_add h1 h2 (fun hxy => hne hxy.left)
  rw [hslope, hX, hY] at hns
  refine ⟨x3, y3, ?_, hx2, hx3, hy2, hy3, ?_⟩
  · have heq : (y3 : ZMod p) ^ 2 = (x3 : ZMod p) ^ 3 + c.a * x3 + c.b :=
      (wCurve_equation _ _).mp hns.1
    have hne' : ¬ ((some x1 : Option Int) = some x2) := by
      intro he
      injection he with he
      exact hne (by rw [he])
    rw [WCurve.addPoints]
    simp only [Py.assert, if_true, eq_identity_affine, Bool.false_eq_true, if_false, if_neg hne', num,
      WCurve.inverse, g.hp]
    change (do let i ← inverseMod (x2 - x1) p; _) = _
    rw [hi1]
    change (do let l ← pyMod ((y2 - y1) * i) p; _) = _
    rw [hl1]
    change (do let x3 ← pyMod (l * l - x1 - x2) p; _) = _
    rw [hx1]
    change (do let y3 ← pyMod (l * (x1 - x3) - y1) p; _) = _
    rw [hy1]
    change c.point (some x3) (some y3) = _
    rw [point_affine c g.hp, if_pos heq]
  · have : Affine.Point.some (x1 : ZMod p) (y1 : ZMod p) h1 + Affine.Point.some (x2 : ZMod p) (y2 : ZMod p) h2
        = Affine.Point.some (x3 : ZMod p) (y3 : ZMod p) hns := by
      rw [Affine.Point.add_of_X_ne hne, Affine.Point.some.injEq, hslope, hX, hY]
      exact ⟨rfl, rfl⟩
    rw [this]
    exact .affine x3 y3 hns

/-- Addition of points with reduced x coordinates is the group law. -/
theorem add_stands {c : WCurve} (g : Good c p) {P1 P2 : WPoint} {Q1 Q2 : (wCurve p c.a c.b).Point}
    (s1 : Stands c p P1 Q1) (s2 : Stands c p P2 Q2) :
    ∃ R, P1.add P2 = .ok R ∧ Stands c p R (Q1 + Q2) ∧
      (InRange p P1.y → InRange p P2.y → InRange p R.y) ∧ (Q1 ≠ 0 → Q2 ≠ 0 → InRange p R.y) := by
  obtain ⟨c1, px1, py1⟩ := P1
  obtain ⟨c2, px2, py2⟩ := P2
  obtain ⟨hc1, r1, d1⟩ := s1
  obtain ⟨hc2, r2, d2⟩ := s2
  simp only at hc1 r1 d1 hc2 r2 d2
  subst hc1 hc2
  rw [WPoint.add]
  cases r2 with
  | infinity =>
    refine ⟨⟨_, px1, py1⟩, ?_, ⟨rfl, by rw [add_zero]; exact r1, d1⟩, fun h _ => h, fun _ h => absurd rfl h⟩
    rw [WCurve.addPoints]
    simp only [Py.assert, if_true, eq_identity_infinity]
    rfl
  | affine x2 y2 h2 =>
    cases r1 with
    | infinity =>
      refine ⟨⟨_, some x2, some y2⟩, ?_, ⟨rfl, by rw [zero_add]; exact .affine x2 y2 h2, d2⟩, fun _ h => h, fun h => absurd rfl h⟩
      rw [WCurve.addPoints]
      simp only [Py.assert, if_true, eq_identity_infinity, eq_identity_affine, Bool.false_eq_true, if_false]
      rfl
    | affine x1 y1 h1 =>
      by_cases hx : (x1 : ZMod p) = x2
      · have hxx : x1 = x2 := eq_of_cast_eq (d1 x1 rfl).1 (d1 x1 rfl).2 (d2 x2 rfl).1 (d2 x2 rfl).2 hx
        subst hxx
        obtain ⟨s, hs1, hs2, hs3, hs⟩ := pyMod_ok hpf.out.pos (y1 + y2)
        push_cast at hs
        have hred : WCurve.addPoints c2 ⟨c2, some x1, some y1⟩ ⟨c2, some x1, some y2⟩ =
            if s = 0 then .ok c2.identity else c2.doublePoint ⟨c2, some x1, some y1⟩ := by
          rw [WCurve.addPoints]
          simp only [Py.assert, if_true, eq_identity_affine, Bool.false_eq_true, if_false, num, g.hp]
          change (do let s ← pyMod (y1 + y2) p; _) = _
          rw [hs1]
          rfl
        rw [hred]
        by_cases hs0 : s = 0
        · rw [if_pos hs0]
          have hy : (y1 : ZMod p) = (wCurve p c2.a c2.b).negY x1 y2 := by
            rw [Affine.negY]
            simp only [wCurve]
            rw [hs0] at hs
            push_cast at hs
            linear_combination -hs
          refine ⟨c2.identity, rfl, ⟨rfl, ?_, ?_⟩, ?_, ?_⟩
          · rw [Affine.Point.add_of_Y_eq rfl hy]
            exact .infinity
          · intro v hv; simp [WCurve.identity] at hv
          · intro _ _ v hv; simp [WCurve.identity] at hv
          · intro _ _ v hv; simp [WCurve.identity] at hv
        · rw [if_neg hs0]
          have hyne : (y1 : ZMod p) ≠ -y2 := by
            intro he
            apply hs0
            apply eq_of_cast_eq hs2 hs3 (le_refl 0) (by have := hpf.out.pos; omega)
            rw [hs, he]; push_cast; ring
          have e1 := (wCurve_equation _ _).mp h1.1
          have e2 := (wCurve_equation _ _).mp h2.1
          have hyy : (y1 : ZMod p) = y2 := by
            have : ((y1 : ZMod p) - y2) * (y1 + y2) = 0 := by linear_combination e1 - e2
            rcases mul_eq_zero.mp this with h | h
            · exact sub_eq_zero.mp h
            · exact absurd (eq_neg_of_add_eq_zero_left h) hyne
          have hy0 : (y1 : ZMod p) ≠ 0 := by
            intro h0
            rw [← hyy, h0, neg_zero] at hyne
            exact hyne rfl
          obtain ⟨x3, y3, k1, k2, k3, k4, k5, k6⟩ := double_affine g c2 x1 y1 h1 hy0
          refine ⟨_, k1, ⟨rfl, ?_, reduced_some k2 k3⟩, fun _ _ => reduced_some k4 k5, fun _ _ => reduced_some k4 k5⟩
          have : Affine.Point.some (x1 : ZMod p) (y2 : ZMod p) h2 =
              Affine.Point.some (x1 : ZMod p) (y1 : ZMod p) h1 := by
            rw [Affine.Point.some.injEq]; exact ⟨rfl, hyy.symm⟩
          rw [this]
          exact k6
      · obtain ⟨x3, y3, k1, k2, k3, k4, k5, k6⟩ := add_affine g x1 y1 x2 y2 h1 h2 hx
        exact ⟨_, k1, ⟨rfl, k6, reduced_some k2 k3⟩, fun _ _ => reduced_some k4 k5, fun _ _ => reduced_some k4 k5⟩

/-- Doubling of a point that is neither zero nor of order two. -/
theorem double_stands {c : WCurve} (g : Good c p) {P : WPoint} {Q : (wCurve p c.a c.b).Point}
    (s : Stands c p P Q) (h : Q + Q ≠ 0) :
    ∃ R, P.double = .ok R ∧ Stands c p R (Q + Q) ∧ InRange p R.y := by
  obtain ⟨c1, px, py⟩ := P
  obtain ⟨hc, r, d⟩ := s
  simp only at hc r d
  subst hc
  cases r with
  | infinity => exact absurd (add_zero 0) h
  | affine x y hn =>
    have hy0 : (y : ZMod p) ≠ 0 := by
      intro h0
      apply h
      apply Affine.Point.add_of_Y_eq rfl
      rw [Affine.negY, h0]
      simp [wCurve]
    obtain ⟨x3, y3, k1, k2, k3, k4, k5, k6⟩ := double_affine g c1 x y hn hy0
    exact ⟨_, k1, ⟨rfl, k6, reduced_some k2 k3⟩, reduced_some k4 k5⟩

/-- Negation of a finite point. -/
theorem neg_stands {c : WCurve} (g : Good c p) {P : WPoint} {Q : (wCurve p c.a c.b).Point}
    (s : Stands c p P Q) (h : Q ≠ 0) :
    ∃ R, P.neg = .ok R ∧ Stands c p R (-Q) ∧ R.x = P.x ∧ R.y = P.y.map (- ·) := by
  obtain ⟨c1, px, py⟩ := P
  obtain ⟨hc, r, d⟩ := s
  simp only at hc r d
  subst hc
  cases r with
  | infinity => exact absurd rfl h
  | affine x y hn =>
    have e1 := (wCurve_equation _ _).mp hn.1
    have e2 : (((-y : Int)) : ZMod p) ^ 2 = (x : ZMod p) ^ 3 + c1.a * x + c1.b := by
      push_cast; rw [neg_sq]; exact e1
    have hns := nonsing g e2
    refine ⟨⟨c1, some x, some (-y)⟩, ?_, ⟨rfl, ?_, d⟩, rfl, rfl⟩
    · rw [WPoint.neg, WCurve.negate]
      change c1.point (some x) (some (-y)) = _
      rw [point_affine c1 g.hp, if_pos e2]
    · have : -(Affine.Point.some (x : ZMod p) (y : ZMod p) hn) = Affine.Point.some (x : ZMod p) ((-y : Int) : ZMod p) hns := by
        rw [Affine.Point.neg_some, Affine.Point.some.injEq, Affine.negY]
        refine ⟨rfl, ?_⟩
        simp [wCurve]
      rw [this]
      exact .affine x (-y) hns

/-! ### Scalar multiplication -/

theorem leftmostLoop_spec (x : Nat) (k : Nat) (h : 2 ^ k ≤ 2 * x ∨ k = 0) :
    ∃ t, leftmostLoop (2 ^ k) x = 2 ^ t ∧ x < 2 ^ t ∧ (2 ^ t ≤ 2 * x ∨ t = 0) := by
  induction hm : x + 1 - 2 ^ k using Nat.strong_induction_on generalizing k with
  | _ m ih =>
    rw [leftmostLoop]
    have hpos : 0 < 2 ^ k := Nat.two_pow_pos k
    by_cases hle : 2 ^ k ≤ x
    · rw [dif_pos ⟨hle, hpos⟩]
      have := ih (x + 1 - 2 ^ (k + 1)) (by rw [pow_succ]; omega) (k + 1) (by rw [pow_succ]; omega) rfl
      rwa [pow_succ, mul_comm] at this
    · rw [dif_neg (by omega)]
      exact ⟨k, rfl, by omega, h⟩

theorem leftmostBit_spec (x : Nat) (hx : 0 < x) :
    ∃ t, leftmostBit x = 2 ^ t ∧ 2 ^ t ≤ x ∧ x < 2 ^ (t + 1) := by
  obtain ⟨t, h1, h2, h3⟩ := leftmostLoop_spec x 0 (.inr rfl)
  rw [pow_zero] at h1
  rw [leftmostBit, h1]
  cases t with
  | zero => simp at h2; omega
  | succ t =>
    refine ⟨t, by rw [pow_succ]; omega, ?_, h2⟩
    rcases h3 with h3 | h3
    · rw [pow_succ] at h3; omega
    · omega

/-- The multiplier after the bits above position `j`. -/
def partialScalar (e j : Nat) : Nat := 3 * e / 2 ^ j - e / 2 ^ j

theorem partialScalar_one (e : Nat) : partialScalar e 1 = e := by
  rw [partialScalar, pow_one]; omega

theorem partialScalar_pos (e j : Nat) (h : 2 ^ j ≤ 3 * e) : 1 ≤ partialScalar e j := by
  rw [partialScalar]
  have h1 : 1 ≤ 3 * e / 2 ^ j := (Nat.one_le_div_iff (Nat.two_pow_pos j)).mpr h
  have h2 : 3 * (e / 2 ^ j) ≤ 3 * e / 2 ^ j := Nat.mul_div_le_mul_div_assoc 3 e _
  omega

theorem partialScalar_le (e j : Nat) (h : 1 ≤ j) : partialScalar e j ≤ e := by
  rw [partialScalar]
  obtain ⟨k, rfl⟩ : ∃ k, j = k + 1 := ⟨j - 1, by omega⟩
  have hd : 0 < 2 ^ (k + 1) := Nat.two_pow_pos _
  have h2k : 2 ≤ 2 ^ (k + 1) := by
    have := Nat.one_le_two_pow (n := k); rw [pow_succ]; omega
  generalize 2 ^ (k + 1) = d at *
  have h1 := Nat.div_add_mod (3 * e) d
  have h2 := Nat.div_add_mod e d
  have h3 := Nat.mod_lt (3 * e) hd
  have h4 := Nat.mod_lt e hd
  generalize 3 * e / d = u at *
  generalize e / d = v at *
  generalize 3 * e % d = s at *
  generalize e % d = w at *
  by_contra hcon
  have hcon' : e + v + 1 ≤ u := by omega
  have h5 : d * (e + v + 1) ≤ d * u := Nat.mul_le_mul_left d hcon'
  have h6 : 2 * e ≤ d * e := Nat.mul_le_mul_right e h2k
  have h7 : d * (e + v + 1) = d * e + d * v + d := by ring
  omega

theorem partialScalar_succ (e j : Nat) : (partialScalar e j : Int) =
    2 * partialScalar e (j + 1) + (3 * e / 2 ^ j % 2 : Nat) - (e / 2 ^ j % 2 : Nat) := by
  have h1 : ∀ m : Nat, m / 2 ^ (j + 1) = m / 2 ^ j / 2 := by
    intro m; rw [pow_succ, Nat.div_div_eq_div_mul]
  have hle : ∀ j, e / 2 ^ j ≤ 3 * e / 2 ^ j := fun j => Nat.div_le_div_right (by omega)
  have := hle j
  have := hle (j + 1)
  rw [partialScalar, partialScalar]
  rw [h1, h1] at *
  omega

theorem land_two_pow (m j : Nat) : m &&& 2 ^ j = 0 ↔ m / 2 ^ j % 2 = 0 := by
  rw [Nat.and_two_pow, Nat.testBit_eq_decide_div_mod_eq]
  have h1 : 0 < 2 ^ j := Nat.two_pow_pos j
  rcases Nat.mod_two_eq_zero_or_one (m / 2 ^ j) with h | h
  · simp [h]
  · simp [h]

theorem scalarStep_spec {c : WCurve} (g : Good c p) {P N R : WPoint} {Q : (wCurve p c.a c.b).Point}
    (s : Stands c p P Q) (sn : Stands c p N (-Q)) (hQ : Q ≠ 0) (e j m : Nat) (sR : Stands c p R (m • Q))
    (hm : (m • Q) + (m • Q) ≠ 0) :
    ∃ T, scalarStep e (3 * e) P N (2 ^ j) R = .ok T ∧ InRange p T.y ∧
      Stands c p T ((2 * m + (3 * e / 2 ^ j % 2 : Nat) - (e / 2 ^ j % 2 : Nat) : Int) • Q) := by
  obtain ⟨D, hD, sD, yD⟩ := double_stands g sR hm
  have hdbl : (m • Q) + (m • Q) = (2 * m : Int) • Q := by
    rw [← natCast_zsmul, ← add_zsmul, two_mul]
  rw [scalarStep, hD]
  simp only [ne_eq, land_two_pow]
  rcases Nat.mod_two_eq_zero_or_one (3 * e / 2 ^ j) with h3 | h3 <;>
    rcases Nat.mod_two_eq_zero_or_one (e / 2 ^ j) with h1 | h1 <;>
    rw [h3, h1]
  · refine ⟨D, rfl, yD, ?_⟩
    rw [hdbl] at sD
    simpa using sD
  · obtain ⟨T, hT, sT, -, yT⟩ := add_stands g sD sn
    refine ⟨T, hT, yT hm (neg_ne_zero.mpr hQ), ?_⟩
    rw [hdbl] at sT
    have : (2 * m + ((0 : Nat) : Int) - ((1 : Nat) : Int) : Int) • Q = (2 * m : Int) • Q + -Q := by
      rw [Nat.cast_zero, add_zero, sub_zsmul, Nat.cast_one, one_zsmul]
    rw [this]; exact sT
  · obtain ⟨T, hT, sT, -, yT⟩ := add_stands g sD s
    refine ⟨T, ?_, yT hm hQ, ?_⟩
    · change (do let a ← D.add P; _) = _
      rw [hT]; rfl
    · rw [hdbl] at sT
      have : (2 * m + ((1 : Nat) : Int) - ((0 : Nat) : Int) : Int) • Q = (2 * m : Int) • Q + Q := by
        rw [Nat.cast_zero, sub_zero, add_zsmul, Nat.cast_one, one_zsmul]
      rw [this]; exact sT
  · refine ⟨D, rfl, yD, ?_⟩
    rw [hdbl] at sD
    simpa using sD

theorem scalarLoop_spec {c : WCurve} (g : Good c p) {P N : WPoint} {Q : (wCurve p c.a c.b).Point}
    (s : Stands c p P Q) (sn : Stands c p N (-Q)) (hQ : Q ≠ 0) (e : Nat)
    (hord : ∀ m : Nat, 1 ≤ m → m ≤ e → (m • Q) + (m • Q) ≠ 0) :
    ∀ (j : Nat) (R : WPoint), Stands c p R (partialScalar e (j + 1) • Q) → 2 ^ (j + 1) ≤ 3 * e →
      ∃ T, scalarLoop e (3 * e) P N (2 ^ j) R = .ok T ∧ Stands c p T (e • Q) ∧
        (InRange p R.y → InRange p T.y) := by
  intro j
  induction j with
  | zero =>
    intro R hR _
    rw [zero_add, partialScalar_one] at hR
    refine ⟨R, ?_, hR, fun h => h⟩
    rw [scalarLoop, dif_neg (by simp)]
  | succ j ih =>
    intro R hR hle
    have hpos := partialScalar_pos e _ hle
    have hub := partialScalar_le e (j + 1 + 1) (by omega)
    obtain ⟨D, hD, yD, sD⟩ := scalarStep_spec g s sn hQ e (j + 1) _ hR (hord _ hpos hub)
    rw [← partialScalar_succ, natCast_zsmul] at sD
    have hle' : 2 ^ (j + 1) ≤ 3 * e := le_trans (Nat.pow_le_pow_right (by omega) (by omega)) hle
    have hi : 2 ^ (j + 1) / 2 = 2 ^ j := by rw [pow_succ]; omega
    obtain ⟨T, hT, sT, yT⟩ := ih D sD hle'
    refine ⟨T, ?_, sT, fun _ => yT yD⟩
    rw [scalarLoop, dif_pos (Nat.one_lt_two_pow (by omega)), hD, hi]
    exact hT

/-- Scalar multiplication by a reduced scalar of a point none of whose multiples up to it has order
one or two. -/
theorem scalar_core {c : WCurve} (g : Good c p) {P : WPoint} {Q : (wCurve p c.a c.b).Point}
    (s : Stands c p P Q) (k : Int) (e : Nat) (he : pyMod k c.n = .ok (e : Int)) (he0 : 1 ≤ e)
    (hord : ∀ m : Nat, 1 ≤ m → m ≤ e → (m • Q) + (m • Q) ≠ 0) :
    ∃ R, P.mul k = .ok R ∧ Stands c p R (e • Q) ∧ (InRange p P.y → InRange p R.y) := by
  have hQ : Q ≠ 0 := by
    rintro rfl
    exact hord 1 (le_refl _) he0 (by simp)
  obtain ⟨N, hN, sN, -, -⟩ := neg_stands g s hQ
  obtain ⟨t, ht1, ht2, ht3⟩ := leftmostBit_spec (3 * e) (by omega)
  have ht : 1 ≤ t := by
    by_contra h
    have : t = 0 := by omega
    subst this
    simp at ht3
    omega
  have hps : partialScalar e t = 1 := by
    have h1 := partialScalar_pos e t ht2
    rw [partialScalar] at *
    have h2 : 3 * e / 2 ^ t < 2 := by
      rw [Nat.div_lt_iff_lt_mul (Nat.two_pow_pos t)]
      rw [pow_succ] at ht3
      omega
    have h3 := Nat.zero_le (e / 2 ^ t)
    generalize 3 * e / 2 ^ t = u at *
    generalize e / 2 ^ t = v at *
    omega
  obtain ⟨T, hT, sT, yT⟩ := scalarLoop_spec g s sN hQ e hord (t - 1) P
    (by rw [Nat.sub_add_cancel ht, hps, one_smul]; exact s) (by rw [Nat.sub_add_cancel ht]; exact ht2)
  have hdiv : 2 ^ t / 2 = 2 ^ (t - 1) := by
    obtain ⟨u, rfl⟩ : ∃ u, t = u + 1 := ⟨t - 1, by omega⟩
    rw [pow_succ]; simp
  refine ⟨T, ?_, sT, yT⟩
  obtain ⟨c1, px, py⟩ := P
  obtain ⟨hc, r, d⟩ := s
  simp only at hc r d
  subst hc
  cases r with
  | infinity => exact absurd rfl hQ
  | affine x y hn =>
    rw [WPoint.mul, WCurve.scalarMultiple]
    simp only
    rw [he]
    change (if (e : Int) = 0 then _ else _) = _
    rw [if_neg (by omega), if_neg (by rw [eq_identity_affine]; simp), Py.assert, if_pos (by omega)]
    change (do let N ← c1.negate ⟨c1, some x, some y⟩; _) = _
    change c1.negate ⟨c1, some x, some y⟩ = _ at hN
    rw [hN]
    simp only [Int.toNat_natCast]
    change scalarLoop e (3 * e) _ N (leftmostBit (3 * e) / 2) _ = _
    rw [ht1, hdiv]
    exact hT

end Cryptopy.Model
