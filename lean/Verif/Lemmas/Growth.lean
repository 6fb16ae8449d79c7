import Verif.Lemmas.Ladder
import Mathlib.FieldTheory.IsAlgClosed.AlgebraicClosure

/-!
The variables of the Montgomery ladder are not reduced: they are divisible by ever higher powers of the
x-coordinate, and the pairs never vanish.
-/

namespace Cryptopy
open Model Spec WeierstrassCurve XOnly

private theorem xrep_ne {F : Type} [Field F] {W : Affine F} {X Z : F} {Q : W.Point} (h : XRep X Z Q) :
    X ≠ 0 ∨ Z ≠ 0 := by
  cases Q with
  | zero => exact Or.inl h.2
  | some x y n => exact Or.inr h.1

/-- The pairs `(x2, z2)` and `(x3, z3)` are never zero. -/
theorem ladder_pairs_ne (x1 a : Int) (hx : x1 ≠ 0) (ha : a ^ 2 ≠ 4) (scalar : Int) (l : List Nat) :
    let s := l.foldl (ladderStep x1 a scalar) (1, 0, x1, 1)
    (s.1 ≠ 0 ∨ s.2.1 ≠ 0) ∧ (s.2.2.1 ≠ 0 ∨ s.2.2.2 ≠ 0) := by
  classical
  let K := AlgebraicClosure ℚ
  obtain ⟨y, hy⟩ := IsAlgClosed.exists_pow_nat_eq
    ((x1 : K) ^ 3 + a * (x1 : K) ^ 2 + x1) (n := 2) (by norm_num)
  have ha' : (a : K) ^ 2 ≠ 4 := by
    intro h; apply ha; exact_mod_cast h
  have h2 : (2 : K) ≠ 0 := two_ne_zero
  have n1 : (mCurveOver K a).Nonsingular (x1 : K) y := by
    refine (Affine.equation_iff_nonsingular_of_Δ_ne_zero ?_).mp ?_
    · have : (mCurveOver K a).Δ = 2 ^ 4 * ((a : K) ^ 2 - 4) := by
        simp only [WeierstrassCurve.Δ, WeierstrassCurve.b₂, WeierstrassCurve.b₄, WeierstrassCurve.b₆,
          WeierstrassCurve.b₈, mCurveOver]
        ring
      rw [this]
      exact mul_ne_zero (pow_ne_zero _ h2) (sub_ne_zero.mpr ha')
    · rw [Affine.equation_iff]
      simp only [mCurveOver]
      linear_combination hy
  have hx1 : (x1 : K) ≠ 0 := by exact_mod_cast hx
  have key : ∀ (l : List Nat) (m : Int) (s : Int × Int × Int × Int), LInv (.some (x1 : K) y n1) m s →
      ∃ m', LInv (.some (x1 : K) y n1) m' (l.foldl (ladderStep x1 a scalar) s) := by
    intro l
    induction l with
    | nil => intro m s h; exact ⟨m, h⟩
    | cons i l ih => intro m s h; exact ih _ _ (ladder_step h2 ha' x1 y n1 hx1 scalar m i s h)
  obtain ⟨m, r2, r3⟩ := key l 0 (1, 0, x1, 1) (by
    refine ⟨?_, ?_⟩
    · rw [zero_zsmul, xrep_zero]; simp
    · rw [zero_add, one_zsmul, xrep_some]; simp)
  have e2 := xrep_ne r2
  have e3 := xrep_ne r3
  exact_mod_cast And.intro e2 e3

/-- Powers of `x1` that divide the pairs, with exponents of sum at least `n`. -/
def Content (x1 : Int) (n : Nat) (s : Int × Int × Int × Int) : Prop :=
  ∃ e f : Nat, n ≤ e + f ∧ x1 ^ e ∣ s.1 ∧ x1 ^ e ∣ s.2.1 ∧ x1 ^ f ∣ s.2.2.1 ∧ x1 ^ f ∣ s.2.2.2

private theorem content_sum {x1 x2 z2 x3 z3 : Int} {e f : Nat} (h1 : x1 ^ e ∣ x2) (h2 : x1 ^ e ∣ z2)
    (h3 : x1 ^ f ∣ x3) (h4 : x1 ^ f ∣ z3) :
    x1 ^ (2 * (e + f)) ∣ (x2 * x3 - z2 * z3) ^ 2 ∧ x1 ^ (2 * (e + f)) ∣ x1 * (x2 * z3 - z2 * x3) ^ 2 := by
  rw [mul_comm, pow_mul, pow_add]
  exact ⟨pow_dvd_pow_of_dvd (dvd_sub (mul_dvd_mul h1 h3) (mul_dvd_mul h2 h4)) _,
    (pow_dvd_pow_of_dvd (dvd_sub (mul_dvd_mul h1 h4) (mul_dvd_mul h2 h3)) _).mul_left _⟩

theorem content_step (x1 a scalar : Int) (n i : Nat) (s : Int × Int × Int × Int) (h : Content x1 n s) :
    Content x1 (2 * n) (ladderStep x1 a scalar s i) := by
  obtain ⟨x2, z2, x3, z3⟩ := s
  obtain ⟨e, f, hn, h1, h2, h3, h4⟩ := h
  obtain ⟨k1, k2⟩ := content_sum h1 h2 h3 h4
  rcases Int.emod_two_eq_zero_or_one (scalar.fdiv (2 ^ i)) with hb | hb
  · rw [ladderStep_even _ _ _ _ _ _ _ _ hb]
    exact ⟨0, 2 * (e + f), by omega, by simp, by simp, k1, k2⟩
  · rw [ladderStep_odd _ _ _ _ _ _ _ _ hb]
    exact ⟨2 * (e + f), 0, by omega, k1, k2, by simp, by simp⟩

theorem content_first (x1 a scalar : Int) (i : Nat) :
    Content x1 1 (ladderStep x1 a scalar (1, 0, x1, 1) i) := by
  rcases Int.emod_two_eq_zero_or_one (scalar.fdiv (2 ^ i)) with hb | hb
  · rw [ladderStep_even _ _ _ _ _ _ _ _ hb]
    exact ⟨0, 1, by omega, by simp, by simp, ⟨x1, by ring⟩, ⟨1, by ring⟩⟩
  · rw [ladderStep_odd _ _ _ _ _ _ _ _ hb]
    exact ⟨1, 0, by omega, ⟨x1, by ring⟩, ⟨1, by ring⟩, by simp, by simp⟩

theorem content_loop (x1 a scalar : Int) (l : List Nat) : ∀ (n : Nat) (s : Int × Int × Int × Int),
    Content x1 n s → Content x1 (2 ^ l.length * n) (l.foldl (ladderStep x1 a scalar) s) := by
  induction l with
  | nil => intro n s h; simpa using h
  | cons i l ih =>
    intro n s h
    have := ih _ _ (content_step x1 a scalar n i s h)
    rw [List.foldl_cons, List.length_cons, pow_succ, mul_assoc]
    exact this

private theorem le_of_pow_dvd {x v : Int} {e : Nat} (hv : v ≠ 0) (h : x ^ e ∣ v) : |x| ^ e ≤ |v| := by
  rw [← abs_pow]
  exact Int.le_of_dvd (abs_pos.mpr hv) ((abs_dvd_abs _ _).mpr h)

/-- One of the four variables is large after `k + 2` iterations. -/
theorem ladder_growth (x1 a scalar : Int) (hx : 2 ≤ |x1|) (ha : a ^ 2 ≠ 4) (l : List Nat) (k : Nat)
    (hl : k + 2 ≤ l.length) :
    let s := l.foldl (ladderStep x1 a scalar) (1, 0, x1, 1)
    |x1| ^ 2 ^ k ≤ |s.1| ∨ |x1| ^ 2 ^ k ≤ |s.2.1| ∨ |x1| ^ 2 ^ k ≤ |s.2.2.1| ∨ |x1| ^ 2 ^ k ≤ |s.2.2.2| := by
  intro s
  have hx0 : x1 ≠ 0 := by rintro rfl; simp at hx
  obtain ⟨n2, n3⟩ := ladder_pairs_ne x1 a hx0 ha scalar l
  have hc : Content x1 (2 * 2 ^ k) s := by
    cases l with
    | nil => simp at hl
    | cons i l =>
      obtain ⟨e, f, h, hs⟩ := content_loop x1 a scalar l 1 _ (content_first x1 a scalar i)
      refine ⟨e, f, le_trans ?_ h, hs⟩
      rw [mul_one, ← pow_succ']
      exact Nat.pow_le_pow_right (by omega) (by simp only [List.length_cons] at hl; omega)
  obtain ⟨e, f, h, d1, d2, d3, d4⟩ := hc
  have mono : ∀ {e : Nat} {v : Int}, 2 ^ k ≤ e → v ≠ 0 → x1 ^ e ∣ v → |x1| ^ 2 ^ k ≤ |v| := by
    intro e v he hv hd
    exact le_trans (pow_le_pow_right₀ (by omega) he) (le_of_pow_dvd hv hd)
  rcases le_or_gt (2 ^ k) e with he | he
  · rcases n2 with n | n
    · exact Or.inl (mono he n d1)
    · exact Or.inr (Or.inl (mono he n d2))
  · have hf : 2 ^ k ≤ f := by omega
    rcases n3 with n | n
    · exact Or.inr (Or.inr (Or.inl (mono hf n d3)))
    · exact Or.inr (Or.inr (Or.inr (mono hf n d4)))

end Cryptopy
