import Verif.Model.Arith
import Mathlib.NumberTheory.LegendreSymbol.JacobiSymbol
import Mathlib.Data.ZMod.Basic
import Mathlib.Tactic.Ring

/-! Lemmas on the integer arithmetic model: powers, gcd, lcm, inverse, Jacobi and Legendre symbols. -/

namespace Cryptopy.Model

theorem fmod_pos_eq (a : Int) {m : Int} (h : 0 < m) : a.fmod m = a % m :=
  Int.fmod_eq_emod_of_nonneg a (le_of_lt h)

theorem pyPow_pos (a : Int) {e m : Int} (he : 0 ≤ e) (hm : 0 < m) :
    pyPow a e m = .ok (a ^ e.toNat % m) := by
  rw [pyPow, if_neg (by omega), if_neg (by omega), fmod_pos_eq _ hm]

theorem modularExp_pos (a : Int) {e m : Int} (he : 0 ≤ e) (hm : 0 < m) :
    modularExp a e m = .ok (a ^ e.toNat % m) := by
  rw [modularExp, if_neg (by omega), pyPow_pos a he hm]

/-! ### gcd -/

theorem fmod_gcd (a b : Int) : Int.gcd (b.fmod a) a = Int.gcd a b := by
  rw [Int.fmod_def, Int.gcd_comm a b]
  apply Int.gcd_sub_mul_left_left

theorem gcd2_natAbs (a b : Int) : (gcd2 a b).natAbs = Int.gcd a b := by
  induction a, b using gcd2.induct with
  | case1 a b h ih =>
    rw [gcd2, dif_pos h, ih, fmod_gcd]
  | case2 a b h =>
    rw [gcd2, dif_neg h]
    have : a = 0 := by simpa using h
    simp [this]

theorem gcd2_nonneg (a b : Int) (ha : 0 ≤ a) (hb : 0 ≤ b) : 0 ≤ gcd2 a b := by
  induction a, b using gcd2.induct with
  | case1 a b h ih =>
    rw [gcd2, dif_pos h]
    exact ih (Int.fmod_nonneg hb ha) ha
  | case2 a b h => rw [gcd2, dif_neg h]; exact hb

theorem gcd2_eq (a b : Int) (ha : 0 ≤ a) (hb : 0 ≤ b) : gcd2 a b = Int.gcd a b := by
  have h1 := gcd2_natAbs a b
  have h2 := gcd2_nonneg a b ha hb
  omega

/-- A negative first argument makes the result negative. -/
theorem gcd2_neg (a b : Int) (ha : a < 0) : gcd2 a b < 0 := by
  induction a, b using gcd2.induct with
  | case1 a b h ih =>
    rw [gcd2, dif_pos h]
    have h3 := Int.fmod_nonneg_of_pos (-b) (b := -a) (by omega)
    rw [Int.neg_fmod_neg] at h3
    rcases Int.lt_or_eq_of_le (show b.fmod a ≤ 0 by omega) with h4 | h4
    · exact ih h4
    · rw [h4, gcd2, dif_neg (by simp)]; exact ha
  | case2 a b h => omega

/-- A positive first argument makes the result positive. -/
theorem gcd2_pos (a b : Int) (ha : 0 < a) : 0 < gcd2 a b := by
  induction a, b using gcd2.induct with
  | case1 a b h ih =>
    rw [gcd2, dif_pos h]
    rcases Int.lt_or_eq_of_le (Int.fmod_nonneg_of_pos b ha) with h4 | h4
    · exact ih h4
    · rw [← h4, gcd2, dif_neg (by simp)]; exact ha
  | case2 a b h => omega

theorem gcd2_pos_eq (a b : Int) (ha : 0 < a) : gcd2 a b = Int.gcd a b := by
  have h1 := gcd2_natAbs a b
  have h2 := gcd2_pos a b ha
  omega

theorem dvd_gcd2_iff (a b d : Int) : d ∣ gcd2 a b ↔ d ∣ a ∧ d ∣ b := by
  rw [← Int.dvd_coe_gcd_iff, ← gcd2_natAbs, Int.dvd_natAbs]

theorem dvd_foldl_gcd2 (xs : List Int) : ∀ (x d : Int),
    d ∣ xs.foldl gcd2 x ↔ d ∣ x ∧ ∀ y ∈ xs, d ∣ y := by
  induction xs with
  | nil => intro x d; simp
  | cons a xs ih =>
    intro x d
    rw [List.foldl_cons, ih, dvd_gcd2_iff]
    simp [and_assoc]

theorem foldl_gcd2_nonneg (xs : List Int) : ∀ (x : Int), 0 ≤ x → (∀ y ∈ xs, 0 ≤ y) →
    0 ≤ xs.foldl gcd2 x := by
  induction xs with
  | nil => intro x h _; exact h
  | cons a xs ih =>
    intro x h h2
    rw [List.foldl_cons]
    exact ih _ (gcd2_nonneg _ _ h (h2 a (by simp))) (fun y hy => h2 y (by simp [hy]))

theorem lcm2_pos (a b : Int) (ha : 0 < a) (hb : 0 < b) : lcm2 a b = .ok (Int.lcm a b) := by
  have hg := gcd2_pos_eq a b ha
  have hg0 := gcd2_pos a b ha
  have : lcm2 a b = .ok ((a * b).fdiv (gcd2 a b)) := by
    simp only [lcm2]; rw [if_neg (by omega)]
  rw [this, Int.fdiv_eq_ediv_of_nonneg _ (by omega), hg]
  congr 1
  have h : (Int.gcd a b : Int) * Int.lcm a b = a * b := by
    have := Int.gcd_mul_lcm a b
    have h2 : ((Int.gcd a b * Int.lcm a b : Nat) : Int) = ((a * b).natAbs : Int) := by rw [this, Int.natAbs_mul]
    rw [Int.natAbs_of_nonneg (by positivity)] at h2
    rw [← h2]; push_cast; ring
  rw [← h]
  exact Int.mul_ediv_cancel_left _ (by omega)

theorem foldlM_lcm2 (xs : List Int) : ∀ (x : Int), 0 < x → (∀ y ∈ xs, 0 < y) →
    ∃ r, xs.foldlM lcm2 x = .ok r ∧ 0 < r ∧ ∀ m : Int, r ∣ m ↔ x ∣ m ∧ ∀ y ∈ xs, y ∣ m := by
  induction xs with
  | nil => intro x h _; exact ⟨x, rfl, h, by simp⟩
  | cons a xs ih =>
    intro x h h2
    have ha := h2 a (by simp)
    obtain ⟨r, h3, h4, h5⟩ := ih (Int.lcm x a) (by
      have := Int.lcm_pos (m := x) (n := a) (by omega) (by omega)
      omega) (fun y hy => h2 y (by simp [hy]))
    refine ⟨r, ?_, h4, ?_⟩
    · rw [List.foldlM_cons, lcm2_pos x a h ha]; exact h3
    · intro m
      rw [h5, Int.coe_lcm_dvd_iff]
      simp [and_assoc]

/-! ### inverse_mod -/

/-- The loop invariant of `inverse_mod` and what it gives at the end. -/
theorem inverseModLoop_spec (a m : Int) (c d uc vc ud vd : Int) :
    ∀ σ : Int, (σ = 1 ∨ σ = -1) → 0 ≤ c → 0 < d → m ∣ uc * a - c → m ∣ ud * a - d →
    σ * uc * d - σ * ud * c = m → 0 ≤ σ * uc → σ * ud ≤ 0 → |ud| ≤ m →
    Int.gcd c d = Int.gcd a m →
    (inverseModLoop c d uc vc ud vd).1 = Int.gcd a m ∧
    m ∣ (inverseModLoop c d uc vc ud vd).2 * a - (inverseModLoop c d uc vc ud vd).1 ∧
    |(inverseModLoop c d uc vc ud vd).2| ≤ m := by
  induction c, d, uc, vc, ud, vd using inverseModLoop.induct with
  | case1 c d uc vc ud vd h q ih =>
    intro σ hσ hc hd h1 h2 h3 h4 h5 h6 h7
    rw [inverseModLoop, dif_pos h]
    have hcp : 0 < c := by omega
    have hq : d.fmod c + c * q = d := Int.fmod_add_mul_fdiv d c
    have hq0 : 0 ≤ q := by
      simp only [q]
      rw [Int.fdiv_eq_ediv_of_nonneg _ hc]
      exact Int.ediv_nonneg (le_of_lt hd) hc
    have hf : 0 ≤ d.fmod c := Int.fmod_nonneg_of_pos d hcp
    apply ih (-σ) (by omega) hf hcp
    · have : (ud - q * uc) * a - d.fmod c = (ud * a - d) - q * (uc * a - c) := by linarith [hq, mul_comm c q]
      rw [this]
      exact dvd_sub h2 (Dvd.dvd.mul_left h1 q)
    · exact h1
    · have : -σ * (ud - q * uc) * c - -σ * uc * d.fmod c
        = σ * uc * (d.fmod c + c * q) - σ * ud * c := by ring
      rw [this, hq, h3]
    · have : -σ * (ud - q * uc) = -(σ * ud) + q * (σ * uc) := by ring
      rw [this]
      have := mul_nonneg hq0 h4
      omega
    · have : -σ * uc = -(σ * uc) := by ring
      omega
    · have e1 : |uc| = σ * uc := by
        rcases hσ with rfl | rfl
        · rw [one_mul]; apply abs_of_nonneg; omega
        · rw [abs_of_nonpos (by omega)]; ring
      rw [e1]
      have h8 : 0 ≤ -(σ * ud) * c := mul_nonneg (by omega) hc
      have h9 : (σ * uc) * 1 ≤ (σ * uc) * d := mul_le_mul_of_nonneg_left (by omega) h4
      linarith [h3]
    · rw [fmod_gcd, h7]
  | case2 c d uc vc ud vd h =>
    intro σ hσ hc hd h1 h2 h3 h4 h5 h6 h7
    rw [inverseModLoop, dif_neg h]
    have hc0 : c = 0 := by simpa using h
    subst hc0
    have : (Int.gcd 0 d : Int) = d := by
      rw [Int.gcd_zero_left]; omega
    refine ⟨?_, h2, h6⟩
    rw [← h7, this]

theorem inverseModCore_spec (a m : Int) (hm : 0 < m) (ha : 0 ≤ a) (ham : a < m) :
    (Int.gcd a m ≠ 1 → inverseModCore a m = .error .assertion) ∧
    (Int.gcd a m = 1 → ∃ r, inverseModCore a m = .ok r ∧ 1 ≤ r ∧ r ≤ m ∧ (1 < m → r < m) ∧
      m ∣ a * r - 1) := by
  by_cases hm1 : m = 1
  · subst hm1
    have : a = 0 := by omega
    subst this
    have : inverseModCore 0 1 = .ok 1 := by
      rw [inverseModCore, inverseModLoop, dif_neg (by simp)]; rfl
    rw [this]
    exact ⟨by simp, fun _ => ⟨1, rfl, by simp⟩⟩
  obtain ⟨h1, h2, h3⟩ := inverseModLoop_spec a m a m 1 0 0 1 1 (.inl rfl) ha hm (by simp) (by simp)
    (by ring) (by simp) (by simp) (by simpa using le_of_lt hm) rfl
  unfold inverseModCore
  generalize inverseModLoop a m 1 0 0 1 = r at *
  obtain ⟨d, u⟩ := r
  simp only at h1 h2 h3 ⊢
  constructor
  · intro hg
    rw [if_pos (by rw [h1]; exact_mod_cast hg)]
  · intro hg
    have hd : d = 1 := by rw [h1, hg]; rfl
    subst hd
    rw [if_neg (by simp)]
    rw [abs_le] at h3
    have hu0 : u ≠ 0 := by
      rintro rfl
      rw [zero_mul, zero_sub, dvd_neg] at h2
      have := Int.le_of_dvd one_pos h2
      omega
    have hum : u ≠ m := by
      rintro rfl
      have h5 : u ∣ 1 := by
        have := dvd_sub (dvd_mul_right u a) h2
        simpa using this
      have := Int.le_of_dvd one_pos h5
      omega
    have hum2 : u ≠ -m := by
      intro hh
      have h5 : m ∣ 1 := by
        have h4 : m ∣ u * a := by rw [hh]; exact ⟨-a, by ring⟩
        have := dvd_sub h4 h2
        simpa using this
      have := Int.le_of_dvd one_pos h5
      omega
    split
    · exact ⟨u, rfl, by omega, by omega, by omega, by rw [mul_comm]; exact h2⟩
    · refine ⟨u + m, rfl, by omega, by omega, by omega, ?_⟩
      have : a * (u + m) - 1 = (u * a - 1) + m * a := by ring
      rw [this]
      exact dvd_add h2 (dvd_mul_right m a)

theorem gcd_fmod_left (a m : Int) : Int.gcd (a.fmod m) m = Int.gcd a m := by
  rw [fmod_gcd, Int.gcd_comm]


/-! ### Removing factors of two -/

theorem splitTwo_spec (a : Int) (e : Nat) (h : a ≠ 0) :
    (splitTwo a e).1 * 2 ^ (splitTwo a e).2 = a * 2 ^ e ∧ (splitTwo a e).1 % 2 = 1 ∧
      e ≤ (splitTwo a e).2 := by
  induction a, e using splitTwo.induct with
  | case1 a1 e hc ih =>
    rw [splitTwo, dif_pos hc]
    obtain ⟨h1, h2, h3⟩ := ih (by omega)
    refine ⟨?_, h2, by omega⟩
    rw [h1, pow_succ]
    have : a1 / 2 * 2 = a1 := by omega
    calc a1 / 2 * (2 ^ e * 2) = a1 / 2 * 2 * 2 ^ e := by ring
      _ = _ := by rw [this]
  | case2 a1 e hc =>
    rw [splitTwo, dif_neg hc]
    exact ⟨rfl, by omega, le_refl _⟩

theorem splitTwo_zero (a : Int) (h : a ≠ 0) :
    a = (splitTwo a 0).1 * 2 ^ (splitTwo a 0).2 ∧ (splitTwo a 0).1 % 2 = 1 := by
  obtain ⟨h1, h2, _⟩ := splitTwo_spec a 0 h
  exact ⟨by simpa using h1.symm, h2⟩

/-! ### Jacobi symbol -/

open scoped NumberTheorySymbols

theorem jacobi_nat (k : Nat) : ∀ (a : Int) (n : Nat), n ≤ k → 3 ≤ n → n % 2 = 1 →
    jacobi a n = .ok (jacobiSym a n) := by
  induction k with
  | zero => intro a n h1 h2; omega
  | succ k ih =>
    intro a n hk hn hodd
    have hnp : (0 : Int) < (n : Int) := by omega
    rw [jacobi, dif_neg (by omega), if_neg (by omega)]
    simp only [fmod_pos_eq a hnp]
    rw [jacobiSym.mod_left a n]
    have hb0 : 0 ≤ a % (n : Int) := Int.emod_nonneg _ (by omega)
    have hb1 : a % (n : Int) < n := Int.emod_lt_of_pos _ hnp
    generalize a % (n : Int) = b at *
    by_cases h0 : b = 0
    · rw [dif_pos h0, h0, jacobiSym.zero_left (by omega)]
    rw [dif_neg h0]
    by_cases h1 : b = 1
    · rw [if_pos h1, h1, jacobiSym.one_left]
    rw [if_neg h1]
    obtain ⟨hs1, hs2⟩ := splitTwo_zero b h0
    obtain ⟨hs3, hs4⟩ := splitTwo_bounds b 0 (by omega)
    generalize splitTwo b 0 = r at *
    obtain ⟨a1, e⟩ := r
    simp only at hs1 hs2 hs3 hs4 ⊢
    have hJ : jacobiSym b n = (if e % 2 = 0 ∨ (n : Int) % 8 = 1 ∨ (n : Int) % 8 = 7 then 1 else -1)
        * jacobiSym a1 n := by
      rw [hs1, jacobiSym.mul_left, jacobiSym.pow_left, jacobiSym.at_two (Nat.odd_iff.mpr hodd),
        ZMod.χ₈_nat_eq_if_mod_eight, if_neg (by omega), mul_comm]
      congr 1
      by_cases h8 : n % 8 = 1 ∨ n % 8 = 7
      · rw [if_pos h8, if_pos (by omega), one_pow]
      · rw [if_neg h8]
        rcases Nat.even_or_odd e with he | he
        · rw [if_pos (by left; exact Nat.even_iff.mp he), he.neg_one_pow]
        · rw [if_neg (by have := Nat.odd_iff.mp he; omega), he.neg_one_pow]
    generalize (if e % 2 = 0 ∨ (n : Int) % 8 = 1 ∨ (n : Int) % 8 = 7 then (1 : Int) else -1) = s at *
    by_cases h2 : a1 = 1
    · rw [if_pos h2, hJ, h2, jacobiSym.one_left, mul_one]
    rw [if_neg h2]
    obtain ⟨c, rfl⟩ : ∃ c : Nat, a1 = c := ⟨a1.toNat, by omega⟩
    rw [ih _ c (by omega) (by omega) (by omega), fmod_pos_eq _ hs3, ← jacobiSym.mod_left]
    simp only
    rw [hJ, ← jacobiSym.quadratic_reciprocity_if (show c % 2 = 1 by omega) hodd]
    congr 1
    by_cases h4 : c % 4 = 3 ∧ n % 4 = 3
    · rw [if_pos h4, if_pos (by omega)]; ring
    · rw [if_neg h4, if_neg (by omega)]

theorem jacobi_eq (a n : Int) (hn : 3 ≤ n) (hodd : n % 2 = 1) :
    jacobi a n = .ok (jacobiSym a n.toNat) := by
  have := jacobi_nat n.toNat a n.toNat (le_refl _) (by omega) (by omega)
  rwa [Int.toNat_of_nonneg (by omega)] at this

theorem jacobi_error (a n : Int) (h : n < 3 ∨ n % 2 = 0) : jacobi a n = .error .assertion := by
  rw [jacobi]
  by_cases h3 : n ≥ 3
  · rw [dif_neg (by omega), if_pos (by omega)]
  · rw [dif_pos h3]

end Cryptopy.Model
