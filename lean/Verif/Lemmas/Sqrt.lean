import Verif.Lemmas.Arith
import Mathlib.NumberTheory.LegendreSymbol.Basic
import Mathlib.FieldTheory.Finite.Basic
import Mathlib.Tactic.LinearCombination

/-! Lemmas on `legendre_symbol` and `modular_sqrt`. -/

namespace Cryptopy.Model

variable {p : Nat} [Fact p.Prime]

theorem emod_cast (x : Int) (p : Nat) : ((x % (p : Int) : Int) : ZMod p) = (x : ZMod p) := by
  rw [ZMod.intCast_eq_intCast_iff]
  exact Int.mod_modEq x p

theorem fmod_cast (x : Int) {p : Nat} (hp : 0 < p) : ((x.fmod (p : Int) : Int) : ZMod p) = (x : ZMod p) := by
  rw [fmod_pos_eq _ (by omega), emod_cast]

/-- Two reduced integers are equal when their classes are. -/
theorem eq_of_cast_eq {p : Nat} {x y : Int} (hx0 : 0 ≤ x) (hx : x < p) (hy0 : 0 ≤ y) (hy : y < p)
    (h : (x : ZMod p) = (y : ZMod p)) : x = y := by
  rw [ZMod.intCast_eq_intCast_iff] at h
  have := h.eq
  rwa [Int.emod_eq_of_lt hx0 hx, Int.emod_eq_of_lt hy0 hy] at this

theorem legendreSymbol_eq (hp2 : p ≠ 2) (a : Int) :
    legendreSymbol a p = .ok (legendreSym p a) := by
  have hp := (Fact.out : p.Prime)
  have h2 := hp.two_le
  have hodd := hp.eq_two_or_odd.resolve_left hp2
  unfold legendreSymbol
  rw [pyPow_pos a (by omega) (by omega)]
  have he : (((p : Int) - 1) / 2).toNat = p / 2 := by omega
  rw [he]
  have hb0 : 0 ≤ a ^ (p / 2) % (p : Int) := Int.emod_nonneg _ (by omega)
  have hb1 : a ^ (p / 2) % (p : Int) < p := Int.emod_lt_of_pos _ (by omega)
  have hc : ((a ^ (p / 2) % (p : Int) : Int) : ZMod p) = ((legendreSym p a : Int) : ZMod p) := by
    rw [emod_cast, legendreSym.eq_pow]; push_cast; rfl
  generalize a ^ (p / 2) % (p : Int) = ls at *
  change Except.ok (if ls = (p : Int) - 1 then -1 else ls) = _
  congr 1
  by_cases h0 : (a : ZMod p) = 0
  · rw [(legendreSym.eq_zero_iff p a).mpr h0] at hc ⊢
    have : ls = 0 := eq_of_cast_eq hb0 hb1 (le_refl _) (by omega) hc
    rw [if_neg (by omega), this]
  rcases legendreSym.eq_one_or_neg_one p h0 with h | h <;> rw [h] at hc ⊢
  · have : ls = 1 := eq_of_cast_eq hb0 hb1 (by omega) (by omega) hc
    rw [if_neg (by omega), this]
  · have : ls = p - 1 := eq_of_cast_eq hb0 hb1 (by omega) (by omega) (by rw [hc]; push_cast; simp)
    rw [if_pos this]

theorem legendreSymbol_two (a : Int) : legendreSymbol a 2 = .ok (-1) := by
  rw [legendreSymbol, pyPow_pos a (by decide) (by decide)]
  simp [bind, Except.bind]

theorem findNonResidue_ok (hp2 : p ≠ 2) (k : Nat) : ∀ n : Int, legendreSym p (n + k) = -1 →
    ∃ m : Int, findNonResidue p n = some (.ok m) ∧ legendreSym p m = -1 := by
  induction k with
  | zero =>
    intro n h
    refine ⟨n, ?_, by simpa using h⟩
    rw [findNonResidue, legendreSymbol_eq hp2]
    simp only
    rw [if_neg]
    simpa using h
  | succ k ih =>
    intro n h
    rw [findNonResidue, legendreSymbol_eq hp2]
    simp only
    by_cases h1 : legendreSym p n = -1
    · exact ⟨n, by rw [if_neg (by simpa using h1)], h1⟩
    · rw [if_pos h1]
      apply ih (n + 1)
      rw [← h]; congr 1; push_cast; ring

theorem exists_nonResidue (hp2 : p ≠ 2) : ∃ k : Nat, legendreSym p (2 + k) = -1 := by
  have hp := (Fact.out : p.Prime)
  obtain ⟨x, hx⟩ := FiniteField.exists_nonsquare (F := ZMod p) (by rwa [ZMod.ringChar_zmod_n])
  have h0 : x.val ≠ 0 := by
    intro h
    rw [ZMod.val_eq_zero] at h
    exact hx (h ▸ IsSquare.zero)
  have h1 : x.val ≠ 1 := by
    intro h
    apply hx
    have : x = 1 := by rw [← ZMod.natCast_zmod_val x, h]; simp
    exact this ▸ IsSquare.one
  refine ⟨x.val - 2, ?_⟩
  have : ((2 + ((x.val - 2 : Nat) : Int) : Int) : ZMod p) = x := by
    have h3 : (2 + ((x.val - 2 : Nat) : Int) : Int) = ((x.val : Nat) : Int) := by omega
    rw [h3]; simp
  rw [legendreSym.eq_neg_one_iff, this]
  exact hx

/-- What `for m in xrange(r)` finds: the least `m` with `t^(2^m) = 1`. -/
theorem tonelliInner_spec (k : Nat) : ∀ (next last : Nat) (t : Int), 0 ≤ t → t < p →
    (∃ j, j < k ∧ (t : ZMod p) ^ (2 ^ j) = 1) →
    ∃ j, j < k ∧ tonelliInner p k next last t = next + j ∧ (t : ZMod p) ^ (2 ^ j) = 1 ∧
      ∀ i < j, (t : ZMod p) ^ (2 ^ i) ≠ 1 := by
  have hp := (Fact.out : p.Prime)
  have h2 := hp.two_le
  induction k with
  | zero => rintro next last t _ _ ⟨j, hj, _⟩; omega
  | succ k ih =>
    rintro next last t ht0 ht1 ⟨j, hj, hj1⟩
    unfold tonelliInner
    by_cases h1 : t = 1
    · rw [if_pos h1]
      exact ⟨0, by omega, rfl, by rw [h1]; simp, by simp⟩
    rw [if_neg h1]
    have hc1 : (t : ZMod p) ≠ 1 := by
      intro h
      apply h1
      exact eq_of_cast_eq ht0 ht1 (by omega) (by omega) (by rw [h]; simp)
    have hj0 : j ≠ 0 := by rintro rfl; simp at hj1; exact hc1 hj1
    obtain ⟨j', rfl⟩ : ∃ j', j = j' + 1 := ⟨j - 1, by omega⟩
    have hcast : (((t ^ 2).fmod (p : Int) : Int) : ZMod p) = (t : ZMod p) ^ 2 := by
      rw [fmod_cast _ (by omega)]; push_cast; rfl
    obtain ⟨i, hi, he, hi1, hmin⟩ := ih (next + 1) next ((t ^ 2).fmod p)
      (Int.fmod_nonneg_of_pos _ (by omega)) (Int.fmod_lt_of_pos _ (by omega))
      ⟨j', by omega, by rw [hcast, ← pow_mul, ← pow_succ']; exact hj1⟩
    refine ⟨i + 1, by omega, by rw [he]; omega, ?_, ?_⟩
    · rw [pow_succ', pow_mul, ← hcast]; exact hi1
    · intro l hl
      rcases Nat.eq_zero_or_pos l with rfl | hl0
      · simpa using hc1
      · obtain ⟨l', rfl⟩ : ∃ l', l = l' + 1 := ⟨l - 1, by omega⟩
        rw [pow_succ', pow_mul, ← hcast]
        exact hmin l' (by omega)

theorem tonelliLoop_spec (a : ZMod p) (r : Nat) : ∀ (x b g : Int), 1 ≤ r →
    0 ≤ x → x < p → 0 ≤ b → b < p →
    (x : ZMod p) ^ 2 = a * b → (g : ZMod p) ^ (2 ^ (r - 1)) = -1 → (b : ZMod p) ^ (2 ^ (r - 1)) = 1 →
    0 ≤ tonelliLoop p x b g r ∧ tonelliLoop p x b g r < p ∧
      ((tonelliLoop p x b g r : Int) : ZMod p) ^ 2 = a := by
  have hp := (Fact.out : p.Prime)
  have h2 := hp.two_le
  induction r using Nat.strong_induction_on with
  | _ r ih =>
    intro x b g hr hx0 hx1 hb0 hb1 hinv hg hb
    rw [tonelliLoop]
    obtain ⟨m, hm, he, hm1, hmin⟩ := tonelliInner_spec (p := p) r 0 0 b hb0 hb1 ⟨r - 1, by omega, hb⟩
    rw [Nat.zero_add] at he
    simp only [he]
    by_cases hm0 : m = 0
    · rw [dif_pos hm0]
      refine ⟨hx0, hx1, ?_⟩
      rw [hinv]
      have : (b : ZMod p) = 1 := by rw [hm0] at hm1; simpa using hm1
      rw [this, mul_one]
    rw [dif_neg hm0]
    have cgs : (((g ^ (2 ^ (r - m - 1))).fmod (p : Int) : Int) : ZMod p) = (g : ZMod p) ^ (2 ^ (r - m - 1)) := by
      rw [fmod_cast _ (by omega)]; push_cast; rfl
    generalize (g ^ (2 ^ (r - m - 1))).fmod (p : Int) = gs at *
    have cg : (((gs * gs).fmod (p : Int) : Int) : ZMod p) = (g : ZMod p) ^ (2 ^ (r - m)) := by
      rw [fmod_cast _ (by omega)]; push_cast
      rw [cgs, ← pow_add]; congr 1
      have : r - m = (r - m - 1) + 1 := by omega
      rw [this, pow_succ]; simp; ring
    have cgg : (((gs * gs).fmod (p : Int) : Int) : ZMod p) = (gs : ZMod p) ^ 2 := by
      rw [fmod_cast _ (by omega)]; push_cast; ring
    generalize (gs * gs).fmod (p : Int) = g' at *
    have hg' : (g' : ZMod p) ^ (2 ^ (m - 1)) = -1 := by
      rw [cg, ← pow_mul, ← pow_add, ← hg]; congr 2; omega
    apply ih m hm
    · omega
    · exact Int.fmod_nonneg_of_pos _ (by omega)
    · exact Int.fmod_lt_of_pos _ (by omega)
    · exact Int.fmod_nonneg_of_pos _ (by omega)
    · exact Int.fmod_lt_of_pos _ (by omega)
    · rw [fmod_cast _ (by omega), fmod_cast _ (by omega)]
      push_cast
      rw [mul_pow, hinv, cgg]; ring
    · exact hg'
    · rw [fmod_cast _ (by omega)]
      push_cast
      rw [mul_pow, hg']
      have h3 : ((b : ZMod p) ^ (2 ^ (m - 1))) ^ 2 = 1 := by
        rw [← pow_mul, ← pow_succ, ← hm1]; congr 2; omega
      have h4 := hmin (m - 1) (by omega)
      have h5 : ((b : ZMod p) ^ (2 ^ (m - 1)) - 1) * ((b : ZMod p) ^ (2 ^ (m - 1)) + 1) = 0 := by
        linear_combination h3
      rcases mul_eq_zero.mp h5 with h6 | h6
      · exact absurd (sub_eq_zero.mp h6) h4
      · rw [eq_neg_of_add_eq_zero_left h6]; ring

theorem legendre_one_pow {a : Int} (h : legendreSym p a = 1) : (a : ZMod p) ^ (p / 2) = 1 := by
  rw [← legendreSym.eq_pow, h]; simp

theorem modularSqrt_residue (hp2 : p ≠ 2) (a : Int) (h : legendreSym p a = 1) :
    ∃ r : Int, modularSqrt a p = some (.ok r) ∧ 0 ≤ r ∧ r < p ∧ (r : ZMod p) ^ 2 = a := by
  have hp := (Fact.out : p.Prime)
  have h2 := hp.two_le
  have hodd := hp.eq_two_or_odd.resolve_left hp2
  have ha0 : a ≠ 0 := by
    rintro rfl
    rw [legendreSym.at_zero] at h; omega
  have hpw := legendre_one_pow h
  unfold modularSqrt
  rw [legendreSymbol_eq hp2, h]
  simp only
  rw [if_neg (by simp), if_neg ha0, if_neg (by omega)]
  by_cases h4 : (p : Int) % 4 = 3
  · rw [if_pos h4, pyPow_pos a (by omega) (by omega)]
    refine ⟨_, rfl, Int.emod_nonneg _ (by omega), Int.emod_lt_of_pos _ (by omega), ?_⟩
    rw [emod_cast]; push_cast
    rw [← pow_mul]
    have : (((p : Int) + 1) / 4).toNat * 2 = p / 2 + 1 := by omega
    rw [this, pow_succ, hpw, one_mul]
  rw [if_neg h4]
  obtain ⟨k, hk⟩ := exists_nonResidue hp2
  obtain ⟨n, hn, hnr⟩ := findNonResidue_ok hp2 k 2 hk
  rw [hn]
  simp only
  obtain ⟨hs1, hs2⟩ := splitTwo_zero ((p : Int) - 1) (by omega)
  obtain ⟨hs3, -⟩ := splitTwo_bounds ((p : Int) - 1) 0 (by omega)
  generalize splitTwo ((p : Int) - 1) 0 = se at *
  obtain ⟨s, e⟩ := se
  simp only at hs1 hs2 hs3 ⊢
  rw [pyPow_pos a (by omega) (by omega), pyPow_pos a (by omega) (by omega),
    pyPow_pos n (by omega) (by omega)]
  have he1 : 1 ≤ e := by
    by_contra hcon
    have : e = 0 := by omega
    rw [this, pow_zero, mul_one] at hs1
    omega
  obtain ⟨t, rfl⟩ : ∃ t : Nat, s = t := ⟨s.toNat, by omega⟩
  have hte : t * 2 ^ (e - 1) = p / 2 := by
    have h5 : t * 2 ^ e = p - 1 := by
      have : ((t * 2 ^ e : Nat) : Int) = (p : Int) - 1 := by rw [hs1]; push_cast; ring
      omega
    have h6 : t * 2 ^ e = t * 2 ^ (e - 1) * 2 := by
      rw [mul_assoc, ← pow_succ]; congr 2; omega
    omega
  have hspec := tonelliLoop_spec (p := p) (a : ZMod p) e
    (a ^ (((t : Int) + 1) / 2).toNat % (p : Int)) (a ^ (t : Int).toNat % (p : Int))
    (n ^ (t : Int).toNat % (p : Int)) he1 (Int.emod_nonneg _ (by omega))
    (Int.emod_lt_of_pos _ (by omega)) (Int.emod_nonneg _ (by omega))
    (Int.emod_lt_of_pos _ (by omega)) ?_ ?_ ?_
  · exact ⟨_, rfl, hspec⟩
  · rw [emod_cast, emod_cast]; push_cast
    rw [← pow_mul, ← pow_succ']; congr 1
    omega
  · rw [emod_cast]; push_cast
    rw [Int.toNat_natCast, ← pow_mul, hte, ← legendreSym.eq_pow, hnr]; simp
  · rw [emod_cast]; push_cast
    rw [Int.toNat_natCast, ← pow_mul, hte, hpw]

theorem modularSqrt_nonresidue (hp2 : p ≠ 2) (a : Int) (h : legendreSym p a ≠ 1) :
    modularSqrt a p = some (.ok 0) := by
  unfold modularSqrt
  rw [legendreSymbol_eq hp2]
  simp only
  rw [if_pos h]

theorem modularSqrt_two (a : Int) : modularSqrt a 2 = some (.ok 0) := by
  unfold modularSqrt
  rw [legendreSymbol_two]
  rfl

end Cryptopy.Model
