import Verif.Model.Rounds
import Verif.Lemmas.Sqrt
import Verif.Lemmas.Factor
import Verif.Props.IsPrime
import Mathlib.Data.Nat.Fib.Basic

/-!
C177: how many rounds the loops of `/repo/ecc/numbertheory.py` run.
-/

namespace Cryptopy
open Model

/-! ### gcd2 -/

private theorem gcd2Rounds_fst (k : Nat) : ∀ a b : Int, a.natAbs ≤ k → (gcd2Rounds a b).1 = gcd2 a b := by
  induction k with
  | zero =>
    intro a b h
    have : a = 0 := by omega
    rw [gcd2Rounds, gcd2, dif_neg (by simp [this]), dif_neg (by simp [this])]
  | succ k ih =>
    intro a b h
    rw [gcd2Rounds, gcd2]
    by_cases h0 : a ≠ 0
    · rw [dif_pos h0, dif_pos h0]
      exact ih _ _ (by have := natAbs_fmod_lt b h0; omega)
    · rw [dif_neg h0, dif_neg h0]

/-- If `c` and `d` have the same sign and `c ≠ 0`, then `|d| ≥ |c| + |d mod c|` unless `|d| < |c|`. -/
private theorem fmod_add_le (c d : Int) (h : d.natAbs ≤ c.natAbs) (hs : 0 ≤ c * d) (hd : d ≠ 0) :
    d.natAbs + (c.fmod d).natAbs ≤ c.natAbs := by
  rcases Int.lt_or_gt_of_ne hd with h1 | h1
  · have hc : c < 0 := by
      by_contra hcon
      have hc0 : c ≠ 0 := by omega
      have : c * d < 0 := mul_neg_of_pos_of_neg (by omega) h1
      omega
    have e1 := Int.fmod_lt_of_pos (-c) (b := -d) (by omega)
    have e2 := Int.fmod_nonneg_of_pos (-c) (b := -d) (by omega)
    have e3 := Int.mul_fdiv_add_fmod (-c) (-d)
    rw [Int.neg_fmod_neg] at e1 e2 e3
    have e4 : 1 ≤ (-c).fdiv (-d) := by
      rw [Int.fdiv_eq_ediv_of_nonneg _ (by omega)]
      exact (Int.le_ediv_iff_mul_le (by omega)).mpr (by omega)
    have e5 : -d * 1 ≤ -d * (-c).fdiv (-d) := mul_le_mul_of_nonneg_left e4 (by omega)
    omega
  · have hc : 0 < c := by
      by_contra hcon
      have hc0 : c ≠ 0 := by omega
      have : c * d < 0 := mul_neg_of_neg_of_pos (by omega) h1
      omega
    have e1 := Int.fmod_lt_of_pos c (b := d) h1
    have e2 := Int.fmod_nonneg_of_pos c (b := d) h1
    have e3 := Int.mul_fdiv_add_fmod c d
    have e4 : 1 ≤ c.fdiv d := by
      rw [Int.fdiv_eq_ediv_of_nonneg _ (by omega)]
      exact (Int.le_ediv_iff_mul_le (by omega)).mpr (by omega)
    have e5 : d * 1 ≤ d * c.fdiv d := mul_le_mul_of_nonneg_left e4 (by omega)
    omega

private theorem fmod_sign (b a : Int) (h : a ≠ 0) : 0 ≤ a * b.fmod a := by
  rcases Int.lt_or_gt_of_ne h with h1 | h1
  · have e2 := Int.fmod_nonneg_of_pos (-b) (b := -a) (by omega)
    rw [Int.neg_fmod_neg] at e2
    exact mul_nonneg_of_nonpos_of_nonpos (by omega) (by omega)
  · exact mul_nonneg (by omega) (Int.fmod_nonneg_of_pos _ h1)

/-- Lamé's theorem for the loop of `gcd2`. -/
private theorem gcd2Rounds_fib (k : Nat) : ∀ a b : Int, a.natAbs ≤ k → a ≠ 0 →
    1 ≤ (gcd2Rounds a b).2 ∧ Nat.fib ((gcd2Rounds a b).2 + 1) ≤ a.natAbs := by
  induction k with
  | zero => intro a b h h0; omega
  | succ k ih =>
    intro a b h h0
    have hlt := natAbs_fmod_lt b h0
    rw [gcd2Rounds, dif_pos h0]
    dsimp only
    refine ⟨by omega, ?_⟩
    by_cases h1 : b.fmod a = 0
    · rw [gcd2Rounds, dif_neg (by simp [h1])]
      simp only [Nat.zero_add, Nat.reduceAdd, Nat.fib_two]
      omega
    · obtain ⟨i1, i2⟩ := ih (b.fmod a) a (by omega) h1
      -- two rounds at once
      have hadd := fmod_add_le a (b.fmod a) (by omega) (fmod_sign b a h0) h1
      rw [gcd2Rounds, dif_pos h1] at i1 i2 ⊢
      dsimp only at i1 i2 ⊢
      by_cases h2 : a.fmod (b.fmod a) = 0
      · rw [gcd2Rounds, dif_neg (by simp [h2])] at i1 i2 ⊢
        simp only [Nat.zero_add, Nat.reduceAdd] at i1 i2 ⊢
        have : Nat.fib 3 = 2 := rfl
        omega
      · obtain ⟨j1, j2⟩ := ih (a.fmod (b.fmod a)) (b.fmod a) (by
          have := natAbs_fmod_lt a h1; omega) h2
        have := Nat.fib_add_two (n := (gcd2Rounds (a.fmod (b.fmod a)) (b.fmod a)).2 + 1)
        have e : (gcd2Rounds (a.fmod (b.fmod a)) (b.fmod a)).2 + 1 + 1 + 1 =
          (gcd2Rounds (a.fmod (b.fmod a)) (b.fmod a)).2 + 1 + 2 := rfl
        rw [e]
        omega

private theorem two_pow_le_fib (k : Nat) : 2 ^ k ≤ Nat.fib (2 * k + 1) ∧ 2 ^ k ≤ Nat.fib (2 * k + 2) := by
  induction k with
  | zero => decide
  | succ k ih =>
    have e1 : Nat.fib (2 * (k + 1) + 1) = Nat.fib (2 * k + 1) + Nat.fib (2 * k + 2) := Nat.fib_add_two
    have e2 : Nat.fib (2 * (k + 1) + 2) = Nat.fib (2 * k + 2) + Nat.fib (2 * k + 3) := Nat.fib_add_two
    have e3 : Nat.fib (2 * k + 3) = Nat.fib (2 * k + 1) + Nat.fib (2 * k + 2) := Nat.fib_add_two
    have e4 : 2 ^ (k + 1) = 2 * 2 ^ k := by ring
    omega

private theorem ten_pow_le_fib (d : Nat) : 10 ^ d ≤ Nat.fib (5 * d + 2) ∧
    Nat.fib (5 * d + 2) ≤ 2 * Nat.fib (5 * d + 1) := by
  induction d with
  | zero => decide
  | succ d ih =>
    have e3 : Nat.fib (5 * d + 3) = Nat.fib (5 * d + 1) + Nat.fib (5 * d + 2) := Nat.fib_add_two
    have e4 : Nat.fib (5 * d + 4) = Nat.fib (5 * d + 2) + Nat.fib (5 * d + 3) := Nat.fib_add_two
    have e5 : Nat.fib (5 * d + 5) = Nat.fib (5 * d + 3) + Nat.fib (5 * d + 4) := Nat.fib_add_two
    have e6 : Nat.fib (5 * (d + 1) + 1) = Nat.fib (5 * d + 4) + Nat.fib (5 * d + 5) := Nat.fib_add_two
    have e7 : Nat.fib (5 * (d + 1) + 2) = Nat.fib (5 * d + 5) + Nat.fib (5 * (d + 1) + 1) := Nat.fib_add_two
    have e8 : 10 ^ (d + 1) = 10 * 10 ^ d := by ring
    omega

private theorem fib_digits {k d n : Nat} (h : Nat.fib (k + 1) ≤ n) (hn : n < 10 ^ d) : k ≤ 5 * d := by
  by_contra hcon
  have h1 := (ten_pow_le_fib d).1
  have h2 := Nat.fib_mono (show 5 * d + 2 ≤ k + 1 by omega)
  omega

private theorem fib_half {k n : Nat} (h : Nat.fib (k + 1) ≤ n) : 2 ^ (k / 2) ≤ n := by
  have h1 := (two_pow_le_fib (k / 2)).1
  have h2 := Nat.fib_mono (show 2 * (k / 2) + 1 ≤ k + 1 by omega)
  omega

/-- C177: `gcd2(a, b)` runs no round exactly if `a = 0`.  After `k` rounds `|a|` was at least the Fibonacci number `F(k+1)`,
hence at least `2^(k/2)`; if `|a|` has at most `d` decimal digits, there are at most `5*d` rounds. -/
theorem C177_gcd2 (a b : Int) :
    (gcd2Rounds a b).1 = gcd2 a b ∧ ((gcd2Rounds a b).2 = 0 ↔ a = 0) ∧
      (a ≠ 0 → Nat.fib ((gcd2Rounds a b).2 + 1) ≤ a.natAbs ∧ 2 ^ ((gcd2Rounds a b).2 / 2) ≤ a.natAbs) ∧
      ∀ d : Nat, a.natAbs < 10 ^ d → (gcd2Rounds a b).2 ≤ 5 * d := by
  refine ⟨gcd2Rounds_fst _ a b (le_refl _), ?_, ?_, ?_⟩
  · constructor
    · intro h
      by_contra h0
      have := (gcd2Rounds_fib _ a b (le_refl _) h0).1
      omega
    · rintro rfl
      rw [gcd2Rounds, dif_neg (by simp)]
  · intro h0
    have := (gcd2Rounds_fib _ a b (le_refl _) h0).2
    exact ⟨this, fib_half this⟩
  · intro d hd
    by_cases h0 : a = 0
    · rw [gcd2Rounds, dif_neg (by simp [h0])]; exact Nat.zero_le _
    · exact fib_digits (gcd2Rounds_fib _ a b (le_refl _) h0).2 hd

example := C177_gcd2 (-34) 55

private theorem fib_fmod (k : Nat) : ((Nat.fib (k + 4) : Nat) : Int).fmod (Nat.fib (k + 3)) = Nat.fib (k + 2) := by
  rw [Int.fmod_eq_emod_of_nonneg _ (by omega), ← Int.natCast_mod, Nat.cast_inj]
  have e1 : Nat.fib (k + 4) = Nat.fib (k + 2) + Nat.fib (k + 3) := Nat.fib_add_two
  have e2 : Nat.fib (k + 3) = Nat.fib (k + 1) + Nat.fib (k + 2) := Nat.fib_add_two
  have e3 : 0 < Nat.fib (k + 1) := Nat.fib_pos.mpr (by omega)
  rw [e1, Nat.add_mod_right]
  exact Nat.mod_eq_of_lt (by omega)

/-- C177: neighbouring Fibonacci numbers reach the bound. -/
theorem C177_gcd2_sharp (k : Nat) : gcd2Rounds (Nat.fib (k + 2)) (Nat.fib (k + 3)) = (1, k + 1) := by
  induction k with
  | zero =>
    rw [gcd2Rounds, dif_pos (by decide), show ((Nat.fib (0 + 3) : Nat) : Int).fmod (Nat.fib (0 + 2)) = 0 from rfl, gcd2Rounds,
      dif_neg (by decide)]
    rfl
  | succ k ih =>
    have h0 : ((Nat.fib (k + 3) : Nat) : Int) ≠ 0 := by
      have : 0 < Nat.fib (k + 3) := Nat.fib_pos.mpr (by omega)
      omega
    rw [gcd2Rounds, dif_pos h0, show k + 1 + 3 = k + 4 from rfl, show k + 1 + 2 = k + 3 from rfl, fib_fmod, ih]

/-! ### inverse_mod -/

private theorem inverseModLoopRounds_eq (k : Nat) : ∀ c d uc vc ud vd : Int, c.natAbs ≤ k →
    inverseModLoopRounds c d uc vc ud vd = (inverseModLoop c d uc vc ud vd, (gcd2Rounds c d).2) := by
  induction k with
  | zero =>
    intro c d uc vc ud vd h
    have : c = 0 := by omega
    rw [inverseModLoopRounds, inverseModLoop, gcd2Rounds, dif_neg (by simp [this]), dif_neg (by simp [this]),
      dif_neg (by simp [this])]
  | succ k ih =>
    intro c d uc vc ud vd h
    rw [inverseModLoopRounds, inverseModLoop, gcd2Rounds]
    by_cases h0 : c ≠ 0
    · rw [dif_pos h0, dif_pos h0, dif_pos h0]
      dsimp only
      rw [ih _ _ _ _ _ _ (by have := natAbs_fmod_lt d h0; omega)]
    · rw [dif_neg h0, dif_neg h0, dif_neg h0]

private theorem inverseModCoreRounds_eq (a m : Int) :
    inverseModCoreRounds a m = (inverseModCore a m, (gcd2Rounds a m).2) := by
  rw [inverseModCoreRounds, inverseModCore, inverseModLoopRounds_eq _ _ _ _ _ _ _ (le_refl _)]

/-- C177: `inverse_mod(a, m)`, `m > 0`.  After `k ≥ 1` rounds `m` was at least the Fibonacci number `F(k+2)`, hence at least
`2^(k/2)`, however large `a` is; if `m` has at most `d` decimal digits, there are at most `5*d` rounds. -/
theorem C177_inverse_mod (a m : Int) (hm : 0 < m) :
    (inverseModRounds a m).1 = inverseMod a m ∧
      ((inverseModRounds a m).2 ≠ 0 → Nat.fib ((inverseModRounds a m).2 + 2) ≤ m.natAbs) ∧
      2 ^ ((inverseModRounds a m).2 / 2) ≤ m.natAbs ∧
      ∀ d : Nat, m < 10 ^ d → (inverseModRounds a m).2 ≤ 5 * d := by
  have key : ∃ c : Int, 0 ≤ c ∧ c < m ∧ inverseModRounds a m = (inverseModCore c m, (gcd2Rounds c m).2) ∧
      inverseMod a m = inverseModCore c m := by
    rw [inverseModRounds, inverseMod]
    by_cases h : a < 0 ∨ m ≤ a
    · rw [if_pos h, if_pos h, if_neg (by omega), if_neg (by omega)]
      exact ⟨_, Int.fmod_nonneg_of_pos _ hm, Int.fmod_lt_of_pos _ hm, inverseModCoreRounds_eq _ _, rfl⟩
    · rw [if_neg h, if_neg h]
      exact ⟨a, by omega, by omega, inverseModCoreRounds_eq _ _, rfl⟩
  obtain ⟨c, hc0, hcm, e1, e2⟩ := key
  rw [e1, e2]
  have hfib : (gcd2Rounds c m).2 ≠ 0 → Nat.fib ((gcd2Rounds c m).2 + 2) ≤ m.natAbs := by
    intro h
    have hc : c ≠ 0 := by
      rintro rfl
      rw [gcd2Rounds, dif_neg (by simp)] at h
      exact h rfl
    have hadd := fmod_add_le m c (by omega) (mul_nonneg hm.le hc0) hc
    obtain ⟨-, h1⟩ := gcd2Rounds_fib _ c m (le_refl _) hc
    rw [gcd2Rounds, dif_pos hc] at h1 ⊢
    dsimp only at h1 ⊢
    by_cases h2 : m.fmod c = 0
    · rw [gcd2Rounds, dif_neg (by simp [h2])]
      have : Nat.fib 3 = 2 := rfl
      simp only [Nat.zero_add, Nat.reduceAdd]
      omega
    · obtain ⟨-, h3⟩ := gcd2Rounds_fib _ (m.fmod c) c (le_refl _) h2
      have := Nat.fib_add_two (n := (gcd2Rounds (m.fmod c) c).2 + 1)
      have e : (gcd2Rounds (m.fmod c) c).2 + 1 + 2 = (gcd2Rounds (m.fmod c) c).2 + 1 + 1 + 1 := rfl
      omega
  have hfib1 : Nat.fib ((gcd2Rounds c m).2 + 1) ≤ m.natAbs := by
    by_cases h : (gcd2Rounds c m).2 = 0
    · rw [h]
      have : Nat.fib (0 + 1) = 1 := rfl
      omega
    · have h1 := hfib h
      have h2 := Nat.fib_mono (show (gcd2Rounds c m).2 + 1 ≤ (gcd2Rounds c m).2 + 2 by omega)
      omega
  refine ⟨rfl, hfib, fib_half hfib1, ?_⟩
  intro d hd
  refine fib_digits hfib1 ?_
  have : ((10 ^ d : Nat) : Int) = 10 ^ d := by push_cast; rfl
  omega

example := C177_inverse_mod (-1000) 89 (by decide)

/-- C177: for neighbouring Fibonacci numbers the bound is reached, and there is an inverse. -/
theorem C177_inverse_mod_sharp (k : Nat) :
    (inverseModRounds (Nat.fib (k + 2)) (Nat.fib (k + 3))).2 = k + 1 ∧
      ∃ v, (inverseModRounds (Nat.fib (k + 2)) (Nat.fib (k + 3))).1 = .ok v ∧
        v * Nat.fib (k + 2) ≡ 1 [ZMOD Nat.fib (k + 3)] := by
  have h1 : Nat.fib (k + 2) < Nat.fib (k + 3) := Nat.fib_lt_fib_succ (by omega)
  have h2 : ¬ (((Nat.fib (k + 2) : Nat) : Int) < 0 ∨ ((Nat.fib (k + 3) : Nat) : Int) ≤ (Nat.fib (k + 2) : Nat)) := by omega
  have h3 := C54_inverse_mod (Nat.fib (k + 2)) (Nat.fib (k + 3)) (by omega)
  rw [Int.gcd_natCast_natCast, (Nat.fib_coprime_fib_succ (k + 2) : Nat.gcd _ _ = 1)] at h3
  obtain ⟨v, e, -, -, -, hd⟩ := h3.2 rfl
  rw [inverseMod, if_neg h2] at e
  rw [inverseModRounds, if_neg h2, inverseModCoreRounds_eq, C177_gcd2_sharp, e]
  refine ⟨rfl, v, rfl, ?_⟩
  rw [mul_comm]
  exact (Int.modEq_iff_dvd.mpr hd).symm

/-! ### modular_sqrt -/

section sqrt
variable {p : Nat} [Fact p.Prime]

private theorem findNonResidueRounds_eq (hp2 : p ≠ 2) (k : Nat) : ∀ (n : Int) (c : Nat), legendreSym p (n + k) = -1 →
    (∀ i : Nat, i < k → legendreSym p (n + i) ≠ -1) →
    findNonResidueRounds p n c = some (.ok (n + k), c + k + 1) ∧ findNonResidue p n = some (.ok (n + k)) := by
  induction k with
  | zero =>
    intro n c h _
    simp only [Nat.cast_zero, add_zero] at h ⊢
    rw [findNonResidueRounds, findNonResidue, legendreSymbol_eq hp2]
    simp only
    rw [if_neg (by simp [h]), if_neg (by simp [h])]
    exact ⟨rfl, rfl⟩
  | succ k ih =>
    intro n c h hmin
    have h0 := hmin 0 (by omega)
    simp only [Nat.cast_zero, add_zero] at h0
    rw [findNonResidueRounds, findNonResidue, legendreSymbol_eq hp2]
    simp only
    rw [if_pos h0, if_pos h0]
    have e : n + ((k + 1 : Nat) : Int) = n + 1 + k := by push_cast; ring
    obtain ⟨i1, i2⟩ := ih (n + 1) (c + 1) (by rw [← e]; exact h) (by
      intro i hi
      have := hmin (i + 1) (by omega)
      rwa [show n + ((i + 1 : Nat) : Int) = n + 1 + i by push_cast; ring] at this)
    rw [i1, i2, e]
    exact ⟨by congr 2; omega, rfl⟩

/-- The least non-residue `n` satisfies `n * (n - 1) < p`. -/
private theorem least_nonResidue (hp2 : p ≠ 2) : ∃ n : Nat, 2 ≤ n ∧ legendreSym p n = -1 ∧
    (∀ i : Nat, 1 ≤ i → i < n → legendreSym p i = 1) ∧ n * (n - 1) < p := by
  classical
  have hp := (Fact.out : p.Prime)
  have h2 := hp.two_le
  have hex : ∃ n : Nat, legendreSym p n = -1 := by
    obtain ⟨k, hk⟩ := exists_nonResidue (p := p) hp2
    exact ⟨2 + k, by push_cast; exact hk⟩
  obtain ⟨n, hn, hmin⟩ : ∃ n : Nat, legendreSym p n = -1 ∧ ∀ i < n, legendreSym p i ≠ -1 :=
    ⟨Nat.find hex, Nat.find_spec hex, fun i hi => Nat.find_min hex hi⟩
  have hn0 : n ≠ 0 := by
    rintro rfl
    rw [Nat.cast_zero, legendreSym.at_zero] at hn
    omega
  have hn1 : n ≠ 1 := by
    rintro rfl
    rw [Nat.cast_one, legendreSym.at_one] at hn
    omega
  have hnp : n < p := by
    by_contra hcon
    have h3 := hmin (n % p) (by have := Nat.mod_lt n hp.pos; omega)
    apply h3
    rw [Int.natCast_mod, ← legendreSym.mod]
    exact hn
  have hone : ∀ i : Nat, 1 ≤ i → i < n → legendreSym p i = 1 := by
    intro i h1 hi
    have hz : ((i : Int) : ZMod p) ≠ 0 := by
      intro h
      rw [ZMod.intCast_zmod_eq_zero_iff_dvd] at h
      have := Int.le_of_dvd (by omega) h
      omega
    exact (legendreSym.eq_one_or_neg_one p hz).resolve_right (hmin i hi)
  refine ⟨n, by omega, hn, hone, ?_⟩
  have hdvd : ¬ n ∣ p := by
    intro h
    rcases (Nat.dvd_prime hp).mp h with h | h <;> omega
  have hmod : p % n ≠ 0 := fun h => hdvd (Nat.dvd_of_mod_eq_zero h)
  have hmlt := Nat.mod_lt p (show 0 < n by omega)
  have hdiv := Nat.div_add_mod p n
  have hr := hone (n - p % n) (by omega) (by omega)
  have hm : n ≤ p / n + 1 := by
    by_contra hcon
    have h3 := hone (p / n + 1) (Nat.le_add_left _ _) (Nat.lt_of_not_le hcon)
    have h4 : legendreSym p (((p / n + 1 : Nat) : Int) * (n : Int)) = -1 := by
      rw [legendreSym.mul, h3, hn]; rfl
    rw [legendreSym.mod] at h4
    rw [legendreSym.mod] at hr
    have h5 : (((p / n + 1 : Nat) : Int) * (n : Int)) % p = ((n - p % n : Nat) : Int) % p := by
      have : (p / n + 1) * n = (n - p % n) + p := by
        have : (p / n + 1) * n = n * (p / n) + n := by ring
        omega
      have h6 : (((p / n + 1 : Nat) : Int) * (n : Int)) = ((n - p % n : Nat) : Int) + p := by
        exact_mod_cast this
      rw [h6, Int.add_emod_right]
    rw [h5, hr] at h4
    omega
  have h7 : n * (n - 1) ≤ n * (p / n) := Nat.mul_le_mul_left _ (by omega)
  omega

end sqrt

private theorem tonelliInnerRounds_le (p : Int) : ∀ (k next last : Nat) (t : Int),
    (tonelliInnerRounds p k next last t).2 ≤ k
  | 0, _, _, _ => le_refl _
  | k + 1, next, last, t => by
    unfold tonelliInnerRounds
    split
    · exact Nat.zero_le _
    · have := tonelliInnerRounds_le p k (next + 1) next ((t ^ 2).fmod p)
      dsimp only
      omega

private theorem tonelliLoopRounds_spec (p : Int) (r : Nat) : ∀ x b g : Int,
    (tonelliLoopRounds p x b g r).1 = tonelliLoop p x b g r ∧ 2 * (tonelliLoopRounds p x b g r).2 ≤ r * (r + 1) := by
  induction r using Nat.strong_induction_on with
  | _ r ih =>
    intro x b g
    have hi := tonelliInnerRounds_le p r 0 0 b
    have hlt := tonelliInner_lt p r 0 0 b (le_refl _)
    rw [tonelliLoopRounds, tonelliLoop]
    dsimp only
    rw [← tonelliInnerRounds_fst] at hlt ⊢
    generalize tonelliInnerRounds p r 0 0 b = m at hi hlt ⊢
    have h1 : r * 2 ≤ r * (r + 1) ∨ r = 0 := by
      rcases Nat.eq_zero_or_pos r with h | h
      · exact .inr h
      · exact .inl (Nat.mul_le_mul_left _ (by omega))
    by_cases h0 : m.1 = 0
    · rw [dif_pos h0, dif_pos h0]
      refine ⟨rfl, ?_⟩
      dsimp only
      omega
    · rw [dif_neg h0, dif_neg h0]
      dsimp only
      obtain ⟨i1, i2⟩ := ih m.1 (by omega) ((x * (g ^ (2 ^ (r - m.1 - 1))).fmod p).fmod p)
        ((b * ((g ^ (2 ^ (r - m.1 - 1))).fmod p * (g ^ (2 ^ (r - m.1 - 1))).fmod p).fmod p).fmod p)
        (((g ^ (2 ^ (r - m.1 - 1))).fmod p * (g ^ (2 ^ (r - m.1 - 1))).fmod p).fmod p)
      refine ⟨i1, ?_⟩
      obtain ⟨r', rfl⟩ : ∃ r', r = r' + 1 := ⟨r - 1, by omega⟩
      have h2 : m.1 * (m.1 + 1) ≤ r' * (r' + 1) := Nat.mul_le_mul (by omega) (by omega)
      have h3 : (r' + 1) * (r' + 1 + 1) = r' * (r' + 1) + 2 * (r' + 1) := by ring
      omega

/-- C177: `modular_sqrt(a, p)` for an odd prime `p`.  There is a search for a non-residue unless `p = 3` modulo 4 or `a` is
divisible by `p` or not a square.  It calls `legendre_symbol` `calls` times, where the numbers up to `calls` are squares and the next one is not, and `calls * (calls + 1) < p`; so there are fewer than `√p`
calls.  Line 253 is executed at most `e * (e + 1) / 2` times, where `2^e` is the highest power of 2 in `p - 1`. -/
theorem C177_modular_sqrt (p : Nat) (hp : p.Prime) (hp2 : p ≠ 2) (a : Int) :
    ∃ (v : Py Int) (calls squarings : Nat), modularSqrtRounds a p = some (v, calls, squarings) ∧ modularSqrt a p = some v ∧
      (calls = 0 ↔ p % 4 = 3 ∨ (p : Int) ∣ a ∨ ¬ ∃ x : Int, x * x ≡ a [ZMOD p]) ∧
      (calls ≠ 0 → ((∀ i : Nat, i ≤ calls → ∃ x : Int, x * x ≡ i [ZMOD p]) ∧ ¬ ∃ x : Int, x * x ≡ (calls + 1 : Nat) [ZMOD p])) ∧
      calls * (calls + 1) < p ∧
      2 * squarings ≤ padicValNat 2 (p - 1) * (padicValNat 2 (p - 1) + 1) := by
  have : Fact p.Prime := ⟨hp⟩
  have h2 := hp.two_le
  rw [modularSqrtRounds, modularSqrt, legendreSymbol_eq hp2]
  simp only
  obtain ⟨l, l1, l2, l3, l4⟩ := C59_legendre p hp hp2 a
  rw [legendreSymbol_eq hp2] at l1
  injection l1 with l1
  have hsq : legendreSym p a ≠ 1 ↔ (p : Int) ∣ a ∨ ¬ ∃ x : Int, x * x ≡ a [ZMOD p] := by
    constructor
    · intro h
      by_contra hcon
      rw [not_or, not_not] at hcon
      exact h (by rw [l1]; exact l3 hcon.1 hcon.2)
    · rintro (h | h)
      · rw [l1, l2 h]; omega
      · rw [l1, l4 h]; omega
  rw [← hsq]
  by_cases h1 : legendreSym p a ≠ 1
  · rw [if_pos h1, if_pos h1]
    exact ⟨_, 0, 0, rfl, rfl, ⟨fun _ => .inr h1, fun _ => rfl⟩, fun h => absurd rfl h, by omega, by omega⟩
  rw [if_neg h1, if_neg h1]
  have ha : a ≠ 0 := by
    rintro rfl
    apply h1
    rw [legendreSym.at_zero]
    omega
  have hp2' : ¬ (p : Int) = 2 := by omega
  rw [if_neg ha, if_neg ha, if_neg hp2', if_neg hp2']
  by_cases h4 : (p : Int) % 4 = 3
  · rw [if_pos h4, if_pos h4]
    exact ⟨_, 0, 0, rfl, rfl, ⟨fun _ => .inl (by omega), fun _ => rfl⟩, fun h => absurd rfl h, by omega, by omega⟩
  rw [if_neg h4, if_neg h4]
  obtain ⟨n, hn2, hn, hone, hbound⟩ := least_nonResidue (p := p) hp2
  obtain ⟨e1, e2⟩ := findNonResidueRounds_eq (p := p) hp2 (n - 2) 2 0 (by
    rw [show (2 : Int) + ((n - 2 : Nat) : Int) = n by omega]; exact hn) (by
    intro i hi
    have := hone (2 + i) (by omega) (by omega)
    push_cast at this
    omega)
  rw [e1, e2]
  simp only
  obtain ⟨hs1, hs2⟩ := splitTwo_zero ((p : Int) - 1) (by omega)
  obtain ⟨hs3, -⟩ := splitTwo_bounds ((p : Int) - 1) 0 (by omega)
  generalize splitTwo ((p : Int) - 1) 0 = se at *
  obtain ⟨s, e⟩ := se
  simp only at hs1 hs2 hs3 ⊢
  rw [pyPow_pos a (by omega) (by omega), pyPow_pos a (by omega) (by omega),
    pyPow_pos _ (by omega) (by omega)]
  simp only [bind, Except.bind]
  obtain ⟨t1, t2⟩ := tonelliLoopRounds_spec p e (a ^ ((s + 1) / 2).toNat % ↑p) (a ^ s.toNat % ↑p)
    ((2 + ((n - 2 : Nat) : Int)) ^ s.toNat % ↑p)
  refine ⟨_, _, _, rfl, by rw [t1], ⟨fun h => absurd h (by omega), fun h => ?_⟩, fun _ => ⟨?_, ?_⟩, ?_, ?_⟩
  · rcases h with h | h
    · omega
    · exact absurd h h1
  · intro i hi
    by_cases h0 : i = 0
    · exact ⟨0, by rw [h0]; exact Int.ModEq.refl _⟩
    · obtain ⟨l, l1, -, -, l4⟩ := C59_legendre p hp hp2 i
      rw [legendreSymbol_eq hp2, hone i (by omega) (by omega)] at l1
      injection l1 with l1
      by_contra hcon
      have := l4 hcon
      omega
  · intro hx
    obtain ⟨l, l1, l2, l3, -⟩ := C59_legendre p hp hp2 (0 + (n - 2) + 1 + 1 : Nat)
    rw [legendreSymbol_eq hp2, show 0 + (n - 2) + 1 + 1 = n by omega, hn] at l1
    injection l1 with l1
    rw [show 0 + (n - 2) + 1 + 1 = n by omega] at hx l2 l3
    by_cases hd : (p : Int) ∣ (n : Nat)
    · have := l2 hd; omega
    · have := l3 hd hx; omega
  · have : 0 + (n - 2) + 1 = n - 1 := by omega
    rw [this, Nat.sub_add_cancel (by omega), mul_comm]
    exact hbound
  · have he : padicValNat 2 (p - 1) = e := by
      have h5 : ((p - 1 : Nat) : Int) = s * 2 ^ e := by rw [← hs1]; omega
      obtain ⟨t, rfl⟩ : ∃ t : Nat, s = t := ⟨s.toNat, by omega⟩
      have h6 : p - 1 = t * 2 ^ e := by exact_mod_cast h5
      rw [h6, padicValNat.mul (by omega) (by positivity), padicValNat.prime_pow, padicValNat.eq_zero_of_not_dvd (by omega),
        Nat.zero_add]
    rw [he]; exact t2

example := C177_modular_sqrt 73 (by norm_num) (by decide) 2

/-! ### factorization -/

private theorem fdiv_lt_iff (n d : Int) (hd : 0 < d) : n.fdiv d < d ↔ n < d * d := by
  rw [Int.fdiv_eq_ediv_of_nonneg _ (by omega)]
  exact Int.ediv_lt_iff_lt_mul hd

private theorem factorSearchRounds_spec (k : Nat) : ∀ (d n : Int) (result : List (Int × Nat)) (c : Nat), n ≤ d + k → 1 ≤ d →
    1 ≤ n → ∃ (v : Int × List (Int × Nat)) (r : Nat), factorSearchRounds d n result c = some (v, c + r) ∧
      factorSearch d n result = some v ∧ 1 ≤ r ∧ (2 ≤ r → (d + 2 * (r - 1)) * (d + 2 * (r - 1)) ≤ n) := by
  induction k with
  | zero =>
    intro d n result c hk hd hn
    rw [factorSearchRounds, factorSearch]
    have : n.fdiv (d + 2) < d + 2 := (fdiv_lt_iff _ _ (by omega)).mpr (by
      have : 1 * (d + 2) ≤ (d + 2) * (d + 2) := mul_le_mul_of_nonneg_right (by omega) (by omega)
      push_cast at hk
      omega)
    simp only
    rw [if_pos this, if_pos this]
    exact ⟨_, 1, rfl, rfl, le_refl _, fun h => by omega⟩
  | succ k ih =>
    intro d n result c hk hd hn
    rw [factorSearchRounds, factorSearch]
    simp only
    by_cases hlt : n.fdiv (d + 2) < d + 2
    · rw [if_pos hlt, if_pos hlt]
      exact ⟨_, 1, rfl, rfl, le_refl _, fun h => by omega⟩
    rw [if_neg hlt, if_neg hlt]
    have hsq : (d + 2) * (d + 2) ≤ n := by
      rw [fdiv_lt_iff _ _ (by omega)] at hlt
      omega
    have step : ∀ (n' : Int) (res' : List (Int × Nat)), 1 ≤ n' → n' ≤ n →
        ∃ (v : Int × List (Int × Nat)) (r : Nat), factorSearchRounds (d + 2) n' res' (c + 1) = some (v, c + r) ∧
          factorSearch (d + 2) n' res' = some v ∧ 1 ≤ r ∧ (2 ≤ r → (d + 2 * (r - 1)) * (d + 2 * (r - 1)) ≤ n) := by
      intro n' res' h1 h2
      obtain ⟨v, r, i1, i2, i3, i4⟩ := ih (d + 2) n' res' (c + 1) (by push_cast at hk; omega) (by omega) h1
      refine ⟨v, r + 1, by rw [i1]; congr 2; omega, i2, by omega, fun _ => ?_⟩
      push_cast
      rcases Nat.lt_or_ge r 2 with h | h
      · have : r = 1 := by omega
        rw [this]
        push_cast
        ring_nf at hsq ⊢
        exact hsq
      · have := i4 h
        have e : d + 2 + 2 * ((r : Int) - 1) = d + 2 * ((r : Int) + 1 - 1) := by ring
        rw [e] at this
        omega
    by_cases hr : n.fmod (d + 2) = 0
    · rw [if_pos hr, if_pos hr]
      have hqe : (d + 2) * n.fdiv (d + 2) = n := Int.mul_fdiv_cancel_of_fmod_eq_zero hr
      have hq0 : 1 ≤ n.fdiv (d + 2) := by omega
      obtain ⟨n', e, h1, h2, h3, h4⟩ := searchDivide_spec (d + 2) (by omega) (n.fdiv (d + 2)).toNat (n.fdiv (d + 2)) 1
        (by omega) (by omega)
      rw [h1]
      have hn'n : n' ∣ n := ⟨(d + 2) * (d + 2) ^ e, by rw [← hqe, h2]; ring⟩
      exact step n' _ h4 (Int.le_of_dvd (by omega) hn'n)
    · rw [if_neg hr, if_neg hr]
      exact step n result hn (le_refl _)

private theorem factorizationRounds_ok (log2 : Int → Int) (n : Int) :
    ∃ (l : List (Int × Nat)) (r : Nat), factorizationRounds log2 n = some (l, r) ∧ factorization log2 n = some l ∧
      (2 ≤ r → (1227 + 2 * r) * (1227 + 2 * r) ≤ n) := by
  rw [factorizationRounds, factorization]
  by_cases h1 : n < 2
  · rw [if_pos h1, if_pos h1]
    exact ⟨_, 0, rfl, rfl, fun h => by omega⟩
  rw [if_neg h1, if_neg h1]
  obtain ⟨m, res, e1, e2, -, e4, -, -⟩ := factorSmall_spec smallprimes n [] 0 (by omega)
    smallprimes_sorted smallprimes_primes ⟨by simp, by simp⟩ (by omega) (by
      intro q hq _
      by_cases hq2 : (q : Int) ≤ 1229
      · exact .inl ((smallprimes_exact q (by omega)).mpr hq)
      · right; omega)
  have hprod : n = m * factorProduct res := by rw [← e4]; simp [factorProduct]
  have hmn : m ≤ n := Int.le_of_dvd (by omega) ⟨_, hprod⟩
  simp only [e1]
  by_cases hm : m > lastSmallprime
  · rw [if_pos hm, if_pos hm]
    by_cases hi : isPrime log2 m = true
    · rw [if_pos hi, if_pos hi]
      exact ⟨_, 0, rfl, rfl, fun h => by omega⟩
    · rw [if_neg hi, if_neg hi]
      obtain ⟨v, r, i1, i2, i3, i4⟩ := factorSearchRounds_spec m.toNat lastSmallprime m res 0
        (by simp only [lastSmallprime]; omega) (by decide) e2
      rw [i1, i2]
      refine ⟨_, r, by simp only [Nat.zero_add], rfl, fun h => ?_⟩
      have := i4 h
      have e : lastSmallprime + 2 * ((r : Int) - 1) = 1227 + 2 * r := by simp only [lastSmallprime]; ring
      rw [e] at this
      omega
  · rw [if_neg hm, if_neg hm]
    exact ⟨_, 0, rfl, rfl, fun h => by omega⟩

/-- C177: the search loop of `factorization(n)`: either it runs at most once, or after `r` rounds `(1227 + 2*r)² ≤ n`; so there
are at most `√n / 2` rounds. -/
theorem C177_factorization (log2 : Int → Int) (n : Int) :
    ∃ (l : List (Int × Nat)) (r : Nat), factorizationRounds log2 n = some (l, r) ∧ factorization log2 n = some l ∧
      (r ≤ 1 ∨ (1227 + 2 * r) ^ 2 ≤ n) := by
  obtain ⟨l, r, h1, h2, h3⟩ := factorizationRounds_ok log2 n
  refine ⟨l, r, h1, h2, ?_⟩
  rcases Nat.lt_or_ge r 2 with h | h
  · left; omega
  · right
    have := h3 h
    rw [pow_two]; exact this

example := C177_factorization (fun _ => 20) (1231 * 1237)

private theorem factorSmall_none (ds : List Int) (n : Int) : (∀ d ∈ ds, d ≤ n ∧ ¬ d ∣ n) →
    ∀ result, factorSmall ds n result = (n, result) := by
  induction ds with
  | nil => intro _ result; rfl
  | cons d ds ih =>
    intro h result
    obtain ⟨h1, h2⟩ := h d (by simp)
    rw [factorSmall, if_neg (by omega), if_neg (by rwa [← Int.dvd_iff_fmod_eq_zero])]
    exact ih (fun d hd => h d (by simp [hd])) result

/-- Before the smaller prime factor the search finds nothing. -/
private theorem search_semiprime (p q : Nat) (hp : p.Prime) (hq : q.Prime) (h2 : p % 2 = 1) (hpq : p ≤ q)
    (hqp : q < (p + 2) * (p + 2)) (k : Nat) : ∀ (d : Int) (c : Nat), d + 2 * k + 2 = p → 1 ≤ d →
    factorSearchRounds d (p * q) [] c =
      some (if p = q then (1, [((p : Int), 2)]) else ((q : Int), [((p : Int), 1)]), c + k + 2) := by
  induction k with
  | zero =>
    intro d c hd hd1
    have hdp : d + 2 = p := by omega
    have hp0 : (0 : Int) < p := by have := hp.pos; omega
    rw [factorSearchRounds]
    simp only [hdp]
    have hpq' : (p : Int) * p ≤ p * q := mul_le_mul_of_nonneg_left (by omega) (by omega)
    have hfd : ((p : Int) * q).fdiv p = q := Int.mul_fdiv_cancel_left _ (by omega)
    have hfm : ((p : Int) * q).fmod p = 0 := Int.fmod_eq_zero_of_dvd (dvd_mul_right _ _)
    rw [hfd, hfm, if_neg (by omega), if_pos rfl]
    have hqp' : (q : Int) < (p + 2) * (p + 2) := by exact_mod_cast hqp
    by_cases h : p = q
    · subst h
      have hs : searchDivide p p 1 = (1, 2) := by
        rw [searchDivide, dif_pos ⟨le_refl _, by have := hp.two_le; omega⟩, if_neg (by simp), Int.fdiv_self (by omega),
          searchDivide, dif_neg (by have := hp.two_le; omega)]
      rw [hs, factorSearchRounds]
      simp only
      rw [if_pos ((fdiv_lt_iff _ _ (by omega)).mpr (by nlinarith))]
      simp
    · have hs : searchDivide p q 1 = ((q : Int), 1) := by
        have hnd : ¬ ((p : Int) ∣ (q : Int)) := by
          intro hd
          have := Int.natCast_dvd_natCast.mp hd
          rcases (Nat.dvd_prime hq).mp this with h1 | h1
          · have := hp.two_le; omega
          · exact h h1
        rw [searchDivide, dif_pos ⟨by omega, by have := hp.two_le; omega⟩,
          if_pos (by rwa [ne_eq, ← Int.dvd_iff_fmod_eq_zero])]
      rw [hs, factorSearchRounds]
      simp only
      rw [if_pos ((fdiv_lt_iff _ _ (by omega)).mpr hqp')]
      simp [h]
  | succ k ih =>
    intro d c hd hd1
    push_cast at hd
    rw [factorSearchRounds]
    simp only
    have hlt : ¬ ((p : Int) * q).fdiv (d + 2) < d + 2 := by
      rw [fdiv_lt_iff _ _ (by omega), not_lt]
      have h1 : (d + 2) * (d + 2) ≤ (p : Int) * q := mul_le_mul (by omega) (by omega) (by omega) (by omega)
      exact h1
    have hnd : ¬ (d + 2) ∣ (p : Int) * q := by
      intro h
      obtain ⟨m, hm⟩ : ∃ m : Nat, d + 2 = m := ⟨(d + 2).toNat, by omega⟩
      rw [hm] at h
      have h3 : m ∣ p * q := by exact_mod_cast h
      have c1 : Nat.Coprime m p := by
        rw [Nat.coprime_comm, hp.coprime_iff_not_dvd]
        intro h4
        have := Nat.le_of_dvd (by omega) h4
        omega
      have c2 : Nat.Coprime m q := by
        rw [Nat.coprime_comm, hq.coprime_iff_not_dvd]
        intro h4
        have := Nat.le_of_dvd (by omega) h4
        omega
      have := Nat.Coprime.eq_one_of_dvd (c1.mul_right c2) h3
      omega
    rw [if_neg hlt, if_neg (by rwa [← Int.dvd_iff_fmod_eq_zero])]
    rw [ih (d + 2) (c + 1) (by omega) (by omega)]
    congr 2
    omega

/-- C177: for the product of two primes `1229 < p ≤ q < (p+2)²` that `is_prime` does not take for a prime, the search loop runs
exactly `(p - 1227) / 2` times. -/
theorem C177_factorization_semiprime (log2 : Int → Int) (p q : Nat) (hp : p.Prime) (hq : q.Prime) (h1 : 1229 < p)
    (hpq : p ≤ q) (hqp : q < (p + 2) ^ 2) (hi : isPrime log2 (p * q) = false) :
    factorizationRounds log2 (p * q) =
      some (if p = q then [((p : Int), 2)] else [((p : Int), 1), ((q : Int), 1)], (p - 1227) / 2) := by
  have h2 : p % 2 = 1 := by
    rcases hp.eq_two_or_odd with h | h
    · omega
    · exact h
  have hbig : (1229 : Int) < p * q := by
    have : p * 1 ≤ p * q := Nat.mul_le_mul_left _ (by omega)
    have h3 : ((p * q : Nat) : Int) = (p : Int) * q := by push_cast; rfl
    omega
  rw [factorizationRounds, if_neg (by omega), factorSmall_none smallprimes _ (by
    intro d hd
    obtain ⟨d1, d2, d3⟩ := smallprimes_primes d hd
    refine ⟨by omega, fun hdv => ?_⟩
    obtain ⟨m, rfl⟩ : ∃ m : Nat, d = m := ⟨d.toNat, by omega⟩
    have h3 : m ∣ p * q := by exact_mod_cast hdv
    rw [Int.toNat_natCast] at d1
    rcases (Nat.Prime.dvd_mul d1).mp h3 with h | h
    · have := (Nat.prime_dvd_prime_iff_eq d1 hp).mp h; omega
    · have := (Nat.prime_dvd_prime_iff_eq d1 hq).mp h; omega)]
  dsimp only
  rw [if_pos (by simp only [lastSmallprime]; exact hbig), if_neg (by simp [hi])]
  rw [search_semiprime p q hp hq h2 hpq (by rw [← pow_two]; exact hqp) ((p - 1231) / 2) lastSmallprime 0
    (by simp only [lastSmallprime]; omega) (by decide)]
  have hq1 : (1 : Int) < q := by omega
  by_cases h : p = q
  · simp [h]; omega
  · simp [h, hq1]; omega

example := C177_factorization_semiprime (fun _ => 20) 1231 1237 (by norm_num) (by norm_num) (by decide) (by decide)
  (by decide) (by
    rw [← Bool.not_eq_true, C144_exact _ _ (by norm_num) (by norm_num)]
    exact Nat.not_prime_mul (a := 1231) (b := 1237) (by decide) (by decide))

end Cryptopy
