import Mathlib.Analysis.SpecialFunctions.Complex.Arctan
import Mathlib.Analysis.SpecialFunctions.Trigonometric.Arctan
import Mathlib.Analysis.SpecificLimits.Normed
import Mathlib.Tactic.FieldSimp
import Mathlib.Tactic.Ring
import Mathlib.Tactic.Linarith

/-!
Rational bounds on `π` by Machin's formula, with the series summed by binary splitting.
-/

namespace Cryptopy

/-- Numerator and denominator of `2^(k+1)` terms of the arctangent series from term `a` on. -/
def atP (y : Nat) : Nat → Nat → Nat × Nat
  | 0, a => (y * (2 * a + 3) - (2 * a + 1), (2 * a + 1) * (2 * a + 3))
  | k + 1, a =>
    match atP y k a with
    | (t1, d1) => match atP y k (a + 2 ^ (k + 1)) with
      | (t2, d2) => (t1 * (d2 * y ^ 2 ^ (k + 1)) + t2 * d1, d1 * d2)

theorem atP_spec (y : Nat) (hy : 1 ≤ y) (k : Nat) : ∀ a, 0 < (atP y k a).2 ∧
    ((atP y k a).1 : ℝ) = (atP y k a).2 * y ^ (2 ^ (k + 1) - 1) *
      ∑ i ∈ Finset.range (2 ^ (k + 1)), (-1 : ℝ) ^ i / ((2 * (a + i : ℕ) + 1) * y ^ i) := by
  have hy' : (0 : ℝ) < y := by exact_mod_cast hy
  induction k with
  | zero =>
    intro a
    refine ⟨by rw [atP]; positivity, ?_⟩
    have h : 2 * a + 1 ≤ y * (2 * a + 3) := by nlinarith
    simp only [atP]
    rw [Nat.cast_sub h]
    have h1 : (2 * (a : ℝ) + 1) ≠ 0 := by positivity
    have h3 : (2 * ((a : ℝ) + 1) + 1) ≠ 0 := by positivity
    norm_num [Finset.sum_range_succ]
    field_simp
    ring
  | succ k ih =>
    intro a
    obtain ⟨p1, e1⟩ := ih a
    obtain ⟨p2, e2⟩ := ih (a + 2 ^ (k + 1))
    have hp : 2 ^ (k + 1 + 1) = 2 ^ (k + 1) + 2 ^ (k + 1) := by rw [pow_succ]; ring
    rw [atP]
    generalize atP y k a = P at *
    generalize atP y k (a + 2 ^ (k + 1)) = Q at *
    obtain ⟨t1, d1⟩ := P
    obtain ⟨t2, d2⟩ := Q
    refine ⟨Nat.mul_pos p1 p2, ?_⟩
    simp only at e1 e2 p1 p2 ⊢
    have heven : (-1 : ℝ) ^ 2 ^ (k + 1) = 1 := by
      rw [pow_succ 2 k, mul_comm, pow_mul]; norm_num
    rw [hp, Finset.sum_range_add]
    have hm : 0 < 2 ^ (k + 1) := by positivity
    generalize hM : 2 ^ (k + 1) = m at *
    have hs : (∑ i ∈ Finset.range m, (-1 : ℝ) ^ (m + i) / ((2 * ((a + (m + i) : ℕ) : ℝ) + 1) * (y : ℝ) ^ (m + i))) =
        (1 / (y : ℝ) ^ m) * ∑ i ∈ Finset.range m, (-1 : ℝ) ^ i / ((2 * ((a + m + i : ℕ) : ℝ) + 1) * (y : ℝ) ^ i) := by
      rw [Finset.mul_sum]
      refine Finset.sum_congr rfl fun i _ => ?_
      rw [pow_add, pow_add, heven, ← add_assoc]
      have : (2 * ((a + m + i : ℕ) : ℝ) + 1) ≠ 0 := by positivity
      field_simp
    rw [hs]
    push_cast
    push_cast at e1 e2
    rw [e1, e2]
    have hexp : (y : ℝ) ^ (m + m - 1) = y ^ (m - 1) * y ^ m := by
      rw [← pow_add]; congr 1; omega
    rw [hexp]
    have hym : (y : ℝ) ^ m ≠ 0 := by positivity
    field_simp

theorem arctan_bounds (x k : Nat) (hx : 2 ≤ x) :
    ((atP (x ^ 2) k 0).1 : ℝ) / ((atP (x ^ 2) k 0).2 * (x ^ 2) ^ (2 ^ (k + 1) - 1) * x : ℕ) ≤ Real.arctan (x : ℝ)⁻¹ ∧
    Real.arctan (x : ℝ)⁻¹ ≤ ((atP (x ^ 2) k 0).1 : ℝ) / ((atP (x ^ 2) k 0).2 * (x ^ 2) ^ (2 ^ (k + 1) - 1) * x : ℕ) +
      1 / (x ^ (2 * 2 ^ (k + 1) + 1) : ℕ) := by
  have hx' : (2 : ℝ) ≤ x := by exact_mod_cast hx
  obtain ⟨hpos, hsum⟩ := atP_spec (x ^ 2) (Nat.one_le_pow _ _ (by omega)) k 0
  set f : ℕ → ℝ := fun i => 1 / ((2 * i + 1) * x ^ (2 * i + 1)) with hf
  have hanti : Antitone f := by
    refine antitone_nat_of_succ_le fun n => ?_
    simp only [hf]
    apply one_div_le_one_div_of_le (by positivity)
    apply mul_le_mul
    · push_cast; linarith
    · exact pow_le_pow_right₀ (by linarith) (by omega)
    · positivity
    · positivity
  have hhs := Real.hasSum_arctan (x := (x : ℝ)⁻¹) (by
    rw [norm_inv, Real.norm_natCast]
    exact inv_lt_one_of_one_lt₀ (by linarith))
  have hterm : (fun n : ℕ => (-1 : ℝ) ^ n * (x : ℝ)⁻¹ ^ (2 * n + 1) / ((2 * n + 1 : ℕ) : ℝ)) =
      fun n => (-1) ^ n * f n := by
    funext n
    simp only [hf]
    push_cast
    rw [inv_pow, one_div, mul_inv, mul_comm (2 * (n : ℝ) + 1)⁻¹, div_eq_mul_inv, mul_assoc]
  rw [hterm] at hhs
  have ht := hhs.tendsto_sum_nat
  have hpart : (∑ i ∈ Finset.range (2 ^ (k + 1)), (-1) ^ i * f i) =
      ((atP (x ^ 2) k 0).1 : ℝ) / ((atP (x ^ 2) k 0).2 * (x ^ 2) ^ (2 ^ (k + 1) - 1) * x : ℕ) := by
    rw [hsum]
    have h1 : ((atP (x ^ 2) k 0).2 : ℝ) ≠ 0 := by exact_mod_cast hpos.ne'
    have h2 : (x : ℝ) ≠ 0 := by linarith
    push_cast
    rw [mul_comm, mul_div_assoc]
    have h3 : ((atP (x ^ 2) k 0).2 : ℝ) * ((x : ℝ) ^ 2) ^ (2 ^ (k + 1) - 1) /
        ((atP (x ^ 2) k 0).2 * ((x : ℝ) ^ 2) ^ (2 ^ (k + 1) - 1) * x) = 1 / x := by
      field_simp
    rw [h3, Finset.sum_mul]
    refine Finset.sum_congr rfl fun i _ => ?_
    simp only [hf]
    have : (2 * (i : ℝ) + 1) ≠ 0 := by positivity
    rw [zero_add, pow_succ (x : ℝ) (2 * i), pow_mul]
    field_simp
  have he : 2 ^ (k + 1) = 2 * 2 ^ k := by rw [pow_succ]; ring
  constructor
  · rw [← hpart, he]
    exact hanti.alternating_series_le_tendsto ht _
  · rw [← hpart]
    have h := hanti.tendsto_le_alternating_series ht (2 ^ k)
    rw [Finset.sum_range_succ, ← he] at h
    refine le_trans h ?_
    have h4 : (-1 : ℝ) ^ 2 ^ (k + 1) = 1 := by rw [he, pow_mul]; norm_num
    rw [h4, one_mul]
    refine add_le_add le_rfl ?_
    simp only [hf]
    push_cast
    apply one_div_le_one_div_of_le (by positivity)
    have h5 : (0 : ℝ) < (x : ℝ) ^ (2 * 2 ^ (k + 1) + 1) := by positivity
    have h6 : (1 : ℝ) ≤ 2 * (2 : ℝ) ^ (k + 1) + 1 := by
      have : (0 : ℝ) < (2 : ℝ) ^ (k + 1) := by positivity
      linarith
    nlinarith

/-- The check that `M / 10^K` is a truncation of `π`. -/
def machinCheck (k5 k239 K M : Nat) : Bool :=
  match atP 25 k5 0, atP 57121 k239 0 with
  | (p5, d5), (p239, d239) =>
    (fun q5 q239 S =>
      Nat.ble (S * 10 ^ 5) (5 ^ (2 * 2 ^ (k5 + 1) + 1)) &&
      Nat.ble (S * 10 ^ 5) (239 ^ (2 * 2 ^ (k239 + 1) + 1)) &&
      Nat.ble ((M * 10 ^ 5 + 4) * (q5 * q239) + 4 * p239 * q5 * (S * 10 ^ 5)) (16 * p5 * q239 * (S * 10 ^ 5)) &&
      Nat.blt (16 * p5 * q239 * (S * 10 ^ 5) + 16 * (q5 * q239))
        ((M + 1) * 10 ^ 5 * (q5 * q239) + 4 * p239 * q5 * (S * 10 ^ 5)))
      (d5 * 25 ^ (2 ^ (k5 + 1) - 1) * 5) (d239 * 57121 ^ (2 ^ (k239 + 1) - 1) * 239) (10 ^ K)

theorem machin_spec (k5 k239 K M : Nat) (h : machinCheck k5 k239 K M = true) :
    (M : ℝ) ≤ Real.pi * 10 ^ K ∧ Real.pi * 10 ^ K < M + 1 := by
  obtain ⟨a1, a2⟩ := arctan_bounds 5 k5 (by norm_num)
  obtain ⟨b1, b2⟩ := arctan_bounds 239 k239 (by norm_num)
  obtain ⟨p1, -⟩ := atP_spec 25 (by norm_num) k5 0
  obtain ⟨p2, -⟩ := atP_spec 57121 (by norm_num) k239 0
  rw [show (5 : Nat) ^ 2 = 25 by norm_num] at a1 a2
  rw [show (239 : Nat) ^ 2 = 57121 by norm_num] at b1 b2
  rw [machinCheck] at h
  generalize atP 25 k5 0 = P at *
  generalize atP 57121 k239 0 = Q at *
  obtain ⟨p5, d5⟩ := P
  obtain ⟨p239, d239⟩ := Q
  simp only at h a1 a2 b1 b2 p1 p2
  generalize hq5 : d5 * 25 ^ (2 ^ (k5 + 1) - 1) * 5 = q5 at *
  generalize hq239 : d239 * 57121 ^ (2 ^ (k239 + 1) - 1) * 239 = q239 at *
  have r5 : 0 < q5 := by rw [← hq5]; positivity
  have r239 : 0 < q239 := by rw [← hq239]; positivity
  generalize 5 ^ (2 * 2 ^ (k5 + 1) + 1) = E5 at *
  generalize 239 ^ (2 * 2 ^ (k239 + 1) + 1) = E239 at *
  have hpi := Real.four_mul_arctan_inv_5_sub_arctan_inv_239
  have hS : (0 : ℝ) < 10 ^ K := by positivity
  simp only [Bool.and_eq_true, Nat.ble_eq, Nat.blt] at h
  obtain ⟨⟨⟨h1, h2⟩, h3⟩, h4⟩ := h
  have h1 : ((10 : ℝ) ^ K * 10 ^ 5) ≤ E5 := by exact_mod_cast h1
  have h2 : ((10 : ℝ) ^ K * 10 ^ 5) ≤ E239 := by exact_mod_cast h2
  have h3 : ((M : ℝ) * 10 ^ 5 + 4) * (q5 * q239) + 4 * p239 * q5 * (10 ^ K * 10 ^ 5) ≤
      16 * p5 * q239 * (10 ^ K * 10 ^ 5) := by exact_mod_cast h3
  have h4 : 16 * (p5 : ℝ) * q239 * (10 ^ K * 10 ^ 5) + 16 * (q5 * q239) <
      ((M : ℝ) + 1) * 10 ^ 5 * (q5 * q239) + 4 * p239 * q5 * (10 ^ K * 10 ^ 5) := by
    exact_mod_cast Nat.lt_of_succ_le h4
  have r5' : (0 : ℝ) < q5 := by exact_mod_cast r5
  have r239' : (0 : ℝ) < q239 := by exact_mod_cast r239
  have e5 : (1 : ℝ) / E5 ≤ 1 / (10 ^ K * 10 ^ 5) := one_div_le_one_div_of_le (by positivity) h1
  have e239 : (1 : ℝ) / E239 ≤ 1 / (10 ^ K * 10 ^ 5) := one_div_le_one_div_of_le (by positivity) h2
  push_cast at a1 a2 b1 b2
  generalize Real.arctan 5⁻¹ = A at *
  generalize Real.arctan 239⁻¹ = B at *
  generalize (10 : ℝ) ^ K = S at *
  have i3 : (M : ℝ) + 4 / 10 ^ 5 + 4 * (p239 / q239) * S ≤ 16 * (p5 / q5) * S := by
    have := div_le_div_of_nonneg_right h3 (show (0 : ℝ) ≤ q5 * q239 * 10 ^ 5 by positivity)
    have l : (((M : ℝ) * 10 ^ 5 + 4) * (q5 * q239) + 4 * p239 * q5 * (S * 10 ^ 5)) / (q5 * q239 * 10 ^ 5) =
        (M : ℝ) + 4 / 10 ^ 5 + 4 * (p239 / q239) * S := by field_simp
    have r : (16 * (p5 : ℝ) * q239 * (S * 10 ^ 5)) / (q5 * q239 * 10 ^ 5) = 16 * (p5 / q5) * S := by field_simp
    rwa [l, r] at this
  have i4 : 16 * ((p5 : ℝ) / q5) * S + 16 / 10 ^ 5 < M + 1 + 4 * (p239 / q239) * S := by
    have := div_lt_div_of_pos_right h4 (show (0 : ℝ) < q5 * q239 * 10 ^ 5 by positivity)
    have l : (16 * (p5 : ℝ) * q239 * (S * 10 ^ 5) + 16 * (q5 * q239)) / (q5 * q239 * 10 ^ 5) =
        16 * (p5 / q5) * S + 16 / 10 ^ 5 := by field_simp
    have r : (((M : ℝ) + 1) * 10 ^ 5 * (q5 * q239) + 4 * p239 * q5 * (S * 10 ^ 5)) / (q5 * q239 * 10 ^ 5) =
        M + 1 + 4 * (p239 / q239) * S := by field_simp
    rwa [l, r] at this
  generalize (p5 : ℝ) / q5 = L5 at *
  generalize (p239 : ℝ) / q239 = L239 at *
  have s1 : A ≤ L5 + 1 / (S * 10 ^ 5) := le_trans a2 (by linarith)
  have s2 : B ≤ L239 + 1 / (S * 10 ^ 5) := le_trans b2 (by linarith)
  have hs : 1 / (S * 10 ^ 5) * S = 1 / 10 ^ 5 := by field_simp
  have hpi' : Real.pi = 16 * A - 4 * B := by linarith
  rw [hpi']
  have t1 := mul_le_mul_of_nonneg_right s1 hS.le
  have t2 := mul_le_mul_of_nonneg_right s2 hS.le
  have t3 := mul_le_mul_of_nonneg_right a1 hS.le
  have t4 := mul_le_mul_of_nonneg_right b1 hS.le
  rw [add_mul, hs] at t1 t2
  constructor
  · linarith
  · linarith

end Cryptopy
