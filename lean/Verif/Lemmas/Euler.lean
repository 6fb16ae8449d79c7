import Mathlib.Analysis.Complex.Exponential
import Mathlib.Algebra.Order.Floor.Ring

/-!
The digits of Euler's number from the first terms of its series.
-/

namespace Cryptopy.Euler

/-- `n!` times the sum of the first `n` terms of the series. -/
def num : Nat → Nat
  | 0 => 0
  | n + 1 => (n + 1) * (num n + 1)

theorem num_eq (n : Nat) : ∑ i ∈ Finset.range n, (1 : ℝ) ^ i / (i.factorial : ℝ) = num n / n.factorial := by
  induction n with
  | zero => simp [num]
  | succ n ih =>
    rw [Finset.sum_range_succ, ih, num, Nat.factorial_succ]
    have : (n.factorial : ℝ) ≠ 0 := by exact_mod_cast n.factorial_ne_zero
    have : (n : ℝ) + 1 ≠ 0 := by positivity
    push_cast
    field_simp
    rw [one_pow]

/-- When the remainder of the series can not matter, the digits of the partial sum are those of the number. -/
theorem floor_eq (n c : Nat) (hn : 0 < n) (h : num n * c % n.factorial * n + (n + 1) * c < n.factorial * n) :
    ⌊Real.exp 1 * c⌋ = (num n * c / n.factorial : ℕ) := by
  have h1 := Real.sum_le_exp_of_nonneg (x := 1) zero_le_one n
  have h2 := Real.exp_bound' (x := 1) zero_le_one le_rfl hn
  rw [num_eq] at h1 h2
  have h4 := Nat.div_add_mod (num n * c) n.factorial
  generalize num n * c / n.factorial = q at *
  generalize num n * c % n.factorial = r at *
  generalize Real.exp 1 = e at *
  have hf : (0 : ℝ) < n.factorial := by exact_mod_cast n.factorial_pos
  generalize n.factorial = f at *
  have hn' : (0 : ℝ) < n := by exact_mod_cast hn
  have hc : (0 : ℝ) ≤ c := Nat.cast_nonneg c
  have h4' : (f : ℝ) * q + r = num n * c := by exact_mod_cast h4
  have h' : (r : ℝ) * n + (n + 1) * c < f * n := by exact_mod_cast h
  have hr : (0 : ℝ) ≤ r := Nat.cast_nonneg r
  have h1' : (num n : ℝ) ≤ e * f := by rwa [div_le_iff₀ hf] at h1
  have h2' : e * (f * n) ≤ num n * n + (n + 1) := by
    have := mul_le_mul_of_nonneg_right h2 (mul_pos hf hn').le
    rwa [one_pow, add_mul, one_mul, div_mul_cancel₀ _ (mul_pos hf hn').ne', ← mul_assoc (_ / _),
      div_mul_cancel₀ _ hf.ne'] at this
  rw [Int.floor_eq_iff]
  push_cast
  constructor
  · refine le_of_mul_le_mul_right ?_ hf
    have := mul_le_mul_of_nonneg_right h1' hc
    nlinarith
  · refine lt_of_mul_lt_mul_right ?_ (mul_pos hf hn').le
    have := mul_le_mul_of_nonneg_right h2' hc
    nlinarith

end Cryptopy.Euler
