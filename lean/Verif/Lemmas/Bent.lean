import Mathlib.Algebra.Order.BigOperators.Group.Finset
import Mathlib.Algebra.Order.BigOperators.Ring.Finset
import Mathlib.Tactic.LinearCombination
import Mathlib.Tactic.Linarith
import Verif.Lemmas.Walsh

/-!
Autocorrelation and fourth powers of the Walsh transform.
-/

namespace Cryptopy.Props
open Model Spec

theorem sum_xor (n x : Nat) (hx : x < 2 ^ n) (f : Nat → Int) :
    (∑ y ∈ Finset.range (2 ^ n), f y) = ∑ a ∈ Finset.range (2 ^ n), f (x ^^^ a) := by
  refine Finset.sum_bij' (fun y _ => x ^^^ y) (fun y _ => x ^^^ y) ?_ ?_ ?_ ?_ ?_
  · intro y hy; rw [Finset.mem_range] at *; exact Nat.xor_lt_two_pow hx hy
  · intro y hy; rw [Finset.mem_range] at *; exact Nat.xor_lt_two_pow hx hy
  · intro y _; rw [← Nat.xor_assoc, Nat.xor_self, Nat.zero_xor]
  · intro y _; rw [← Nat.xor_assoc, Nat.xor_self, Nat.zero_xor]
  · intro y _; rw [← Nat.xor_assoc, Nat.xor_self, Nat.zero_xor]

/-- The autocorrelation of an integer function. -/
def autocorr (n : Nat) (s : Nat → Int) (a : Nat) : Int := ∑ x ∈ Finset.range (2 ^ n), s x * s (x ^^^ a)

theorem autocorr_zero (n : Nat) (s : Nat → Int) (hs : ∀ x < 2 ^ n, s x * s x = 1) : autocorr n s 0 = 2 ^ n := by
  rw [autocorr, Finset.sum_congr rfl fun x hx => by rw [Nat.xor_zero, hs x (Finset.mem_range.mp hx)]]
  simp

theorem wht_sq (n : Nat) (s : Nat → Int) (w : Nat) : wht n s w ^ 2 = wht n (autocorr n s) w := by
  rw [wht, pow_two, Finset.sum_mul_sum]
  have h : ∀ x ∈ Finset.range (2 ^ n), (∑ y ∈ Finset.range (2 ^ n), s x * chr w x * (s y * chr w y)) =
      ∑ a ∈ Finset.range (2 ^ n), s x * s (x ^^^ a) * chr w a := by
    intro x hx
    rw [sum_xor n x (Finset.mem_range.mp hx)]
    refine Finset.sum_congr rfl fun a _ => ?_
    rw [chr_xor_right]
    linear_combination (s x * s (x ^^^ a) * chr w a) * chr_sq w x
  rw [Finset.sum_congr rfl h, Finset.sum_comm, wht]
  exact Finset.sum_congr rfl fun a _ => by rw [autocorr, Finset.sum_mul]

theorem wht_parseval_general (n : Nat) (s : Nat → Int) :
    (∑ w ∈ Finset.range (2 ^ n), wht n s w ^ 2) = 2 ^ n * ∑ x ∈ Finset.range (2 ^ n), s x ^ 2 := by
  have h1 : ∀ w, wht n s w ^ 2 = ∑ x ∈ Finset.range (2 ^ n), s x * (wht n s w * chr w x) := by
    intro w
    rw [pow_two]
    nth_rw 2 [wht]
    rw [Finset.mul_sum]
    exact Finset.sum_congr rfl fun x _ => by ring
  simp only [h1]
  rw [Finset.sum_comm, Finset.mul_sum]
  refine Finset.sum_congr rfl fun x hx => ?_
  rw [← Finset.mul_sum, wht_inverse n s x (Finset.mem_range.mp hx)]
  ring

/-- All squares of the transform are `2^n` exactly when the autocorrelation vanishes off zero. -/
theorem bent_autocorr (n : Nat) (s : Nat → Int) (hs : ∀ x < 2 ^ n, s x * s x = 1) :
    (∀ w < 2 ^ n, wht n s w ^ 2 = 2 ^ n) ↔ ∀ a < 2 ^ n, a ≠ 0 → autocorr n s a = 0 := by
  constructor
  · intro h a ha h0
    have h1 := wht_inverse n (autocorr n s) a ha
    have h2 : ∀ w ∈ Finset.range (2 ^ n), wht n (autocorr n s) w * chr w a = 2 ^ n * chr w a := by
      intro w hw
      rw [← wht_sq, h w (Finset.mem_range.mp hw)]
    rw [Finset.sum_congr rfl h2, ← Finset.mul_sum, chr_sum n a ha, if_neg h0, mul_zero] at h1
    have : (2 : Int) ^ n ≠ 0 := by positivity
    exact (mul_eq_zero.mp h1.symm).resolve_left this
  · intro h w _
    rw [wht_sq, wht, Finset.sum_eq_single 0]
    · rw [autocorr_zero n s hs, chr, Nat.and_zero, par_zero]; simp
    · intro a ha h0
      rw [h a (Finset.mem_range.mp ha) h0, zero_mul]
    · intro h0; exact absurd (Finset.mem_range.mpr (by positivity)) h0

/-- The sum of the squared autocorrelations of all components counts coincidences. -/
theorem components_autocorr (n : Nat) (F : Nat → Nat) (a : Nat) (ha : a < 2 ^ n) (h0 : a ≠ 0) :
    2 * 4 ^ n ≤ ∑ c ∈ Finset.range (2 ^ n), autocorr n (fun x => chr c (F x)) a ^ 2 := by
  have h1 : ∀ c, autocorr n (fun x => chr c (F x)) a ^ 2 = ∑ x ∈ Finset.range (2 ^ n), ∑ y ∈ Finset.range (2 ^ n),
      chr c ((F x ^^^ F (x ^^^ a)) ^^^ (F y ^^^ F (y ^^^ a))) := by
    intro c
    rw [autocorr, pow_two, Finset.sum_mul_sum]
    refine Finset.sum_congr rfl fun x _ => Finset.sum_congr rfl fun y _ => ?_
    rw [chr_xor_right, chr_xor_right, chr_xor_right]
  have hmod : ∀ z, (∑ c ∈ Finset.range (2 ^ n), chr c z) = if z % 2 ^ n = 0 then 2 ^ n else 0 := by
    intro z
    rw [← chr_sum n (z % 2 ^ n) (Nat.mod_lt _ (by positivity))]
    refine Finset.sum_congr rfl fun c hc => ?_
    rw [chr, chr]
    congr 2
    apply Nat.eq_of_testBit_eq
    intro i
    rw [Nat.testBit_and, Nat.testBit_and, Nat.testBit_mod_two_pow]
    by_cases hi : i < n
    · simp [hi]
    · rw [Nat.testBit_lt_two_pow (lt_of_lt_of_le (Finset.mem_range.mp hc) (Nat.pow_le_pow_right (by omega) (by omega)))]
      simp
  simp only [h1]
  rw [Finset.sum_comm]
  have h2 : ∀ x ∈ Finset.range (2 ^ n), (2 * 2 ^ n : Int) ≤ ∑ c ∈ Finset.range (2 ^ n), ∑ y ∈ Finset.range (2 ^ n),
      chr c ((F x ^^^ F (x ^^^ a)) ^^^ (F y ^^^ F (y ^^^ a))) := by
    intro x hx
    have hx' := Finset.mem_range.mp hx
    rw [Finset.sum_comm]
    simp only [hmod]
    have hne : x ≠ x ^^^ a := by
      intro he
      have := congrArg (fun v => x ^^^ v) he
      simp only [← Nat.xor_assoc, Nat.xor_self, Nat.zero_xor] at this
      exact h0 this.symm
    have hsub : ({x, x ^^^ a} : Finset Nat) ⊆ Finset.range (2 ^ n) := by
      intro y hy
      rw [Finset.mem_insert, Finset.mem_singleton] at hy
      rw [Finset.mem_range]
      rcases hy with rfl | rfl
      · exact hx'
      · exact Nat.xor_lt_two_pow hx' ha
    refine le_trans ?_ (Finset.sum_le_sum_of_subset_of_nonneg hsub fun y _ _ => by split <;> positivity)
    rw [Finset.sum_pair hne, Nat.xor_self, Nat.xor_assoc x a a, Nat.xor_self, Nat.xor_zero, Nat.xor_comm (F (x ^^^ a)),
      Nat.xor_self]
    simp only [Nat.zero_mod, if_true]
    linarith
  refine le_trans (le_of_eq ?_) (Finset.sum_le_sum h2)
  rw [Finset.sum_const, Finset.card_range, nsmul_eq_mul]
  push_cast
  rw [show (4 : Int) ^ n = 2 ^ n * 2 ^ n by rw [← mul_pow]; norm_num]
  ring

/-- Some component has a large coefficient: if all squares are at most `K`, then `2^(n+1) ≤ K`. -/
theorem components_bound (n : Nat) (hn : 1 ≤ n) (F : Nat → Nat) (K : Int)
    (h : ∀ c, 1 ≤ c → c < 2 ^ n → ∀ w < 2 ^ n, wht n (fun x => chr c (F x)) w ^ 2 ≤ K) : 2 ^ (n + 1) ≤ K := by
  set N : Int := 2 ^ n with hN
  have hN4 : (4 : Int) ^ n = N * N := by rw [hN, ← mul_pow]; norm_num
  have hsq : ∀ c, ∀ x < 2 ^ n, (fun x => chr c (F x)) x * (fun x => chr c (F x)) x = 1 := fun c x _ => chr_sq c (F x)
  have hNpos : 2 ≤ N := by
    rw [hN]
    calc (2 : Int) = 2 ^ 1 := by norm_num
      _ ≤ 2 ^ n := pow_le_pow_right₀ (by norm_num) hn
  -- fourth powers of one component
  have h4 : ∀ c, (∑ w ∈ Finset.range (2 ^ n), wht n (fun x => chr c (F x)) w ^ 4) =
      N * ∑ a ∈ Finset.range (2 ^ n), autocorr n (fun x => chr c (F x)) a ^ 2 := by
    intro c
    rw [hN, ← wht_parseval_general]
    exact Finset.sum_congr rfl fun w _ => by rw [← wht_sq]; ring
  -- all components together
  have tot : N * (N * N * N + (N - 1) * (2 * (N * N))) ≤
      ∑ c ∈ Finset.range (2 ^ n), ∑ w ∈ Finset.range (2 ^ n), wht n (fun x => chr c (F x)) w ^ 4 := by
    simp only [h4]
    rw [← Finset.mul_sum, Finset.sum_comm]
    refine mul_le_mul_of_nonneg_left ?_ (by linarith)
    obtain ⟨m, hm⟩ : ∃ m, 2 ^ n = m + 1 := ⟨2 ^ n - 1, (Nat.succ_pred_eq_of_pos (by positivity)).symm⟩
    have hmN : (m : Int) = N - 1 := by
      have : ((2 ^ n : Nat) : Int) = (m : Int) + 1 := by rw [hm]; push_cast; rfl
      push_cast at this; linarith
    have hr : ∀ f : Nat → Int, (∑ a ∈ Finset.range (2 ^ n), f a) = (∑ i ∈ Finset.range m, f (i + 1)) + f 0 := by
      intro f; rw [hm, Finset.sum_range_succ']
    rw [hr fun a => ∑ c ∈ Finset.range (2 ^ n), autocorr n (fun x => chr c (F x)) a ^ 2]
    rw [add_comm]
    refine add_le_add ?_ (le_of_eq ?_)
    · rw [← hmN, ← nsmul_eq_mul]
      have := Finset.card_nsmul_le_sum (Finset.range m) (fun i => ∑ c ∈ Finset.range (2 ^ n),
        autocorr n (fun x => chr c (F x)) (i + 1) ^ 2) (2 * (N * N)) fun i hi => by
          rw [← hN4]
          exact components_autocorr n F (i + 1) (by have := Finset.mem_range.mp hi; omega) (by omega)
      rwa [Finset.card_range] at this
    · simp only [autocorr_zero n _ (hsq _)]
      rw [Finset.sum_const, Finset.card_range, nsmul_eq_mul]
      push_cast
      rw [← hN]; ring
  -- the component zero
  obtain ⟨m, hm⟩ : ∃ m, 2 ^ n = m + 1 := ⟨2 ^ n - 1, (Nat.succ_pred_eq_of_pos (by positivity)).symm⟩
  have hmN : (m : Int) = N - 1 := by
    have : ((2 ^ n : Nat) : Int) = (m : Int) + 1 := by rw [hm]; push_cast; rfl
    push_cast at this; linarith
  have hr : ∀ f : Nat → Int, (∑ a ∈ Finset.range (2 ^ n), f a) = (∑ i ∈ Finset.range m, f (i + 1)) + f 0 := by
    intro f; rw [hm, Finset.sum_range_succ']
  rw [hr fun c => ∑ w ∈ Finset.range (2 ^ n), wht n (fun x => chr c (F x)) w ^ 4] at tot
  have z : (∑ w ∈ Finset.range (2 ^ n), wht n (fun x => chr 0 (F x)) w ^ 4) = N * N * N * N := by
    rw [h4]
    have e : ∀ a, autocorr n (fun x => chr 0 (F x)) a = N := by
      intro a
      have e1 : ∀ y, chr 0 y = 1 := by intro y; rw [chr, Nat.zero_and, par_zero]; rfl
      rw [autocorr]
      simp only [e1]
      simp [hN]
    simp only [e]
    rw [Finset.sum_const, Finset.card_range, nsmul_eq_mul]
    push_cast
    rw [← hN]; ring
  rw [z] at tot
  have up : (∑ i ∈ Finset.range m, ∑ w ∈ Finset.range (2 ^ n), wht n (fun x => chr (i + 1) (F x)) w ^ 4) ≤
      (m : Int) * (K * (N * N)) := by
    have := Finset.sum_le_card_nsmul (Finset.range m) (fun i => ∑ w ∈ Finset.range (2 ^ n),
        wht n (fun x => chr (i + 1) (F x)) w ^ 4) (K * (N * N)) fun i hi => by
      rw [← hN4, ← wht_parseval n _ (hsq (i + 1)), Finset.mul_sum]
      refine Finset.sum_le_sum fun w hw => ?_
      have h5 := h (i + 1) (by omega) (by have := Finset.mem_range.mp hi; omega) w (Finset.mem_range.mp hw)
      have h6 : 0 ≤ wht n (fun x => chr (i + 1) (F x)) w ^ 2 := sq_nonneg _
      calc wht n (fun x => chr (i + 1) (F x)) w ^ 4 =
          wht n (fun x => chr (i + 1) (F x)) w ^ 2 * wht n (fun x => chr (i + 1) (F x)) w ^ 2 := by ring
        _ ≤ K * wht n (fun x => chr (i + 1) (F x)) w ^ 2 := mul_le_mul_of_nonneg_right h5 h6
    rw [Finset.card_range, nsmul_eq_mul] at this
    exact this
  rw [hmN] at up
  have fin : (N - 1) * (N * N) * (2 * N) ≤ (N - 1) * (N * N) * K := by nlinarith
  have pos : 0 < (N - 1) * (N * N) := by
    have : 0 < N - 1 := by linarith
    positivity
  rw [pow_succ, ← hN, mul_comm]
  exact le_of_mul_le_mul_left fin pos

end Cryptopy.Props
