import Verif.Spec.Gf128
import Verif.Lemmas.Siv
import Mathlib.Algebra.CharP.Two
import Mathlib.Tactic.LinearCombination

namespace Cryptopy
open Model Spec Polynomial

theorem poly_add_self (p : (ZMod 2)[X]) : p + p = 0 := CharTwo.add_self_eq_zero p

theorem bitPoly_xor (k a b : Nat) : bitPoly k (a ^^^ b) = bitPoly k a + bitPoly k b := by
  simp only [bitPoly, ← Finset.sum_add_distrib]
  apply Finset.sum_congr rfl
  intro i _
  rw [Nat.testBit_xor]
  have h2 := poly_add_self (X ^ i)
  cases a.testBit i <;> cases b.testBit i <;> simp [h2]

theorem bitPoly_degree_lt (k n : Nat) : (bitPoly k n).degree < (k : WithBot ℕ) := by
  apply (Polynomial.degree_sum_le _ _).trans_lt
  refine (Finset.sup_lt_iff (WithBot.bot_lt_coe k)).mpr ?_
  intro i hi
  split
  · rw [degree_X_pow]; exact Nat.cast_lt.mpr (Finset.mem_range.mp hi)
  · simp

theorem bitPoly_shift (k n : Nat) :
    bitPoly (k + 1) ((2 * n) % 2 ^ (k + 1)) =
      X * bitPoly (k + 1) n - (if n.testBit k then X ^ (k + 1) else 0) := by
  have h1 : X * bitPoly (k + 1) n = X * bitPoly k n + (if n.testBit k then X ^ (k + 1) else 0) := by
    rw [bitPoly, Finset.sum_range_succ, mul_add, ← bitPoly]
    congr 1
    split
    · ring
    · simp
  rw [h1, add_sub_cancel_right]
  rw [bitPoly, Finset.sum_range_succ']
  have : (2 * n % 2 ^ (k + 1)).testBit 0 = false := by
    rw [Nat.testBit_mod_two_pow]; simp [Nat.testBit_zero]
  simp only [this]
  simp only [bitPoly, Finset.mul_sum, mul_ite, mul_zero, Bool.false_eq_true, if_false, add_zero]
  apply Finset.sum_congr rfl
  intro i hi
  have hi' := Finset.mem_range.mp hi
  have : (2 * n % 2 ^ (k + 1)).testBit (i + 1) = n.testBit i := by
    rw [Nat.testBit_mod_two_pow, Nat.testBit_succ]; simp [hi']
  rw [this]
  split
  · ring
  · rfl

theorem bitPoly_const : bitPoly 128 0x87 = X ^ 7 + X ^ 2 + X + 1 := by
  have hbit : ∀ i, Nat.testBit 0x87 i = decide (i = 0 ∨ i = 1 ∨ i = 2 ∨ i = 7) := by
    intro i
    by_cases h : i < 8
    · interval_cases i <;> decide
    · rw [Nat.testBit_lt_two_pow (lt_of_lt_of_le (show 0x87 < 2 ^ 8 by norm_num)
        (Nat.pow_le_pow_right (by norm_num) (by omega)))]
      symm; simp; omega
  rw [bitPoly, ← Finset.sum_filter]
  have : (Finset.range 128).filter (fun i => Nat.testBit 0x87 i = true) = {0, 1, 2, 7} := by
    ext i; simp [hbit]; omega
  rw [this]
  simp
  ring

/-- Doubling modulo `x^(k+1) + c`, for any degree and any tail. -/
theorem bitPoly_dbl_gen (k n c : Nat) :
    bitPoly (k + 1) (if n.testBit k then (2 * n % 2 ^ (k + 1)) ^^^ c else 2 * n % 2 ^ (k + 1)) =
      (X * bitPoly (k + 1) n) %ₘ (X ^ (k + 1) + bitPoly (k + 1) c) := by
  symm
  have hmonic : (X ^ (k + 1) + bitPoly (k + 1) c).Monic := monic_X_pow_add (bitPoly_degree_lt _ _)
  have hdeg : (X ^ (k + 1) + bitPoly (k + 1) c).degree = ((k + 1 : ℕ) : WithBot ℕ) := by
    rw [degree_add_eq_left_of_degree_lt]
    · rw [degree_X_pow]
    · rw [degree_X_pow]; exact bitPoly_degree_lt _ _
  refine (Polynomial.div_modByMonic_unique (if n.testBit k then 1 else 0) _ hmonic
    ⟨?_, by rw [hdeg]; exact bitPoly_degree_lt _ _⟩).2
  have hsh := bitPoly_shift k n
  by_cases h : n.testBit k = true
  · rw [if_pos h, if_pos h, bitPoly_xor, hsh, if_pos h]
    linear_combination poly_add_self (bitPoly (k + 1) c)
  · rw [if_neg h, if_neg h, hsh, if_neg h]
    simp

theorem bitPoly_dbl_gen' (k K n c : Nat) (hK : K = k + 1) :
    bitPoly K (if n.testBit k then (2 * n % 2 ^ K) ^^^ c else 2 * n % 2 ^ K) =
      (X * bitPoly K n) %ₘ (X ^ K + bitPoly K c) := by
  subst hK; exact bitPoly_dbl_gen k n c

theorem bitPoly_dblBits (b : BitVec 128) :
    bitPoly 128 (dblBits b).toNat = (X * bitPoly 128 b.toNat) %ₘ gf128 := by
  have hmsb : b.msb = b.toNat.testBit 127 := by
    rw [BitVec.msb_eq_getLsbD_last, BitVec.testBit_toNat]
  have h := bitPoly_dbl_gen' 127 128 b.toNat 0x87 rfl
  have hs : (b <<< 1).toNat = 2 * b.toNat % 2 ^ 128 := by
    rw [BitVec.toNat_shiftLeft, Nat.shiftLeft_eq, Nat.mul_comm, pow_one]
  have hc : (0x87#128).toNat = 0x87 := rfl
  have e : (if b.toNat.testBit 127 then (2 * b.toNat % 2 ^ 128) ^^^ 0x87
      else 2 * b.toNat % 2 ^ 128) = (dblBits b).toNat := by
    rw [← hmsb, dblBits, ← hs]
    split
    · rw [BitVec.toNat_xor, hc]
    · rfl
  rw [e] at h
  have hg : gf128 = X ^ 128 + bitPoly 128 0x87 := by unfold gf128; rw [bitPoly_const]
  rw [hg]
  exact h

theorem dblBits_injective : Function.Injective dblBits := by
  intro a b h
  have hbit : ∀ x : BitVec 128, (dblBits x).getLsbD 0 = x.msb := by
    intro x
    unfold dblBits
    by_cases hx : x.msb = true
    · rw [if_pos hx, hx]; simp
    · rw [if_neg hx]; simp at hx; simp [hx]
  have hm : a.msb = b.msb := by rw [← hbit, ← hbit, h]
  have hs : a <<< 1 = b <<< 1 := by
    unfold dblBits at h
    rw [hm] at h
    split at h
    · exact BitVec.xor_left_inj _ |>.mp h
    · exact h
  apply BitVec.eq_of_getLsbD_eq
  intro i hi
  by_cases h127 : i = 127
  · subst h127
    rw [BitVec.msb_eq_getLsbD_last, BitVec.msb_eq_getLsbD_last] at hm
    exact hm
  · have := congrArg (fun v => v.getLsbD (i + 1)) hs
    simpa [show i + 1 < 128 by omega, BitVec.getLsbD_eq_getElem, hi] using this

theorem dblBits_surjective : Function.Surjective dblBits := by
  have : Finite (BitVec 128) := Finite.of_injective BitVec.toFin (fun _ _ h => BitVec.toFin_inj.mp h)
  exact Finite.injective_iff_surjective.mp dblBits_injective

theorem dbl_eq (s : Bytes) (h : s.length = 16) : dbl s = .ok (ofBits (dblBits (toBits s))) := by
  rw [dbl, if_pos h]
  simp only
  have e : (if stringToInt s &&& 0x80000000000000000000000000000000 ≠ 0 then
        ((stringToInt s <<< 1) &&& 0xFFFFFFFFFFFFFFFFFFFFFFFFFFFFFFFF) ^^^ 0x87
      else stringToInt s <<< 1) = (dblBits (toBits s)).toNat := by
    rw [← dblInt_eq, toBits_toNat h, stringToInt_eq, dblInt]
    by_cases hz : beValue s &&& 0x80000000000000000000000000000000 = 0
    · rw [if_neg (by simpa using hz), if_pos hz]
    · rw [if_pos hz, if_neg hz]
  rw [e]
  have hlt : (dblBits (toBits s)).toNat < 256 ^ 16 := by
    have := (dblBits (toBits s)).isLt
    norm_num at this ⊢
    exact this
  obtain ⟨r, hr, hl, hv⟩ := (intToString_pad (dblBits (toBits s)).toNat (k := 16) (by norm_num)).1 hlt
  have hr' : intToString (↑(dblBits (toBits s)).toNat) (some 16) = .ok r := hr
  rw [hr']
  congr 1
  rw [← ofBits_toBits hl, toBits, hv]; simp

end Cryptopy
