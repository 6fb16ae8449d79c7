import Verif.Lemmas.Ecpp
import Verif.Lemmas.Primality
import Mathlib.Data.Nat.Count
import Mathlib.Data.Nat.Prime.Basic
import Mathlib.Algebra.BigOperators.Intervals
import Mathlib.Algebra.Order.BigOperators.Group.Finset
import Mathlib.Data.Nat.Bitwise
import Mathlib.Data.Nat.ModEq
import Mathlib.Algebra.Ring.GeomSum

/-! Counting primes by a sieve on one large number: cell `n`, of 20 bits, holds 1 if `n` has a small prime factor; the number
modulo `2^20 - 1` is the sum of the cells. -/

namespace Cryptopy.PrimeCount
open Model

/-- The cells of a predicate. -/
def enc (f : Nat → Bool) : Nat → Nat
  | 0 => 0
  | n + 1 => 2 ^ (20 * n) * (f n).toNat + enc f n

theorem enc_lt (f : Nat → Bool) (n : Nat) : enc f n < 2 ^ (20 * n) := by
  induction n with
  | zero => simp [enc]
  | succ n ih =>
    rw [enc]
    have : (f n).toNat ≤ 1 := Bool.toNat_le _
    have h2 : 2 ^ (20 * (n + 1)) = 2 ^ (20 * n) * 2 ^ 20 := by rw [← pow_add]; ring_nf
    nlinarith [Nat.pow_pos (n := 20 * n) (show 0 < 2 by norm_num)]

theorem testBit_enc (f : Nat → Bool) (n i : Nat) :
    (enc f n).testBit i = (decide (i % 20 = 0) && decide (i / 20 < n) && f (i / 20)) := by
  induction n with
  | zero => simp [enc]
  | succ n ih =>
    rw [enc, Nat.testBit_two_pow_mul_add _ (enc_lt f n)]
    split
    · next h =>
      rw [ih]
      have h1 : i / 20 < n := by omega
      simp [h1, Nat.lt_succ_of_lt h1]
    · next h =>
      by_cases h0 : i = 20 * n
      · subst h0
        cases hf : f n <;> simp [hf]
      · have h2 : ¬ (i % 20 = 0 ∧ i / 20 < n + 1) := by omega
        have h3 : (f n).toNat.testBit (i - 20 * n) = false := by
          apply Nat.testBit_eq_false_of_lt
          have : (f n).toNat ≤ 1 := Bool.toNat_le _
          have : 2 ^ 1 ≤ 2 ^ (i - 20 * n) := Nat.pow_le_pow_right (by norm_num) (by omega)
          omega
        rw [h3]
        simp only [← Bool.decide_and, h2, decide_false, Bool.false_and]

theorem enc_mod (f : Nat → Bool) (n : Nat) (hn : n < 2 ^ 20 - 1) :
    enc f n % (2 ^ 20 - 1) = ((List.range n).filter f).length := by
  have key : enc f n ≡ ((List.range n).filter f).length [MOD 2 ^ 20 - 1] := by
    clear hn
    induction n with
    | zero => rfl
    | succ n ih =>
      rw [enc, List.range_succ, List.filter_append, List.length_append]
      have h1 : 2 ^ (20 * n) ≡ 1 [MOD 2 ^ 20 - 1] := by
        rw [pow_mul]
        exact (Nat.ModEq.pow n (show 2 ^ 20 ≡ 1 [MOD 2 ^ 20 - 1] from rfl)).trans (by rw [one_pow])
      have h2 : ([n].filter f).length = (f n).toNat := by
        rw [List.filter_singleton]; cases f n <;> rfl
      rw [h2, add_comm (List.length _)]
      exact ((h1.mul_right _).trans (by rw [one_mul])).add ih
  have hle : ((List.range n).filter f).length ≤ n := by
    simpa using List.length_filter_le f (List.range n)
  rw [key, Nat.mod_eq_of_lt (by omega)]

/-- The cells of the multiples of `p` below `p k`. -/
theorem enc_multiples (p k : Nat) (hp : 0 < p) :
    enc (fun n => decide (n % p = 0)) (p * k) = (2 ^ (20 * p * k) - 1) / (2 ^ (20 * p) - 1) := by
  have h1 : 2 ≤ 2 ^ (20 * p) := by
    calc 2 = 2 ^ 1 := rfl
      _ ≤ _ := Nat.pow_le_pow_right (by norm_num) (by omega)
  have h3 : ∀ k, enc (fun n => decide (n % p = 0)) (p * k) = ∑ i ∈ Finset.range k, (2 ^ (20 * p)) ^ i := by
    intro k
    induction k with
    | zero => rfl
    | succ k ih =>
      rw [Finset.sum_range_succ, ← ih, mul_add, mul_one]
      have : ∀ j, j < p → enc (fun n => decide (n % p = 0)) (p * k + (j + 1)) =
          enc (fun n => decide (n % p = 0)) (p * k) + (2 ^ (20 * p)) ^ k := by
        intro j
        induction j with
        | zero =>
          intro _
          rw [zero_add, enc, Nat.mul_mod_right, ← pow_mul, mul_assoc]
          simp [add_comm]
        | succ j ihj =>
          intro hj
          rw [show p * k + (j + 1 + 1) = p * k + (j + 1) + 1 by ring, enc, ihj (by omega), Nat.mul_add_mod,
            Nat.mod_eq_of_lt hj]
          simp
      have := this (p - 1) (by omega)
      rwa [Nat.sub_add_cancel hp] at this
  rw [h3, Nat.geomSum_eq h1, ← pow_mul]

/-- The sieve: the cells of the numbers with a factor in the list; `B` is the number of cells. -/
def sieve (B : Nat) : List Nat → Nat → Nat
  | [], x => Nat.mod x (Nat.pow 2 (Nat.mul 20 B))
  | p :: ps, x => Ecpp.force (Nat.lor x (Nat.div (Nat.sub (Nat.pow 2 (Nat.mul (Nat.mul 20 p) (Nat.succ (Nat.div B p)))) 1)
      (Nat.sub (Nat.pow 2 (Nat.mul 20 p)) 1))) (sieve B ps)

theorem testBit_sieve (B : Nat) (ps : List Nat) (hps : ∀ p ∈ ps, 0 < p) (i : Nat) : ∀ x,
    (sieve B ps x).testBit i = (decide (i < 20 * B) && (x.testBit i ||
      (decide (i % 20 = 0) && ps.any fun p => decide ((i / 20) % p = 0)))) := by
  induction ps with
  | nil =>
    intro x
    rw [sieve]
    change (x % 2 ^ (20 * B)).testBit i = _
    rw [Nat.testBit_mod_two_pow]
    simp
  | cons p ps ih =>
    intro x
    have hp := hps p List.mem_cons_self
    rw [sieve, Ecpp.force_eq, ih fun q hq => hps q (List.mem_cons_of_mem _ hq)]
    change (_ && ((x ||| (2 ^ (20 * p * (B / p + 1)) - 1) / (2 ^ (20 * p) - 1)).testBit i || _)) = _
    rw [← enc_multiples p _ hp, Nat.testBit_or, testBit_enc, List.any_cons]
    by_cases h : i < 20 * B
    · have h1 : i / 20 < p * (B / p + 1) := by
        have h2 := Nat.div_add_mod B p
        have h3 := Nat.mod_lt B hp
        rw [mul_add, mul_one]
        omega
      simp only [h, h1, decide_true, Bool.true_and, Bool.and_true]
      cases x.testBit i <;> cases decide (i % 20 = 0) <;> simp
    · simp [h]

theorem sieve_eq (B : Nat) (ps : List Nat) (hps : ∀ p ∈ ps, 0 < p) :
    sieve B ps 0 = enc (fun n => ps.any fun p => decide (n % p = 0)) B := by
  apply Nat.eq_of_testBit_eq
  intro i
  rw [testBit_sieve B ps hps, testBit_enc]
  have : (i < 20 * B) ↔ i / 20 < B := by omega
  simp only [this, Nat.zero_testBit, Bool.false_or]
  cases decide (i % 20 = 0) <;> cases decide (i / 20 < B) <;> simp

/-- The primes below `B`, if the list has all primes `p` with `p^2 < B`. -/
theorem count_prime (B : Nat) (hB : B < 2 ^ 20 - 1) (h2 : 4 < B) (ps : List Nat) (hnd : ps.Nodup) (hps : ∀ p ∈ ps, p.Prime ∧ p < B)
    (hall : ∀ p : Nat, p.Prime → p * p < B → p ∈ ps) :
    Nat.count Nat.Prime B + sieve B ps 0 % (2 ^ 20 - 1) + 1 = B + ps.length := by
  rw [sieve_eq B ps fun p hp => (hps p hp).1.pos, enc_mod _ _ hB, Nat.count_eq_card_filter_range]
  have e1 : ((List.range B).filter fun n => ps.any fun p => decide (n % p = 0)).length =
      ((Finset.range B).filter fun n => ∃ p ∈ ps, p ∣ n).card := by
    rw [← List.toFinset_card_of_nodup (List.nodup_range.filter _)]
    congr 1
    ext n
    simp [Nat.dvd_iff_mod_eq_zero]
  rw [e1]
  have e2 : (Finset.range B).filter (fun n => n.Prime) ∩ (Finset.range B).filter (fun n => ∃ p ∈ ps, p ∣ n) = ps.toFinset := by
    ext n
    simp only [Finset.mem_inter, Finset.mem_filter, Finset.mem_range, List.mem_toFinset]
    constructor
    · rintro ⟨⟨-, h1⟩, -, p, hp, hd⟩
      rwa [← (Nat.prime_dvd_prime_iff_eq (hps p hp).1 h1).mp hd]
    · intro h
      exact ⟨⟨(hps n h).2, (hps n h).1⟩, (hps n h).2, n, h, dvd_rfl⟩
  have e3 : (Finset.range B).filter (fun n => n.Prime) ∪ (Finset.range B).filter (fun n => ∃ p ∈ ps, p ∣ n) =
      (Finset.range B).erase 1 := by
    ext n
    simp only [Finset.mem_union, Finset.mem_filter, Finset.mem_range, Finset.mem_erase]
    constructor
    · rintro (⟨h1, h3⟩ | ⟨h1, p, hp, hd⟩)
      · exact ⟨h3.one_lt.ne', h1⟩
      · refine ⟨?_, h1⟩
        rintro rfl
        exact (hps p hp).1.one_lt.ne' (Nat.dvd_one.mp hd)
    · rintro ⟨h1, h3⟩
      by_cases hn : n.Prime
      · exact Or.inl ⟨h3, hn⟩
      · refine Or.inr ⟨h3, ?_⟩
        by_cases h0 : n = 0
        · subst h0
          exact ⟨2, hall 2 Nat.prime_two h2, dvd_zero _⟩
        · have hp := Nat.minFac_prime (n := n) h1
          have hsq := Nat.minFac_sq_le_self (by omega : 0 < n) hn
          refine ⟨n.minFac, hall _ hp ?_, Nat.minFac_dvd n⟩
          rw [← pow_two]; omega
  have h4 := Finset.card_union_add_card_inter ((Finset.range B).filter fun n => n.Prime)
    ((Finset.range B).filter fun n => ∃ p ∈ ps, p ∣ n)
  rw [e2, e3, Finset.card_erase_of_mem (by simp; omega), Finset.card_range, List.toFinset_card_of_nodup hnd] at h4
  omega

/-- The primes up to 782. -/
def primes782 : List Nat :=
  [2, 3, 5, 7, 11, 13, 17, 19, 23, 29, 31, 37, 41, 43, 47, 53, 59, 61, 67, 71, 73, 79, 83, 89, 97, 101, 103, 107,
   109, 113, 127, 131, 137, 139, 149, 151, 157, 163, 167, 173, 179, 181, 191, 193, 197, 199, 211, 223, 227, 229,
   233, 239, 241, 251, 257, 263, 269, 271, 277, 281, 283, 293, 307, 311, 313, 317, 331, 337, 347, 349, 353, 359,
   367, 373, 379, 383, 389, 397, 401, 409, 419, 421, 431, 433, 439, 443, 449, 457, 461, 463, 467, 479, 487, 491,
   499, 503, 509, 521, 523, 541, 547, 557, 563, 569, 571, 577, 587, 593, 599, 601, 607, 613, 617, 619, 631, 641,
   643, 647, 653, 659, 661, 673, 677, 683, 691, 701, 709, 719, 727, 733, 739, 743, 751, 757, 761, 769, 773]

theorem primes782_spec : ∀ p : Nat, p ∈ primes782 ↔ p.Prime ∧ p < 783 := by
  have h1 : ((List.range 783).all fun p => Bool.xor (trial 28 p) (!(primes782.elem p))) = true := by decide +kernel
  have h2 : (primes782.all fun p => Nat.blt p 783) = true := by decide +kernel
  intro p
  constructor
  · intro h
    have h3 := List.all_eq_true.mp h2 p h
    rw [Nat.blt_eq] at h3
    have h4 := List.all_eq_true.mp h1 p (List.mem_range.mpr h3)
    rw [List.elem_eq_true_of_mem h] at h4
    exact ⟨(trial_iff 28 p (by omega)).mp (by simpa using h4), h3⟩
  · rintro ⟨hp, h3⟩
    have h4 := List.all_eq_true.mp h1 p (List.mem_range.mpr h3)
    rw [(trial_iff 28 p (by omega)).mpr hp] at h4
    simpa using h4

theorem sieve_value : sieve 611953 primes782 0 % (2 ^ 20 - 1) = 562090 := by decide +kernel

theorem count_611953 : Nat.count Nat.Prime 611953 = 49999 := by
  have h := count_prime 611953 (by norm_num) (by norm_num) primes782 (by decide +kernel)
    (fun p hp => ⟨((primes782_spec p).mp hp).1, by have := ((primes782_spec p).mp hp).2; omega⟩)
    (fun p hp hlt => (primes782_spec p).mpr ⟨hp, by nlinarith⟩)
  have h137 : primes782.length = 137 := by decide +kernel
  have hv := sieve_value
  generalize sieve 611953 primes782 0 % (2 ^ 20 - 1) = v at h hv
  omega

end Cryptopy.PrimeCount
