import Verif.Lemmas.DocScan
import Verif.Props.IsPrime
import Mathlib.Data.Nat.Totient
import Mathlib.Data.Nat.Count

/-!
C150: the global `miller_rabin_test_count` of `is_prime`, and the figures that the docstring of `is_prime` gives.
-/

namespace Cryptopy
open Model

/-- C150: the answer does not depend on the counting. -/
theorem C150_answer (log2 : Int → Int) (n : Int) : (isPrimeCounted log2 n).1 = isPrime log2 n := by
  have key : ∀ (r : Int) (s k i : Nat), (testLoop n r s k i).1 =
      (List.range k).all fun j => millerRabinRound n r s (smallprimes.getD (i + j) 0) := by
    intro r s k
    induction k with
    | zero => intro i; rfl
    | succ k ih =>
      intro i
      rw [testLoop, List.range_succ_eq_map, List.all_cons, List.all_map, add_zero]
      split
      · next h =>
        rw [h, Bool.true_and, ih]
        congr 1
        funext j
        simp only [Function.comp]
        congr 2
        omega
      · next h => rw [Bool.not_eq_true] at h; rw [h, Bool.false_and]
  rw [isPrimeCounted, isPrime]
  split
  · rfl
  split
  · rfl
  rw [key]
  simp

private theorem testLoop_spec (n r : Int) (s k : Nat) : ∀ i, 
    ((testLoop n r s k i).2 = 0 ∧ ∀ j < k, millerRabinRound n r s (smallprimes.getD (i + j) 0) = true) ∨
    ∃ c < k, (testLoop n r s k i).2 = i + c + 1 ∧ (∀ j < c, millerRabinRound n r s (smallprimes.getD (i + j) 0) = true) ∧
      millerRabinRound n r s (smallprimes.getD (i + c) 0) = false := by
  induction k with
  | zero => intro i; exact Or.inl ⟨rfl, fun j hj => by omega⟩
  | succ k ih =>
    intro i
    rw [testLoop]
    split
    · next h =>
      rcases ih (i + 1) with ⟨h1, h2⟩ | ⟨c, h1, h2, h3, h4⟩
      · refine Or.inl ⟨h1, fun j hj => ?_⟩
        cases j with
        | zero => exact h
        | succ j => have := h2 j (by omega); rwa [show i + 1 + j = i + (j + 1) by omega] at this
      · refine Or.inr ⟨c + 1, by omega, by omega, fun j hj => ?_, ?_⟩
        · cases j with
          | zero => exact h
          | succ j => have := h3 j (by omega); rwa [show i + 1 + j = i + (j + 1) by omega] at this
        · rwa [show i + 1 + c = i + (c + 1) by omega] at h4
    · next h =>
      rw [Bool.not_eq_true] at h
      exact Or.inr ⟨0, by omega, by omega, fun j hj => by omega, h⟩

/-- C150: after `is_prime(n)` the count is 0 if `n` is at most 1229 or has a factor 2, 3, 5, 7 or 11 or passes all rounds;
otherwise the first `count - 1` primes are bases that `n` passes and the next one is a base that it fails. -/
theorem C150_count (log2 : Int → Int) (n : Nat) :
    ((isPrimeCounted log2 n).2 = 0 ∧ (n ≤ 1229 ∨ ¬ Nat.Coprime n 2310 ∨
      ∀ i < primeRounds (1 + log2 n), StrongProbablePrime n (Nat.nth Nat.Prime i))) ∨
    ∃ c < primeRounds (1 + log2 n), (isPrimeCounted log2 n).2 = c + 1 ∧ 1229 < n ∧ Nat.Coprime n 2310 ∧
      (∀ i < c, StrongProbablePrime n (Nat.nth Nat.Prime i)) ∧ ¬ StrongProbablePrime n (Nat.nth Nat.Prime c) := by
  rw [isPrimeCounted]
  split
  · next h => rw [lastSmallprime] at h; exact Or.inl ⟨rfl, Or.inl (by omega)⟩
  next hn =>
  have hn : 1229 < n := by rw [lastSmallprime] at hn; omega
  have hg : gcd2 (n : Int) (2 * 3 * 5 * 7 * 11) = 1 ↔ Nat.Coprime n 2310 := by
    rw [gcd2_pos_eq _ _ (by omega), show (2 * 3 * 5 * 7 * 11 : Int) = ((2310 : Nat) : Int) from rfl,
      Int.gcd_natCast_natCast, Nat.Coprime]
    omega
  split
  · next h => exact Or.inl ⟨rfl, Or.inr (Or.inl fun hc => h (hg.mpr hc))⟩
  next hc =>
  have hc := hg.mp (not_not.mp hc)
  have hle : primeRounds (1 + log2 n) ≤ 40 := by rw [← roundsFrom_eq]; exact rounds_le _
  rw [roundsFrom_eq]
  have hodd : n % 2 = 1 :=
    Nat.odd_iff.mp (Nat.coprime_two_right.mp (Nat.Coprime.coprime_dvd_right (by norm_num) hc))
  obtain ⟨s, t, hst, hnst, ht, hs⟩ := split_nat n (by omega) hodd
  rw [hst]
  have hround : ∀ i < 40, millerRabinRound n t s (smallprimes.getD i 0) = true ↔
      StrongProbablePrime n (Nat.nth Nat.Prime i) := by
    intro i hi
    obtain ⟨hb1, hb2⟩ := smallprimes_range i hi
    rw [← smallprimes_nth i hi]
    have h := C69_strong_probable_prime n (by omega) hodd (smallprimes.getD i 0) (by omega) (by omega)
    rw [← h, rabinMiller, if_neg (by omega), hst]
    simp only
    simp
  rcases testLoop_spec n t s (primeRounds (1 + log2 n)) 0 with ⟨h1, h2⟩ | ⟨c, h1, h2, h3, h4⟩
  · refine Or.inl ⟨h1, Or.inr (Or.inr fun i hi => ?_)⟩
    have := h2 i hi
    rw [zero_add] at this
    exact (hround i (by omega)).mp this
  · refine Or.inr ⟨c, h1, by rw [h2]; omega, hn, hc, fun i hi => ?_, fun hs => ?_⟩
    · have := h3 i hi
      rw [zero_add] at this
      exact (hround i (by omega)).mp this
    · rw [zero_add, (hround c (by omega)).mpr hs] at h4
      cases h4

/-! ### The figures of the docstring -/

/-- A positive test for strong probable primes. -/
def strongPass (a n s : Nat) : Bool :=
  Ecpp.force (Nat.div (n - 1) (2 ^ s)) fun t => Nat.beq (n - 1) (2 ^ s * t) && Nat.beq (t % 2) 1 && Nat.blt (n - 1) (2 ^ 30) &&
    (Nat.beq (Cert.powMod 30 a t n 1) 1 || (List.range s).any fun j => Nat.beq (Cert.powMod 30 a (2 ^ j * t) n 1) (n - 1))

theorem strongPass_spec {a n s : Nat} (hn : 3 ≤ n) (h : strongPass a n s = true) :
    StrongProbablePrime n (a : Nat) := by
  rw [strongPass, Ecpp.force_eq, Bool.and_eq_true, Bool.and_eq_true, Bool.and_eq_true, Nat.beq_eq, Nat.beq_eq, Nat.blt_eq,
    Bool.or_eq_true, Nat.beq_eq, List.any_eq_true] at h
  obtain ⟨⟨⟨h1, h2⟩, h3⟩, h4⟩ := h
  refine ⟨s, _, h1, h2, ?_⟩
  generalize Nat.div (n - 1) (2 ^ s) = t at *
  rcases h4 with h4 | ⟨j, hj, h4⟩
  · left
    have ht : t < 2 ^ 30 := by
      have : t ≤ 2 ^ s * t := Nat.le_mul_of_pos_left _ (by positivity)
      omega
    have hp := Cert.powMod_eq 30 a t n 1 ht
    rw [h4, one_mul] at hp
    exact_mod_cast (Int.natCast_modEq_iff.mpr hp.symm)
  · right
    rw [List.mem_range] at hj
    rw [Nat.beq_eq] at h4
    refine ⟨j, hj, ?_⟩
    have hlt : 2 ^ j * t < 2 ^ 30 := by
      have h5 : 2 ^ j * t ≤ 2 ^ s * t := Nat.mul_le_mul_right _ (Nat.pow_le_pow_right (by norm_num) hj.le)
      omega
    have hp := Cert.powMod_eq 30 a (2 ^ j * t) n 1 hlt
    rw [h4, one_mul] at hp
    have h6 := (Int.natCast_modEq_iff.mpr hp.symm)
    push_cast at h6
    refine h6.trans ?_
    rw [Nat.cast_sub (by omega), Int.modEq_iff_dvd]
    exact ⟨-1, by push_cast; ring⟩

/-- The five numbers that pass the bases 2 and 3. -/
private def pseudo23 : List Nat := [11541307, 13694761, 15978007, 16070429, 16879501]

private theorem table_ok : (PseudoScan.pseudo2.all fun x => Nat.ble 10000001 x.1 && Nat.ble x.1 19999999 &&
    Nat.beq (x.1 % x.2) 0 && Nat.blt 1 x.2 && Nat.blt x.2 x.1 && Nat.beq (Nat.gcd x.1 2310) 1 &&
    ((List.range 20).any fun s => strongPass 2 x.1 s) &&
    (bif pseudo23.elem x.1 then ((List.range 20).any fun s => strongPass 3 x.1 s) && PseudoScan.strongFails 5 x.1
      else PseudoScan.strongFails 3 x.1)) = true := by decide +kernel

private theorem table_spec {n : Nat} (h : n ∈ PseudoScan.pseudo2.map Prod.fst) :
    10000001 ≤ n ∧ n ≤ 19999999 ∧ ¬ n.Prime ∧ Nat.Coprime n 2310 ∧ StrongProbablePrime n (2 : Nat) ∧
    (n ∈ pseudo23 → StrongProbablePrime n (3 : Nat) ∧ ¬ StrongProbablePrime n (5 : Nat)) ∧
    (n ∉ pseudo23 → ¬ StrongProbablePrime n (3 : Nat)) := by
  obtain ⟨⟨n, d⟩, hx, rfl⟩ := List.mem_map.mp h
  have := List.all_eq_true.mp table_ok _ hx
  simp only [Bool.and_eq_true, Nat.ble_eq, Nat.beq_eq, Nat.blt_eq, List.any_eq_true] at this
  obtain ⟨⟨⟨⟨⟨⟨⟨h1, h2⟩, h3⟩, h4⟩, h5⟩, h6⟩, ⟨s, -, h7⟩⟩, h8⟩ := this
  refine ⟨h1, h2, ?_, h6, strongPass_spec (by omega) h7, fun hm => ?_, fun hm => ?_⟩
  · intro hp
    rcases (Nat.dvd_prime hp).mp (Nat.dvd_of_mod_eq_zero h3) with e | e <;> simp only at * <;> omega
  · have e : pseudo23.elem n = true := List.elem_eq_true_of_mem hm
    rw [e, cond_true, Bool.and_eq_true, List.any_eq_true] at h8
    obtain ⟨⟨s, -, h9⟩, h10⟩ := h8
    exact ⟨strongPass_spec (by simp only at *; omega) h9,
      strongFails_not_strong (by simp only at *; omega) (by simp only at *; omega) h10⟩
  · have e : pseudo23.elem n = false := by
      rw [← Bool.not_eq_true]; exact fun h => hm (List.mem_of_elem_eq_true h)
    rw [e, cond_false] at h8
    exact strongFails_not_strong (by simp only at *; omega) (by simp only at *; omega) h8

/-- The composite numbers of the range that get past the first base. -/
private theorem in_table {n : Nat} (h1 : 10000001 ≤ n) (h2 : n ≤ 19999999) (hnp : ¬ n.Prime) (hc : Nat.Coprime n 2310)
    (hs : StrongProbablePrime n (2 : Nat)) : n ∈ PseudoScan.pseudo2.map Prod.fst := by
  have hodd : n % 2 = 1 :=
    Nat.odd_iff.mp (Nat.coprime_two_right.mp (Nat.Coprime.coprime_dvd_right (by norm_num) hc))
  have hp := Nat.minFac_prime (n := n) (by omega)
  have hsq := Nat.minFac_sq_le_self (by omega : 0 < n) hnp
  have hle : ∀ r : Nat, 2 ≤ r → r ∣ n → n.minFac ≤ r := fun r hr hd => Nat.minFac_le_of_dvd hr hd
  obtain ⟨m, hm⟩ := Nat.minFac_dvd n
  have h13 : 13 ≤ n.minFac := by
    by_contra hlt
    have hd := Nat.minFac_dvd n
    have hdiv : n.minFac ∣ 2310 := by
      generalize n.minFac = p at *
      interval_cases p <;> first | decide | exact absurd hp (by norm_num)
    have := Nat.dvd_gcd hd hdiv
    rw [Nat.coprime_iff_gcd_eq_one.mp hc] at this
    exact hp.one_lt.ne' (Nat.dvd_one.mp this)
  generalize n.minFac = p at *
  have hp4 : p < 4473 := by nlinarith
  subst hm
  have hm2 : 2 ≤ m := by
    by_contra hlt
    have : m = 0 ∨ m = 1 := by omega
    rcases this with rfl | rfl
    · omega
    · rw [mul_one] at hnp; exact hnp hp
  have hpm := hle m hm2 (dvd_mul_left m p)
  have hok := PseudoScan.docP_all p h13 hp4
  have hcond : (Nat.beq (Nat.gcd p PseudoScan.primorial173) 1 || PseudoScan.primes173.any fun q => Nat.beq q p) = true := by
    rw [Bool.or_eq_true, Nat.beq_eq, List.any_eq_true]
    by_cases h : p < 179
    · exact Or.inr ⟨p, PseudoScan.mem_primes173 hp h, by rw [Nat.beq_eq]⟩
    · left
      rw [← Nat.coprime_iff_gcd_eq_one, hp.coprime_iff_not_dvd, PseudoScan.prime_dvd_primorial hp]
      omega
  rw [PseudoScan.docP, hcond] at hok
  simp only [Ecpp.force_eq, Bool.and_eq_true, Nat.ble_eq] at hok
  obtain ⟨⟨⟨ho, hord⟩, hk⟩, hscan⟩ := hok
  generalize PseudoScan.ordGuess p = o at *
  generalize Nat.div (Nat.max p (Nat.div 10000000 p)) o = k at *
  have hoo := PseudoScan.ordOk_spec (by omega) ho hord
  have hp2 : ¬ p ∣ 2 := fun h => by have := Nat.le_of_dvd (by norm_num) h; omega
  obtain ⟨c, hc'⟩ := order_dvd_cofactor hp (by omega) hodd (by omega) hp2 hs
  rw [hoo] at hc'
  have hmc : m = 1 + c * o := by rw [mul_comm]; omega
  have hkc : k ≤ c := by
    by_contra hlt
    have hck : c * o ≤ (k - 1) * o := Nat.mul_le_mul_right _ (by omega)
    rw [Bool.or_eq_true, Bool.or_eq_true, Nat.beq_eq, Nat.blt_eq, Nat.blt_eq] at hk
    rcases hk with (hk | hk) | hk
    · omega
    · omega
    · have : p * m ≤ p * (1 + (k - 1) * o) := Nat.mul_le_mul_left _ (by omega)
      omega
  have hmk : m = 1 + k * o + (c - k) * o := by
    rw [hmc, add_assoc, ← Nat.add_mul]; congr 2; omega
  have hfin := PseudoScan.scan_spec _ _ _ p o ho 200000 _ hscan (c - k) (by rw [← hmk]; omega)
  rw [← hmk] at hfin
  rcases hfin with h | h | h
  · exfalso
    apply h
    rw [← Nat.coprime_iff_gcd_eq_one]
    refine Nat.Coprime.symm (Nat.coprime_of_dvd fun r hr h1 h2 => ?_)
    rw [PseudoScan.primesBelow, hr.prime.dvd_prod_iff] at h1
    obtain ⟨a, ha, hra⟩ := h1
    rw [List.mem_filter, Nat.blt_eq] at ha
    have h3 := hle r hr.two_le (h2.trans (dvd_mul_left m p))
    have h4 := Nat.le_of_dvd (PseudoScan.prime_of_mem ha.1).1.pos hra
    omega
  · exact absurd hs (fails2_not_strong (by omega) hodd h)
  · rw [PseudoScan.docEx, Ecpp.force_eq, Bool.or_eq_true, Bool.or_eq_true, Nat.blt_eq, List.any_eq_true] at h
    rcases h with (h | h) | ⟨x, hx, he⟩
    · omega
    · exact absurd hs (strongFails_not_strong (by omega) (by omega) h)
    · rw [Nat.beq_eq] at he
      rw [← he]
      exact List.mem_map_of_mem hx

private theorem count_iff (log2 : Int → Int) (n : Nat) (h1 : 10000001 ≤ n) :
    ((isPrimeCounted log2 n).1 = true ∨ (isPrimeCounted log2 n).2 ≠ 0) ↔ Nat.Coprime n 2310 := by
  rw [C150_answer, C65_strong_probable_prime log2 n (by omega)]
  rcases C150_count log2 n with ⟨h2, h3⟩ | ⟨c, h2, h3, h4, h5, h6, h7⟩
  · constructor
    · rintro (⟨h, -⟩ | h)
      · exact h
      · exact absurd h2 h
    · intro hc
      refine Or.inl ⟨hc, ?_⟩
      rcases h3 with h3 | h3 | h3
      · omega
      · exact absurd hc h3
      · exact h3
  · exact ⟨fun _ => h5, fun _ => Or.inr (by omega)⟩

private theorem mem_past {log2 : Int → Int} {n : Nat} (h1 : 10000001 ≤ n) (h2 : n ≤ 19999999) (hnp : ¬ n.Prime)
    (hb : log2 n < 99) :
    ((isPrimeCounted log2 n).1 = false ∧ (isPrimeCounted log2 n).2 ≤ 3) ∧
    (2 ≤ (isPrimeCounted log2 n).2 ↔ n ∈ PseudoScan.pseudo2.map Prod.fst) ∧
    (3 ≤ (isPrimeCounted log2 n).2 ↔ n ∈ pseudo23) := by
  have h40 : primeRounds (1 + log2 n) = 40 := by
    rw [primeRounds]
    iterate 12 rw [if_neg (by omega)]
  have hsub : ∀ n ∈ pseudo23, n ∈ PseudoScan.pseudo2.map Prod.fst := by decide +kernel
  have hans : isPrime log2 n = false := by
    rw [← Bool.not_eq_true, C144_exact log2 n (by norm_num; omega) hb]
    exact hnp
  rw [C150_answer]
  refine ⟨⟨hans, ?_⟩, ?_⟩
  · rcases C150_count log2 n with ⟨h3, h4⟩ | ⟨c, h3, h4, h5, h6, h7, h8⟩
    · omega
    · by_contra hlt
      have s2 := h7 0 (by omega)
      have s3 := h7 1 (by omega)
      have s5 := h7 2 (by omega)
      rw [Nat.nth_prime_zero_eq_two] at s2
      rw [Nat.nth_prime_one_eq_three] at s3
      rw [Nat.nth_prime_two_eq_five] at s5
      obtain ⟨-, -, -, -, -, t1, t2⟩ := table_spec (in_table h1 h2 hnp h6 s2)
      by_cases hm : n ∈ pseudo23
      · exact (t1 hm).2 s5
      · exact t2 hm s3
  · rcases C150_count log2 n with ⟨h3, h4⟩ | ⟨c, h3, h4, h5, h6, h7, h8⟩
    · have hno : n ∉ PseudoScan.pseudo2.map Prod.fst := by
        intro hm
        obtain ⟨-, -, -, hc, -, t1, t2⟩ := table_spec hm
        rcases h4 with h4 | h4 | h4
        · omega
        · exact h4 hc
        · have s3 := h4 1 (by omega)
          have s5 := h4 2 (by omega)
          rw [Nat.nth_prime_one_eq_three] at s3
          rw [Nat.nth_prime_two_eq_five] at s5
          by_cases hm : n ∈ pseudo23
          · exact (t1 hm).2 s5
          · exact t2 hm s3
      rw [h3]
      exact ⟨iff_of_false (by omega) hno, iff_of_false (by omega) fun h => hno (hsub n h)⟩
    · rw [h4]
      constructor
      · constructor
        · intro hc
          have s2 := h7 0 (by omega)
          rw [Nat.nth_prime_zero_eq_two] at s2
          exact in_table h1 h2 hnp h6 s2
        · intro hm
          obtain ⟨-, -, -, -, s2, -, -⟩ := table_spec hm
          by_contra hlt
          have : c = 0 := by omega
          rw [this, Nat.nth_prime_zero_eq_two] at h8
          exact h8 s2
      · constructor
        · intro hc
          have s2 := h7 0 (by omega)
          have s3 := h7 1 (by omega)
          rw [Nat.nth_prime_zero_eq_two] at s2
          rw [Nat.nth_prime_one_eq_three] at s3
          by_contra hm
          obtain ⟨-, -, -, -, -, -, t2⟩ := table_spec (in_table h1 h2 hnp h6 s2)
          exact t2 hm s3
        · intro hm
          obtain ⟨-, -, -, -, s2, t1, -⟩ := table_spec (hsub n hm)
          by_contra hlt
          have : c = 0 ∨ c = 1 := by omega
          rcases this with rfl | rfl
          · rw [Nat.nth_prime_zero_eq_two] at h8; exact h8 s2
          · rw [Nat.nth_prime_one_eq_three] at h8; exact h8 (t1 hm).1

private theorem ncard_list (l : List Nat) (hl : l.Nodup) (s : Set Nat) (h : ∀ n, n ∈ s ↔ n ∈ l) : s.ncard = l.length := by
  have e : s = (l.toFinset : Set Nat) := by ext n; rw [h]; simp
  rw [e, Set.ncard_coe_finset, List.toFinset_card_of_nodup hl]

/-- C150: the first figures of the docstring.  Of the odd composite numbers from 10000001 to 19999999 exactly 66 get past
the first test and 5 past the second; all are rejected, by the third test at the latest. -/
theorem C150_docstring (log2 : Int → Int) (hb : ∀ n : Nat, 10000001 ≤ n → n ≤ 19999999 → log2 n < 99) :
    {n : Nat | 10000001 ≤ n ∧ n ≤ 19999999 ∧ n % 2 = 1 ∧ ¬ n.Prime ∧ 2 ≤ (isPrimeCounted log2 n).2}.ncard = 66 ∧
    {n : Nat | 10000001 ≤ n ∧ n ≤ 19999999 ∧ n % 2 = 1 ∧ ¬ n.Prime ∧ 3 ≤ (isPrimeCounted log2 n).2}.ncard = 5 ∧
    ∀ n : Nat, 10000001 ≤ n → n ≤ 19999999 → ¬ n.Prime →
      (isPrimeCounted log2 n).1 = false ∧ (isPrimeCounted log2 n).2 ≤ 3 := by
  have hoddT : ∀ n ∈ PseudoScan.pseudo2.map Prod.fst, n % 2 = 1 := by decide +kernel
  have hsub : ∀ n ∈ pseudo23, n ∈ PseudoScan.pseudo2.map Prod.fst := by decide +kernel
  refine ⟨?_, ?_, fun n h1 h2 h3 => (mem_past h1 h2 h3 (hb n h1 h2)).1⟩
  · rw [ncard_list (PseudoScan.pseudo2.map Prod.fst) (by decide +kernel)]
    · rfl
    · intro n
      constructor
      · rintro ⟨h1, h2, -, h3, h4⟩
        exact (mem_past h1 h2 h3 (hb n h1 h2)).2.1.mp h4
      · intro hm
        obtain ⟨h1, h2, h3, -⟩ := table_spec hm
        exact ⟨h1, h2, hoddT n hm, h3, (mem_past h1 h2 h3 (hb n h1 h2)).2.1.mpr hm⟩
  · rw [ncard_list pseudo23 (by decide +kernel)]
    · rfl
    · intro n
      constructor
      · rintro ⟨h1, h2, -, h3, h4⟩
        exact (mem_past h1 h2 h3 (hb n h1 h2)).2.2.mp h4
      · intro hm
        obtain ⟨h1, h2, h3, -⟩ := table_spec (hsub n hm)
        exact ⟨h1, h2, hoddT n (hsub n hm), h3, (mem_past h1 h2 h3 (hb n h1 h2)).2.2.mpr hm⟩
example := C150_docstring (fun _ => 24) fun _ _ _ => by decide

private theorem count_periods (a k : Nat) : (Finset.filter (Nat.Coprime 2310) (Finset.Ico a (a + k * 2310))).card = k * 480 := by
  induction k with
  | zero => simp
  | succ k ih =>
    have e : Finset.Ico a (a + (k + 1) * 2310) = Finset.Ico a (a + k * 2310) ∪ Finset.Ico (a + k * 2310) (a + k * 2310 + 2310) := by
      rw [Finset.Ico_union_Ico_eq_Ico (by omega) (by omega)]; congr 1; ring
    have ht : Nat.totient 2310 = 480 := by
      rw [show 2310 = 2 * 3 * 5 * 7 * 11 by norm_num]
      repeat rw [Nat.totient_mul (by norm_num)]
      repeat rw [Nat.totient_prime (by norm_num)]
    rw [e, Finset.filter_union, Finset.card_union_of_disjoint, ih, Nat.filter_coprime_Ico_eq_totient, ht]
    · ring
    · apply Finset.disjoint_filter_filter
      exact Finset.Ico_disjoint_Ico_consecutive _ _ _

/-- C150: the last figure of the docstring is wrong.  Of the odd numbers of that range 2077923 are tested by Miller-Rabin
(the answer is True or the count positive), not 4.57 million. -/
theorem C150_tested (log2 : Int → Int) :
    {n : Nat | 10000001 ≤ n ∧ n ≤ 19999999 ∧ n % 2 = 1 ∧
      ((isPrimeCounted log2 n).1 = true ∨ (isPrimeCounted log2 n).2 ≠ 0)}.ncard = 2077923 := by
  have e : {n : Nat | 10000001 ≤ n ∧ n ≤ 19999999 ∧ n % 2 = 1 ∧
      ((isPrimeCounted log2 n).1 = true ∨ (isPrimeCounted log2 n).2 ≠ 0)} =
      (Finset.filter (Nat.Coprime 2310) (Finset.Ico 10000001 (10000001 + 4329 * 2310)) ∪
        Finset.filter (Nat.Coprime 2310) (Finset.Ico (10000001 + 4329 * 2310) 20000000) : Finset Nat) := by
    ext n
    rw [← Finset.filter_union, Finset.Ico_union_Ico_eq_Ico (by omega) (by omega)]
    simp only [Set.mem_ofPred_eq, Finset.coe_filter, Finset.mem_Ico]
    constructor
    · rintro ⟨h1, h2, -, h3⟩
      exact ⟨⟨h1, by omega⟩, ((count_iff log2 n h1).mp h3).symm⟩
    · rintro ⟨⟨h1, h2⟩, h3⟩
      exact ⟨h1, by omega, Nat.odd_iff.mp (Nat.coprime_two_right.mp (Nat.Coprime.coprime_dvd_right (by norm_num) h3.symm)),
        (count_iff log2 n h1).mpr h3.symm⟩
  rw [e, Set.ncard_coe_finset, Finset.card_union_of_disjoint, count_periods]
  · have : (Finset.filter (Nat.Coprime 2310) (Finset.Ico (10000001 + 4329 * 2310) 20000000)).card = 3 := by decide +kernel
    omega
  · apply Finset.disjoint_filter_filter
    exact Finset.Ico_disjoint_Ico_consecutive _ _ _

/-- The hypotheses hold for the exact logarithm. -/
example : ∀ n : Nat, 10000001 ≤ n → n ≤ 19999999 → (fun n : Int => ((Nat.log2 n.toNat : Nat) : Int)) n < 99 := by
  intro n h1 h2
  have : Nat.log2 n < 25 := (Nat.log2_lt (by omega)).mpr (by omega)
  simp only [Int.toNat_natCast]
  omega
/-- 11541307 = 1699 * 6793 is rejected by the third base. -/
example : 1699 * 6793 = 11541307 ∧ 11541307 ∈ pseudo23 := by decide

end Cryptopy
