import Verif.Model.PrimeTest
import Verif.Lemmas.PrimeScan
import Verif.Lemmas.PrimeCount
import Verif.Props.TestCount
import Mathlib.Data.Nat.Nth

/-!
C154: what the tests of `fmath/prime_test.py` establish.
-/

namespace Cryptopy
open Model

/-- The odd composite numbers. -/
def OddComposite (n : Nat) : Prop := n % 2 = 1 ∧ 1 < n ∧ ¬ n.Prime

/-- The least prime to which `n` is not a strong probable prime. -/
noncomputable def leastWitness (n : Nat) : Nat := sInf {q : Nat | q.Prime ∧ ¬ StrongProbablePrime n (q : Nat)}

/-- An odd composite number whose least witness is above 2 and above those of all smaller ones. -/
def IsRecord (n : Nat) : Prop :=
  OddComposite n ∧ 2 < leastWitness n ∧ ∀ m < n, OddComposite m → leastWitness m < leastWitness n

open Classical in
/-- The records below `N`, each with its least witness. -/
noncomputable def records (N : Nat) : List (Int × Int) :=
  ((List.range N).filter fun n => decide (IsRecord n)).map fun n : Nat => ((n : Int), (leastWitness n : Int))

/-- The first `k` primes. -/
noncomputable def firstPrimes (k : Nat) : List Int := (List.range k).map fun i => ((Nat.nth Nat.Prime i : Nat) : Int)

open Classical in
private theorem records_succ_pos {N : Nat} (h : IsRecord N) :
    records (N + 1) = records N ++ [((N : Int), (leastWitness N : Int))] := by
  rw [records, records, List.range_succ, List.filter_append, List.map_append, List.filter_singleton, decide_eq_true h]
  rfl

open Classical in
private theorem records_succ_neg {N : Nat} (h : ¬ IsRecord N) : records (N + 1) = records N := by
  rw [records, records, List.range_succ, List.filter_append, List.map_append, List.filter_singleton, decide_eq_false h]
  exact List.append_nil _

private theorem lw_spec {n : Nat} (h : OddComposite n) :
    (leastWitness n).Prime ∧ ¬ StrongProbablePrime n (leastWitness n : Nat) ∧ leastWitness n < n ∧
    ∀ q : Nat, q.Prime → q < leastWitness n → StrongProbablePrime n (q : Nat) := by
  obtain ⟨h1, h2, h3⟩ := h
  have hp := Nat.minFac_prime (n := n) (by omega)
  have hlt : n.minFac < n := by
    rcases Nat.lt_or_ge n.minFac n with h | h
    · exact h
    · rw [le_antisymm (Nat.minFac_le (by omega)) h] at hp; exact absurd hp h3
  have hn3 : 3 ≤ n := by omega
  have hmem : n.minFac ∈ {q : Nat | q.Prime ∧ ¬ StrongProbablePrime n (q : Nat)} := by
    refine ⟨hp, fun hs => ?_⟩
    have h4 := (C69_strong_probable_prime n hn3 h1 n.minFac (by have := hp.two_le; omega) (by omega)).mpr hs
    rw [C69_shared_factor n n.minFac (by have := hp.two_le; omega) (by omega) (by
      rw [Int.gcd_natCast_natCast, Nat.gcd_eq_left (Nat.minFac_dvd n)]; exact hp.one_lt.ne')] at h4
    injection h4 with h4
    omega
  have := Nat.sInf_mem ⟨_, hmem⟩
  refine ⟨this.1, this.2, lt_of_le_of_lt (Nat.sInf_le hmem) hlt, fun q hq hlt => ?_⟩
  by_contra hs
  exact Nat.notMem_of_lt_sInf hlt ⟨hq, hs⟩

/-- What the loop over the witnesses does for one composite number. -/
private noncomputable def upd (st : Int × List (Int × Int)) (n : Nat) : Int × List (Int × Int) :=
  if st.1 < leastWitness n then ((leastWitness n : Int), st.2 ++ [((n : Int), (leastWitness n : Int))]) else st

private theorem witnessLoop_range (c : Int) (st : Int × List (Int × Int)) (f : Nat → Int) (j : Nat)
    (hj : rabinMiller c (f j) = .ok 0) (m : Nat) : ∀ i, i ≤ j → j < i + m → (∀ a, i ≤ a → a < j → rabinMiller c (f a) = .ok 1) →
    witnessLoop c st ((List.range' i m).map f) = .ok (if st.1 < f j then (f j, st.2 ++ [(c, f j)]) else st) := by
  induction m with
  | zero => intro i h1 h2; omega
  | succ m ih =>
    intro i h1 h2 h3
    rw [List.range'_succ, List.map_cons, witnessLoop]
    rcases Nat.eq_or_lt_of_le h1 with rfl | h4
    · rw [hj]; rfl
    · rw [h3 i le_rfl h4]
      have := ih (i + 1) h4 (by omega) (fun a ha hb => h3 a (by omega) hb)
      rw [← this]
      rfl

private theorem witnessLoop_eq (k n : Nat) (st : Int × List (Int × Int)) (h : OddComposite n) (hk : n < Nat.nth Nat.Prime k) :
    witnessLoop n st (firstPrimes k) = .ok (upd st n) := by
  obtain ⟨h1, h2, h3, h4⟩ := lw_spec h
  have hn : Nat.nth Nat.Prime (Nat.count Nat.Prime (leastWitness n)) = leastWitness n := Nat.nth_count h1
  have hmono : StrictMono (Nat.nth Nat.Prime) := Nat.nth_strictMono Nat.infinite_setOfPred_prime
  have hj : Nat.count Nat.Prime (leastWitness n) < k := by
    rw [← hmono.lt_iff_lt, hn]; omega
  have hn3 : 3 ≤ n := by have := h.1; have := h.2.1; omega
  have h2' : rabinMiller n ((leastWitness n : Nat) : Int) = .ok 0 := by
    have hr := (C69_range n (leastWitness n)).2 (by have := h1.two_le; omega)
    rcases hr with hr | hr
    · exact hr
    · exact absurd ((C69_strong_probable_prime n hn3 h.1 _ (by have := h1.two_le; omega) (by omega)).mp hr) h2
  have := witnessLoop_range n st (fun i => ((Nat.nth Nat.Prime i : Nat) : Int)) _ (by rw [hn]; exact h2') k 0
    (Nat.zero_le _) (by omega) (fun a _ ha => by
      have hlt : Nat.nth Nat.Prime a < leastWitness n := by rw [← hn]; exact hmono ha
      have hp : (Nat.nth Nat.Prime a).Prime := Nat.prime_nth_prime a
      exact (C69_strong_probable_prime n hn3 h.1 _ (by have := hp.two_le; omega) (by omega)).mpr (h4 _ hp hlt))
  rw [hn] at this
  rw [firstPrimes, List.range_eq_range', this, upd]

/-- The state after all odd composite numbers below `N`. -/
private def Inv (st : Int × List (Int × Int)) (N : Nat) : Prop :=
  st.2 = records N ∧ 2 ≤ st.1 ∧ (∀ m < N, OddComposite m → (leastWitness m : Int) ≤ st.1) ∧
    (st.1 = 2 ∨ ∃ m < N, OddComposite m ∧ (leastWitness m : Int) = st.1)

private theorem inv_other {st : Int × List (Int × Int)} {N : Nat} (h : Inv st N) (hN : ¬ OddComposite N) : Inv st (N + 1) := by
  obtain ⟨h1, h2, h3, h4⟩ := h
  refine ⟨?_, h2, fun m hm ho => ?_, ?_⟩
  · rw [h1, records_succ_neg fun h => hN h.1]
  · rcases Nat.lt_succ_iff_lt_or_eq.mp hm with hm | rfl
    · exact h3 m hm ho
    · exact absurd ho hN
  · rcases h4 with h4 | ⟨m, hm, h5⟩
    · exact Or.inl h4
    · exact Or.inr ⟨m, by omega, h5⟩

private theorem inv_step {st : Int × List (Int × Int)} {N : Nat} (h : Inv st N) (hN : OddComposite N) :
    Inv (upd st N) (N + 1) := by
  obtain ⟨h1, h2, h3, h4⟩ := h
  have hrec : (2 < leastWitness N ∧ ∀ m < N, OddComposite m → leastWitness m < leastWitness N) ↔
      st.1 < leastWitness N := by
    constructor
    · rintro ⟨h5, h6⟩
      rcases h4 with h4 | ⟨m, hm, ho, h7⟩
      · omega
      · have := h6 m hm ho; omega
    · intro h5
      refine ⟨by omega, fun m hm ho => ?_⟩
      have := h3 m hm ho
      omega
  have hsplit : records (N + 1) = records N ++
      if st.1 < leastWitness N then [((N : Int), (leastWitness N : Int))] else [] := by
    split
    · next h => exact records_succ_pos ⟨hN, hrec.mpr h⟩
    · next h => rw [List.append_nil, records_succ_neg fun hr => h (hrec.mp hr.2)]
  unfold upd
  by_cases hlt : st.1 < leastWitness N
  · rw [if_pos hlt] at hsplit ⊢
    refine ⟨by rw [hsplit, h1], by simp only; omega, fun m hm ho => ?_, Or.inr ⟨N, by omega, hN, rfl⟩⟩
    rcases Nat.lt_succ_iff_lt_or_eq.mp hm with hm | rfl
    · have := h3 m hm ho; simp only; omega
    · exact le_rfl
  · rw [if_neg hlt] at hsplit ⊢
    refine ⟨by rw [hsplit, h1, List.append_nil], h2, fun m hm ho => ?_, ?_⟩
    · rcases Nat.lt_succ_iff_lt_or_eq.mp hm with hm | rfl
      · exact h3 m hm ho
      · omega
    · rcases h4 with h4 | ⟨m, hm, h5⟩
      · exact Or.inl h4
      · exact Or.inr ⟨m, by omega, h5⟩

private theorem composites (k a : Nat) (c : Nat) : ∀ (b : Nat) (st : Int × List (Int × Int)), Inv st (a + 2 + 2 * b) →
    (∀ i < c, OddComposite (a + 2 + 2 * (b + i)) ∧ a + 2 + 2 * (b + i) < Nat.nth Nat.Prime k) →
    ∃ st', ((List.range' b c).map fun i : Nat => (a : Int) + 2 + 2 * i).foldlM
      (fun st composite => witnessLoop composite st (firstPrimes k)) st = (.ok st' : Py _) ∧ Inv st' (a + 2 + 2 * (b + c)) := by
  induction c with
  | zero => intro b st h _; exact ⟨st, rfl, h⟩
  | succ c ih =>
    intro b st h hc
    obtain ⟨h1, h2⟩ := hc 0 (by omega)
    rw [add_zero] at h1 h2
    have h3 := inv_step h h1
    have h4 : Inv (upd st (a + 2 + 2 * b)) (a + 2 + 2 * (b + 1)) :=
      inv_other (N := a + 2 + 2 * b + 1) h3 fun ho => by have := ho.1; have := h1.1; omega
    obtain ⟨st', h5, h6⟩ := ih (b + 1) _ h4 (fun i hi => by
      have := hc (i + 1) (by omega)
      rwa [show b + (i + 1) = b + 1 + i by omega] at this)
    refine ⟨st', ?_, by rwa [show b + (c + 1) = b + 1 + c by omega]⟩
    rw [List.range'_succ, List.map_cons, List.foldlM_cons]
    have e : (a : Int) + 2 + 2 * b = ((a + 2 + 2 * b : Nat) : Int) := by push_cast; ring
    rw [e, witnessLoop_eq k _ st h1 h2]
    exact h5

private theorem primeLoop_spec (k c : Nat) : ∀ (i : Nat) (st : Int × List (Int × Int)), 1 ≤ i → i + c ≤ k →
    Inv st (Nat.nth Nat.Prime i) →
    ∃ st', primeLoop (firstPrimes k) (Nat.nth Nat.Prime i : Nat) st
      ((List.range' (i + 1) c).map fun i => ((Nat.nth Nat.Prime i : Nat) : Int)) = .ok st' ∧
      Inv st' (Nat.nth Nat.Prime (i + c)) := by
  have hmono : StrictMono (Nat.nth Nat.Prime) := Nat.nth_strictMono Nat.infinite_setOfPred_prime
  have hodd : ∀ i, 1 ≤ i → Nat.nth Nat.Prime i % 2 = 1 := by
    intro i hi
    rcases (Nat.prime_nth_prime i).eq_two_or_odd with h | h
    · have := hmono (show 0 < i by omega)
      rw [Nat.nth_prime_zero_eq_two] at this
      omega
    · exact h
  induction c with
  | zero => intro i st _ _ h; exact ⟨st, rfl, h⟩
  | succ c ih =>
    intro i st hi hk h
    rw [List.range'_succ, List.map_cons, primeLoop, compositeLoop, List.range_eq_range']
    have hlt := hmono (show i < i + 1 by omega)
    have hp := Nat.prime_nth_prime i
    have o1 := hodd i hi
    have o2 := hodd (i + 1) (by omega)
    have hbetween : ∀ q : Nat, q.Prime → q < Nat.nth Nat.Prime (i + 1) → q ≤ Nat.nth Nat.Prime i :=
      fun q hq hlt => Nat.le_nth_of_lt_nth_succ hlt hq
    have hle : Nat.nth Nat.Prime (i + 1) ≤ Nat.nth Nat.Prime k := hmono.monotone (by omega)
    generalize Nat.nth Nat.Prime i = a at *
    have h2 : Inv st (a + 2 + 2 * 0) :=
      inv_other (inv_other h fun ho => ho.2.2 hp) fun ho => by have := ho.1; omega
    have hlen : (((Nat.nth Nat.Prime (i + 1) : Nat) : Int) - a - 1) / 2 = ((Nat.nth Nat.Prime (i + 1) - a - 1) / 2 : Nat) := by
      omega
    rw [hlen, Int.toNat_natCast]
    obtain ⟨st1, h3, h4⟩ := composites k a ((Nat.nth Nat.Prime (i + 1) - a - 1) / 2) 0 st h2 (fun j hj => by
      have hlt' : a + 2 + 2 * (0 + j) < Nat.nth Nat.Prime (i + 1) := by omega
      refine ⟨⟨by omega, by omega, fun hq => ?_⟩, by omega⟩
      have := hbetween _ hq hlt'
      omega)
    have e : a + 2 + 2 * (0 + (Nat.nth Nat.Prime (i + 1) - a - 1) / 2) = Nat.nth Nat.Prime (i + 1) := by omega
    rw [e] at h4
    obtain ⟨st2, h5, h6⟩ := ih (i + 1) st1 (by omega) (by omega) h4
    refine ⟨st2, ?_, by rwa [show i + (c + 1) = i + 1 + c by omega]⟩
    rw [h3]
    exact h5

/-- C154: for a file with the first `k` primes, `k ≥ 2`, `test50K` prints the records and the last prime. -/
theorem C154_records (k : Nat) (hk : 2 ≤ k) :
    test50K (firstPrimes k) = .ok (records (Nat.nth Nat.Prime (k - 1)), ((Nat.nth Nat.Prime (k - 1) : Nat) : Int)) := by
  have hmono : StrictMono (Nat.nth Nat.Prime) := Nat.nth_strictMono Nat.infinite_setOfPred_prime
  have h3 : Nat.nth Nat.Prime 1 = 3 := Nat.nth_prime_one_eq_three
  have hno : ∀ m < 3, ¬ OddComposite m := by
    rintro m hm ⟨h1, h2, -⟩; omega
  have h0 : Inv (2, []) 3 := by
    refine ⟨?_, le_rfl, fun m hm ho => absurd ho (hno m hm), Or.inl rfl⟩
    rw [records_succ_neg fun h => hno 2 (by norm_num) h.1, records_succ_neg fun h => hno 1 (by norm_num) h.1,
      records_succ_neg fun h => hno 0 (by norm_num) h.1]
    rfl
  obtain ⟨st, h1, h2⟩ := primeLoop_spec k (k - 2) 1 (2, []) le_rfl (by omega) (by rw [h3]; exact h0)
  have hdrop : (firstPrimes k).drop 1 = 3 :: ((List.range' (1 + 1) (k - 2)).map fun i => ((Nat.nth Nat.Prime i : Nat) : Int)) := by
    obtain ⟨m, rfl⟩ : ∃ m, k = m + 2 := ⟨k - 2, by omega⟩
    rw [firstPrimes, List.range_eq_range', List.range'_succ, List.range'_succ, List.map_cons, List.map_cons, List.drop_succ_cons,
      List.drop_zero, zero_add, h3]
    rfl
  have hlast : ((firstPrimes k).drop 1).getLast? = some ((Nat.nth Nat.Prime (k - 1) : Nat) : Int) := by
    rw [List.getLast?_drop, if_neg (by rw [firstPrimes, List.length_map, List.length_range]; omega), firstPrimes,
      List.getLast?_map, List.getLast?_range, if_neg (by omega)]
    rfl
  have hc : compositeLoop (firstPrimes k) 2 3 (2, []) = .ok (2, []) := rfl
  rw [h3] at h1
  rw [test50K, hlast, hdrop, primeLoop, hc]
  change (primeLoop (firstPrimes k) 3 (2, []) _ >>= _) = _
  have h1' : primeLoop (firstPrimes k) 3 (2, [])
      ((List.range' (1 + 1) (k - 2)).map fun i => ((Nat.nth Nat.Prime i : Nat) : Int)) = .ok st := h1
  rw [h1']
  rw [show 1 + (k - 2) = k - 1 by omega] at h2
  change (.ok (st.2, _) : Py _) = _
  rw [h2.1]
/-- The hypothesis of `C154_records` for the shortest list; there is no odd composite number below 3. -/
example : test50K [2, 3] = .ok ([], 3) := by decide +kernel
/-- A list with a gap is not a list of the first primes: 7 is then taken for a composite number, no base below it is a
witness, and the base 11 is outside the range that `rabin_miller` accepts. -/
example : test50K [2, 3, 5, 11] = .error .assertion := by
  simp only [test50K, List.drop_succ_cons, List.drop_zero, primeLoop]
  decide +kernel

/-! ### The first records -/

/-- No odd composite number below 1373653 is a strong probable prime to both 2 and 3. -/
private theorem two_three {n : Nat} (ho : OddComposite n) (hB : n < 1373653) (s2 : StrongProbablePrime n (2 : Nat))
    (s3 : StrongProbablePrime n (3 : Nat)) : False := by
  obtain ⟨hodd, h1, hnp⟩ := ho
  have hp := Nat.minFac_prime (n := n) (by omega)
  have hsq := Nat.minFac_sq_le_self (by omega : 0 < n) hnp
  have hle : ∀ r : Nat, 2 ≤ r → r ∣ n → n.minFac ≤ r := fun r hr hd => Nat.minFac_le_of_dvd hr hd
  obtain ⟨m, hm⟩ := Nat.minFac_dvd n
  have hn3 : 3 ≤ n := by omega
  have h5 : 5 ≤ n.minFac := by
    by_contra hlt
    have hd := Nat.minFac_dvd n
    have h2 : n.minFac ≠ 2 := fun h => by rw [h] at hd; omega
    have h3 : n.minFac ≠ 3 := fun h => by
      have hn : 3 < n := by
        rcases Nat.lt_or_ge 3 n with h' | h'
        · exact h'
        · have : n = 3 := by omega
          rw [this] at hnp; exact absurd Nat.prime_three hnp
      have h4 := (C69_strong_probable_prime n hn3 hodd 3 (by norm_num) (by omega)).mpr s3
      rw [C69_shared_factor n 3 (by norm_num) (by omega) (by
        rw [show (3 : Int) = ((3 : Nat) : Int) from rfl, Int.gcd_natCast_natCast, Nat.gcd_eq_left (h ▸ hd)]; norm_num)] at h4
      injection h4 with h4
      omega
    have h4 : n.minFac ≠ 4 := fun h => by rw [h] at hp; exact absurd hp (by norm_num)
    have := hp.two_le
    omega
  generalize n.minFac = p at *
  have hp4 : p < 1173 := by nlinarith
  subst hm
  have hm2 : 2 ≤ m := by
    by_contra hlt
    have : m = 0 ∨ m = 1 := by omega
    rcases this with rfl | rfl
    · omega
    · rw [mul_one] at hnp; exact hnp hp
  have hpm := hle m hm2 (dvd_mul_left m p)
  have hok := PseudoScan.ptP_all p h5 hp4
  have hcond : (Nat.beq (Nat.gcd p PseudoScan.primorial173) 1 || PseudoScan.primes173.any fun q => Nat.beq q p) = true := by
    rw [Bool.or_eq_true, Nat.beq_eq, List.any_eq_true]
    by_cases h : p < 179
    · exact Or.inr ⟨p, PseudoScan.mem_primes173 hp h, by rw [Nat.beq_eq]⟩
    · left
      rw [← Nat.coprime_iff_gcd_eq_one, hp.coprime_iff_not_dvd, PseudoScan.prime_dvd_primorial hp]
      omega
  rw [PseudoScan.ptP, hcond] at hok
  simp only [Ecpp.force_eq, Bool.and_eq_true, Nat.ble_eq] at hok
  obtain ⟨⟨⟨ho, hord⟩, hk⟩, hscan⟩ := hok
  generalize PseudoScan.ordGuess p = o at *
  generalize Nat.div (Nat.pred p) o = k at *
  have hoo := PseudoScan.ordOk_spec (by omega) ho hord
  have hp2 : ¬ p ∣ 2 := fun h => by have := Nat.le_of_dvd (by norm_num) h; omega
  obtain ⟨c, hc'⟩ := order_dvd_cofactor hp (by omega) hodd (by omega) hp2 s2
  rw [hoo] at hc'
  have hmc : m = 1 + c * o := by rw [mul_comm]; omega
  have hkc : k ≤ c := by
    by_contra hlt
    have hck : c * o ≤ (k - 1) * o := Nat.mul_le_mul_right _ (by omega)
    rw [Bool.or_eq_true, Nat.beq_eq, Nat.blt_eq] at hk
    rcases hk with hk | hk <;> omega
  have hmk : m = 1 + k * o + (c - k) * o := by
    rw [hmc, add_assoc, ← Nat.add_mul]; congr 2; omega
  have hfin := PseudoScan.scan_spec _ _ _ p o ho 200000 _ hscan (c - k) (by rw [← hmk]; omega)
  rw [← hmk] at hfin
  rcases hfin with h | h | h
  · apply h
    rw [← Nat.coprime_iff_gcd_eq_one]
    refine Nat.Coprime.symm (Nat.coprime_of_dvd fun r hr h1 h2 => ?_)
    rw [PseudoScan.primesBelow, hr.prime.dvd_prod_iff] at h1
    obtain ⟨a, ha, hra⟩ := h1
    rw [List.mem_filter, Nat.blt_eq] at ha
    have h3 := hle r hr.two_le (h2.trans (dvd_mul_left m p))
    have h4 := Nat.le_of_dvd (PseudoScan.prime_of_mem ha.1).1.pos hra
    omega
  · exact fails2_not_strong (by omega) hodd h s2
  · rw [PseudoScan.fails23, Ecpp.force_eq, Bool.or_eq_true] at h
    rcases h with h | h
    · exact strongFails_not_strong (by omega) (by omega) h s2
    · exact strongFails_not_strong (by omega) (by omega) h s3

private theorem lw_eq {n q : Nat} (hq : q.Prime) (hs : ¬ StrongProbablePrime n (q : Nat))
    (hall : ∀ r : Nat, r.Prime → r < q → StrongProbablePrime n (r : Nat)) : leastWitness n = q := by
  refine le_antisymm (Nat.sInf_le ⟨hq, hs⟩) ?_
  by_contra hlt
  have hm := Nat.sInf_mem (⟨q, hq, hs⟩ : {q : Nat | q.Prime ∧ ¬ StrongProbablePrime n (q : Nat)}.Nonempty)
  exact hm.2 (hall _ hm.1 (not_le.mp hlt))

private theorem lw_le_three {n : Nat} (ho : OddComposite n) (hB : n < 1373653) : leastWitness n ≤ 3 := by
  obtain ⟨-, -, -, h4⟩ := lw_spec ho
  by_contra hlt
  exact two_three ho hB (h4 2 Nat.prime_two (by omega)) (h4 3 Nat.prime_three (by omega))

private theorem small_check : ((List.range 2047).all fun n => Nat.beq (n % 2) 0 || Nat.ble n 2 || trial 46 n ||
    PseudoScan.strongFails 2 n) = true := by decide +kernel

private theorem lw_small {n : Nat} (ho : OddComposite n) (hB : n < 2047) : leastWitness n = 2 := by
  have h := List.all_eq_true.mp small_check n (List.mem_range.mpr hB)
  obtain ⟨h1, h2, h3⟩ := ho
  rw [Bool.or_eq_true, Bool.or_eq_true, Bool.or_eq_true, Nat.beq_eq, Nat.ble_eq, trial_iff 46 n (by omega)] at h
  rcases h with ((h | h) | h) | h
  · omega
  · omega
  · exact absurd h h3
  · refine lw_eq Nat.prime_two (strongFails_not_strong (by omega) (by omega) h) fun r hr hlt => ?_
    have := hr.two_le
    omega

private theorem lw_2047 : leastWitness 2047 = 3 := by
  refine lw_eq Nat.prime_three (strongFails_not_strong (by norm_num) (by norm_num) (by decide +kernel)) fun r hr hlt => ?_
  have : r = 2 := by have := hr.two_le; omega
  subst this
  exact strongPass_spec (s := 1) (by norm_num) (by decide +kernel)

private theorem lw_1373653 : leastWitness 1373653 = 5 := by
  refine lw_eq Nat.prime_five (strongFails_not_strong (by norm_num) (by norm_num) (by decide +kernel)) fun r hr hlt => ?_
  have h4 : r ≠ 4 := fun h => by rw [h] at hr; exact absurd hr (by norm_num)
  have : r = 2 ∨ r = 3 := by have := hr.two_le; omega
  rcases this with rfl | rfl
  · exact strongPass_spec (s := 2) (by norm_num) (by decide +kernel)
  · exact strongPass_spec (s := 2) (by norm_num) (by decide +kernel)

private theorem composite_of_factor {n d : Nat} (hd : d ∣ n) (h1 : 1 < d) (h2 : d < n) : ¬ n.Prime := fun hp => by
  rcases (Nat.dvd_prime hp).mp hd with h | h <;> omega

private theorem oc_2047 : OddComposite 2047 :=
  ⟨rfl, by norm_num, composite_of_factor (d := 23) (by norm_num) (by norm_num) (by norm_num)⟩

private theorem isRecord_iff {n : Nat} (hB : n < 1373653) : IsRecord n ↔ n = 2047 := by
  constructor
  · rintro ⟨h1, h2, h3⟩
    rcases Nat.lt_trichotomy n 2047 with h | h | h
    · rw [lw_small h1 h] at h2; omega
    · exact h
    · have := h3 2047 h oc_2047
      rw [lw_2047] at this
      have := lw_le_three h1 hB
      omega
  · rintro rfl
    refine ⟨oc_2047, by rw [lw_2047]; norm_num, fun m hm ho => ?_⟩
    rw [lw_small ho hm, lw_2047]
    norm_num

private theorem records_small (N : Nat) (hN : N ≤ 1373653) : records N = if 2047 < N then [(2047, 3)] else [] := by
  induction N with
  | zero => rfl
  | succ N ih =>
    have ih := ih (by omega)
    by_cases h : N = 2047
    · rw [records_succ_pos ((isRecord_iff (by omega)).mpr h), ih, h, lw_2047]
      rfl
    · rw [records_succ_neg fun hr => h ((isRecord_iff (by omega)).mp hr), ih]
      split <;> split <;> first | rfl | omega

/-- C154: up to the prime 1373653 exactly one line is printed, that 2047 needs the witness 3, once 2047 is among the tested
numbers. -/
theorem C154_two_three (k : Nat) (hk : 2 ≤ k) (hB : Nat.nth Nat.Prime (k - 1) ≤ 1373653) :
    test50K (firstPrimes k) = .ok (if 2047 < Nat.nth Nat.Prime (k - 1) then [(2047, 3)] else [],
      ((Nat.nth Nat.Prime (k - 1) : Nat) : Int)) := by
  rw [C154_records k hk, records_small _ hB]
/-- The hypotheses of `C154_two_three` with both results: the prime 2039 before and the prime 2053 after 2047. -/
example : (2 ≤ Nat.count Nat.Prime 2039 + 1 ∧ Nat.nth Nat.Prime (Nat.count Nat.Prime 2039 + 1 - 1) = 2039) ∧
    2 ≤ Nat.count Nat.Prime 2053 + 1 ∧ Nat.nth Nat.Prime (Nat.count Nat.Prime 2053 + 1 - 1) = 2053 := by
  have h : ∀ n, 3 ≤ n → 1 ≤ Nat.count Nat.Prime n := fun n hn =>
    (Nat.count_monotone Nat.Prime hn).trans' (by decide)
  refine ⟨⟨?_, ?_⟩, ?_, ?_⟩
  · have := h 2039 (by norm_num); omega
  · rw [Nat.add_sub_cancel, Nat.nth_count (by norm_num)]
  · have := h 2053 (by norm_num); omega
  · rw [Nat.add_sub_cancel, Nat.nth_count (by norm_num)]

/-- C154: with the first 50000 primes the test prints `2047 3` and the last tested prime 611953. -/
theorem C154_50000 : test50K (firstPrimes 50000) = .ok ([(2047, 3)], 611953) := by
  have hp : Nat.Prime 611953 := by norm_num
  have h := Nat.nth_count hp
  rw [PrimeCount.count_611953] at h
  rw [C154_two_three 50000 (by norm_num) (by rw [show 50000 - 1 = 49999 from rfl, h]; norm_num),
    show 50000 - 1 = 49999 from rfl, h]
  rfl

/-- C154: with a longer list the next line printed is that 1373653 needs the witness 5. -/
theorem C154_five (k : Nat) (hk : 2 ≤ k) (hB : 1373653 < Nat.nth Nat.Prime (k - 1)) :
    ∃ rest, test50K (firstPrimes k) = .ok ((2047, 3) :: (1373653, 5) :: rest, ((Nat.nth Nat.Prime (k - 1) : Nat) : Int)) := by
  have h5 : IsRecord 1373653 := by
    refine ⟨⟨rfl, by norm_num, composite_of_factor (d := 829) (by norm_num) (by norm_num) (by norm_num)⟩, ?_, ?_⟩
    · rw [lw_1373653]; norm_num
    · intro m hm ho
      rw [lw_1373653]
      have := lw_le_three ho hm
      omega
  have key : ∀ d, ∃ rest, records (1373653 + 1 + d) = (2047, 3) :: (1373653, 5) :: rest := by
    intro d
    induction d with
    | zero => exact ⟨[], by rw [add_zero, records_succ_pos h5, records_small _ le_rfl, lw_1373653]; rfl⟩
    | succ d ih =>
      obtain ⟨rest, ih⟩ := ih
      rw [← add_assoc]
      by_cases hr : IsRecord (1373653 + 1 + d)
      · exact ⟨_, by rw [records_succ_pos hr, ih]; rfl⟩
      · exact ⟨rest, by rw [records_succ_neg hr, ih]⟩
  obtain ⟨rest, hrest⟩ := key (Nat.nth Nat.Prime (k - 1) - 1373654)
  rw [show 1373653 + 1 + (Nat.nth Nat.Prime (k - 1) - 1373654) = Nat.nth Nat.Prime (k - 1) by omega] at hrest
  exact ⟨rest, by rw [C154_records k hk, hrest]⟩
/-- The hypotheses of `C154_five` for the list up to the prime 1373677. -/
example : 2 ≤ Nat.count Nat.Prime 1373677 + 1 ∧ 1373653 < Nat.nth Nat.Prime (Nat.count Nat.Prime 1373677 + 1 - 1) := by
  have hp : Nat.Prime 1373677 := by norm_num
  have h : Nat.count Nat.Prime 3 ≤ Nat.count Nat.Prime 1373677 := Nat.count_monotone Nat.Prime (by norm_num)
  have h3 : Nat.count Nat.Prime 3 = 1 := by decide
  refine ⟨by omega, ?_⟩
  rw [Nat.add_sub_cancel, Nat.nth_count hp]
  norm_num

/-- C154: with fewer than two numbers in the file the test ends with a NameError. -/
theorem C154_too_short (primes : List Int) (h : primes.length < 2) : test50K primes = .error .name := by
  match primes, h with
  | [], _ => rfl
  | [_], _ => rfl
example : test50K [2] = .error .name := rfl

/-! ### The tests of known numbers -/

private theorem base_cases {n : Nat} (hn : 205 < n) (a : Int) (ha : a ∈ testBases) :
    rabinMiller n a = .ok 0 ∨ rabinMiller n a = .ok 1 := by
  refine (C69_range n a).2 ?_
  simp only [testBases, List.mem_cons, List.not_mem_nil, or_false] at ha
  omega

private theorem reject {n : Nat} (hn : 205 < n) (hB : n < 1373653) (hc : ¬ n.Prime) :
    ∃ a ∈ testBases, rabinMiller n a = .ok 0 := by
  by_cases he : n % 2 = 0
  · refine ⟨2, by decide, C69_shared_factor n 2 (by norm_num) (by omega) ?_⟩
    rw [show (2 : Int) = ((2 : Nat) : Int) from rfl, Int.gcd_natCast_natCast,
      Nat.gcd_eq_left (Nat.dvd_of_mod_eq_zero he)]
    norm_num
  · have hodd : n % 2 = 1 := by omega
    by_contra hno
    have hall : ∀ a ∈ testBases, rabinMiller n a = .ok 1 := fun a ha => by
      rcases base_cases hn a ha with h | h
      · exact absurd ⟨a, ha, h⟩ hno
      · exact h
    exact two_three ⟨hodd, by omega, hc⟩ hB
      ((C69_strong_probable_prime n (by omega) hodd 2 (by norm_num) (by omega)).mp (hall 2 (by decide)))
      ((C69_strong_probable_prime n (by omega) hodd 3 (by norm_num) (by omega)).mp (hall 3 (by decide)))

private theorem forM_ok {α : Type} (f : α → Py Unit) (l : List α) (hf : ∀ x ∈ l, f x = .ok () ∨ f x = .error .assertion) :
    (l.forM f = .ok () ↔ ∀ x ∈ l, f x = .ok ()) ∧ (l.forM f = .error .assertion ↔ ¬ ∀ x ∈ l, f x = .ok ()) := by
  induction l with
  | nil =>
    refine ⟨iff_of_true rfl (by simp), iff_of_false (fun h => by cases h) (by simp)⟩
  | cons x l ih =>
    have ih := ih fun y hy => hf y (List.mem_cons_of_mem _ hy)
    rw [show (x :: l).forM f = (f x >>= fun _ => l.forM f) from rfl, List.forall_mem_cons]
    rcases hf x List.mem_cons_self with h | h
    · rw [h]
      simp only [true_and]
      exact ih
    · rw [h]
      refine ⟨iff_of_false (fun h => by cases h) (fun h => by cases h.1), iff_of_true rfl (fun h => by cases h.1)⟩

/-- C154: for numbers from 206 to 1373652 `testKnowPrimes` succeeds exactly for lists of primes; otherwise it ends with an
AssertionError. -/
theorem C154_known_primes (l : List Nat) (h : ∀ n ∈ l, 205 < n ∧ n < 1373653) :
    testKnowPrimes (l.map fun n : Nat => (n : Int)) = if ∀ n ∈ l, n.Prime then .ok () else .error .assertion := by
  have hbase : ∀ n : Nat, 205 < n → ∀ a ∈ testBases,
      ((do let r ← rabinMiller n a; if r = 0 then .error .assertion else .ok () : Py Unit) = .ok () ∧
        rabinMiller n a = .ok 1) ∨
      ((do let r ← rabinMiller n a; if r = 0 then .error .assertion else .ok () : Py Unit) = .error .assertion ∧
        rabinMiller n a = .ok 0) := by
    intro n hn a ha
    rcases base_cases hn a ha with h | h
    · rw [h]; exact Or.inr ⟨rfl, rfl⟩
    · rw [h]; exact Or.inl ⟨rfl, rfl⟩
  have hone : ∀ n : Nat, 205 < n → n < 1373653 →
      (testBases.forM (fun testNum => do
        let r ← rabinMiller n testNum
        if r = 0 then .error .assertion else .ok () : Int → Py Unit) = if n.Prime then .ok () else .error .assertion) := by
    intro n hn hB
    obtain ⟨h1, h2⟩ := forM_ok (fun testNum => do
        let r ← rabinMiller n testNum
        if r = 0 then .error .assertion else .ok () : Int → Py Unit) testBases (fun a ha => by
      rcases hbase n hn a ha with h | h
      · exact Or.inl h.1
      · exact Or.inr h.1)
    split
    · next hp =>
      refine h1.mpr fun a ha => ?_
      rcases hbase n hn a ha with h | h
      · exact h.1
      · have hr : 1 ≤ a ∧ a < n := by
          simp only [testBases, List.mem_cons, List.not_mem_nil, or_false] at ha
          omega
        have := C69_prime n hp a hr.1 hr.2
        rw [h.2] at this
        cases this
    · next hp =>
      refine h2.mpr fun hall => ?_
      obtain ⟨a, ha, h0⟩ := reject hn hB hp
      have := hall a ha
      rw [h0] at this
      cases this
  obtain ⟨h1, h2⟩ := forM_ok (fun prime => testBases.forM fun testNum => do
      let r ← rabinMiller prime testNum
      if r = 0 then .error .assertion else .ok () : Int → Py Unit) (l.map fun n : Nat => (n : Int)) (fun x hx => by
    obtain ⟨n, hn, rfl⟩ := List.mem_map.mp hx
    rw [hone n (h n hn).1 (h n hn).2]
    split
    · exact Or.inl rfl
    · exact Or.inr rfl)
  have hiff : (∀ x ∈ l.map fun n : Nat => (n : Int), (testBases.forM fun testNum => do
      let r ← rabinMiller x testNum
      if r = 0 then .error .assertion else .ok () : Py Unit) = .ok ()) ↔ ∀ n ∈ l, n.Prime := by
    constructor
    · intro hx n hn
      have := hx n (List.mem_map_of_mem hn)
      rw [hone n (h n hn).1 (h n hn).2] at this
      by_contra hp
      rw [if_neg hp] at this
      cases this
    · intro hp x hx
      obtain ⟨n, hn, rfl⟩ := List.mem_map.mp hx
      rw [hone n (h n hn).1 (h n hn).2, if_pos (hp n hn)]
  rw [hiff] at h1 h2
  rw [testKnowPrimes]
  split
  · next hp => exact h1.mpr hp
  · next hp => exact h2.mpr hp
/-- Cases of `C154_known_primes`, and a prime below 205, where a base is out of range. -/
example : testKnowPrimes [1009, 611953] = .ok () ∧ testKnowPrimes [1009, 2047] = .error .assertion := by decide +kernel
example : testKnowPrimes [199] = .error .assertion := by decide +kernel

private theorem witness_foldl (n : Int) (l : List Int) (h : ∀ a ∈ l, rabinMiller n a = .ok 0 ∨ rabinMiller n a = .ok 1) :
    ∀ w : Int, ∃ v, (l.foldlM (fun witness testNum => do
      let r ← rabinMiller n testNum
      .ok (if r = 0 then 0 else witness)) w : Py Int) = .ok v ∧
      (v = 0 ↔ w = 0 ∨ ∃ a ∈ l, rabinMiller n a = .ok 0) := by
  induction l with
  | nil => intro w; exact ⟨w, rfl, by simp⟩
  | cons a l ih =>
    intro w
    have ih := ih fun b hb => h b (List.mem_cons_of_mem _ hb)
    rw [List.foldlM_cons]
    rcases h a List.mem_cons_self with h0 | h0
    · obtain ⟨v, h1, h2⟩ := ih 0
      refine ⟨v, by rw [h0]; exact h1, iff_of_true (h2.mpr (Or.inl rfl)) (Or.inr ⟨a, List.mem_cons_self, h0⟩)⟩
    · obtain ⟨v, h1, h2⟩ := ih w
      refine ⟨v, by rw [h0]; exact h1, h2.trans (or_congr Iff.rfl ?_)⟩
      rw [List.exists_mem_cons_iff]
      simp [h0]

/-- C154: for numbers from 206 to 1373652 `testKnowComposites` succeeds exactly for lists without a prime; otherwise it ends
with an AssertionError. -/
theorem C154_known_composites (l : List Nat) (h : ∀ n ∈ l, 205 < n ∧ n < 1373653) :
    testKnowComposites (l.map fun n : Nat => (n : Int)) = if ∀ n ∈ l, ¬ n.Prime then .ok () else .error .assertion := by
  have hone : ∀ n : Nat, 205 < n → n < 1373653 → ((do
      let witness ← witnessAfter n
      if witness ≠ 0 then .error .assertion else .ok () : Py Unit) = if n.Prime then .error .assertion else .ok ()) := by
    intro n hn hB
    obtain ⟨v, h1, h2⟩ := witness_foldl n testBases (fun a ha => base_cases hn a ha) 1
    have h1 : witnessAfter n = .ok v := h1
    rw [h1]
    have h3 : v = 0 ↔ ¬ n.Prime := by
      rw [h2]
      constructor
      · rintro (h | ⟨a, ha, h0⟩) hp
        · omega
        · have hr : 1 ≤ a ∧ a < n := by
            simp only [testBases, List.mem_cons, List.not_mem_nil, or_false] at ha
            omega
          have := C69_prime n hp a hr.1 hr.2
          rw [h0] at this
          cases this
      · intro hp
        exact Or.inr (reject hn hB hp)
    change (if v ≠ 0 then _ else _) = _
    by_cases hp : n.Prime
    · rw [if_pos hp, if_pos (fun hv => h3.mp hv hp)]
    · rw [if_neg hp, if_neg (not_not.mpr (h3.mpr hp))]
  obtain ⟨h1, h2⟩ := forM_ok (fun nonPrime => do
      let witness ← witnessAfter nonPrime
      if witness ≠ 0 then .error .assertion else .ok () : Int → Py Unit) (l.map fun n : Nat => (n : Int)) (fun x hx => by
    obtain ⟨n, hn, rfl⟩ := List.mem_map.mp hx
    rw [hone n (h n hn).1 (h n hn).2]
    split
    · exact Or.inr rfl
    · exact Or.inl rfl)
  have hiff : (∀ x ∈ l.map fun n : Nat => (n : Int), (do
      let witness ← witnessAfter x
      if witness ≠ 0 then .error .assertion else .ok () : Py Unit) = .ok ()) ↔ ∀ n ∈ l, ¬ n.Prime := by
    constructor
    · intro hx n hn hp
      have := hx n (List.mem_map_of_mem hn)
      rw [hone n (h n hn).1 (h n hn).2, if_pos hp] at this
      cases this
    · intro hp x hx
      obtain ⟨n, hn, rfl⟩ := List.mem_map.mp hx
      rw [hone n (h n hn).1 (h n hn).2, if_neg (hp n hn)]
  rw [hiff] at h1 h2
  rw [testKnowComposites]
  split
  · next hp => exact h1.mpr hp
  · next hp => exact h2.mpr hp
/-- Cases of `C154_known_composites`, and a composite number below 205, where a base is out of range. -/
example : testKnowComposites [206, 2047, 611695] = .ok () ∧ testKnowComposites [2047, 1009] = .error .assertion := by
  decide +kernel
example : testKnowComposites [15] = .error .assertion := by decide +kernel

/-- C154: both tests succeed on the lists in the file. -/
theorem C154_shipped : testKnowPrimes knownPrimes = .ok () ∧ testKnowComposites knownComposites = .ok () := by
  have e1 : knownPrimes = (knownPrimes.map Int.toNat).map fun n : Nat => (n : Int) := by decide
  have e2 : knownComposites = (knownComposites.map Int.toNat).map fun n : Nat => (n : Int) := by decide
  constructor
  · rw [e1, C154_known_primes _ (by decide), if_pos]
    have h : ((knownPrimes.map Int.toNat).all fun n => trial 783 n) = true := by decide +kernel
    intro n hn
    have hlt : n < 783 * 783 := by
      have : ∀ n ∈ knownPrimes.map Int.toNat, n < 783 * 783 := by decide
      exact this n hn
    exact (trial_iff 783 n hlt).mp (List.all_eq_true.mp h n hn)
  · rw [e2, C154_known_composites _ (by decide), if_pos]
    have h : ((knownComposites.map Int.toNat).all fun n => !(trial 783 n)) = true := by decide +kernel
    intro n hn hp
    have hlt : n < 783 * 783 := by
      have : ∀ n ∈ knownComposites.map Int.toNat, n < 783 * 783 := by decide
      exact this n hn
    have := List.all_eq_true.mp h n hn
    rw [(trial_iff 783 n hlt).mpr hp] at this
    cases this

end Cryptopy
