import Verif.Lemmas.StrongLiars
import Verif.Props.Arith
import Mathlib.Data.Set.Card

/-!
Properties C102 and C103, and the exact criteria for C65, C69 and C70: which bases the tests of
`fmath/prime.py` and `ecc/numbertheory.py` accept, and how many there are.
-/

namespace Cryptopy
open Model

/-- `n` is a strong probable prime to the base `a`: with `n - 1 = 2^s * t`, `t` odd, either `a^t` is 1 or
some `a^(2^j * t)` with `j < s` is -1, modulo `n`. -/
def StrongProbablePrime (n : Nat) (a : Int) : Prop :=
  ∃ s t : Nat, n - 1 = 2 ^ s * t ∧ t % 2 = 1 ∧
    (a ^ t ≡ 1 [ZMOD n] ∨ ∃ j < s, a ^ (2 ^ j * t) ≡ -1 [ZMOD n])

private theorem liar_iff_modEq (n s t : Nat) (a : Int) :
    Liar n s t (a : ZMod n) ↔ (a ^ t ≡ 1 [ZMOD n] ∨ ∃ j < s, a ^ (2 ^ j * t) ≡ -1 [ZMOD n]) := by
  simp only [Liar, ← ZMod.intCast_eq_intCast_iff]
  push_cast
  exact Iff.rfl

private theorem two_split_unique {s t s' t' : Nat} (h : 2 ^ s * t = 2 ^ s' * t') (ht : t % 2 = 1)
    (ht' : t' % 2 = 1) : s = s' ∧ t = t' := by
  have key : ∀ {s t s' t' : Nat}, 2 ^ s * t = 2 ^ s' * t' → t % 2 = 1 → t' % 2 = 1 → s' ≤ s := by
    intro s t s' t' h ht ht'
    by_contra hlt
    obtain ⟨d, rfl⟩ := Nat.exists_eq_add_of_lt (not_le.mp hlt)
    rw [pow_succ, pow_add, Nat.mul_assoc, Nat.mul_assoc] at h
    have := Nat.eq_of_mul_eq_mul_left (Nat.pow_pos (by norm_num)) h
    rw [Nat.mul_left_comm, ] at this
    omega
  have hs : s = s' := le_antisymm (key h.symm ht' ht) (key h ht ht')
  subst hs
  exact ⟨rfl, Nat.eq_of_mul_eq_mul_left (Nat.pow_pos (by norm_num)) h⟩

/-- The factors of `n - 1` in the model. -/
theorem split_nat (n : Nat) (hn : 3 ≤ n) (hodd : n % 2 = 1) :
    ∃ s t : Nat, splitTwo ((n : Int) - 1) 0 = ((t : Int), s) ∧ n - 1 = 2 ^ s * t ∧ t % 2 = 1 ∧ 0 < s := by
  obtain ⟨h1, h2⟩ := splitTwo_zero ((n : Int) - 1) (by omega)
  obtain ⟨h3, -⟩ := splitTwo_bounds ((n : Int) - 1) 0 (by omega)
  generalize splitTwo ((n : Int) - 1) 0 = se at *
  obtain ⟨r, s⟩ := se
  simp only at h1 h2 h3
  obtain ⟨t, rfl⟩ : ∃ t : Nat, r = t := ⟨r.toNat, by omega⟩
  have hts : n - 1 = 2 ^ s * t := by
    have : ((2 ^ s * t : Nat) : Int) = (n : Int) - 1 := by rw [h1]; push_cast; ring
    omega
  refine ⟨s, t, rfl, hts, by omega, ?_⟩
  rcases Nat.eq_zero_or_pos s with rfl | h
  · rw [pow_zero, one_mul] at hts; omega
  · exact h

/-- C69: for odd `n` and a base in range the answer is 1 exactly for strong probable primes to this base. -/
theorem C69_strong_probable_prime (n : Nat) (hn : 3 ≤ n) (hodd : n % 2 = 1) (a : Int) (h1 : 1 ≤ a) (h2 : a < n) :
    rabinMiller n a = .ok 1 ↔ StrongProbablePrime n a := by
  obtain ⟨s, t, hst, hnst, ht, hs⟩ := split_nat n hn hodd
  rw [rabinMiller, if_neg (by omega), hst]
  simp only
  have hr := millerRabinRound_iff n hn t s hs a
  rw [liar_iff_modEq] at hr
  constructor
  · intro h
    refine ⟨s, t, hnst, ht, hr.mp ?_⟩
    by_contra hc
    rw [if_neg hc] at h
    injection h with h
    omega
  · rintro ⟨s', t', e, ht', h⟩
    obtain ⟨rfl, rfl⟩ := two_split_unique (hnst.symm.trans e) ht ht'
    rw [if_pos (hr.mpr h)]

example : StrongProbablePrime 2047 2 :=
  (C69_strong_probable_prime 2047 (by norm_num) (by norm_num) 2 (by norm_num) (by norm_num)).mp
    (by decide +kernel)

/-- C69: for even `n` the answer is 1 exactly when `a^(n-1)` is 1 or -1 modulo `n`; the base `n - 1` always
passes. -/
theorem C69_even (n : Nat) (hn : 2 ≤ n) (heven : n % 2 = 0) (a : Int) (h1 : 1 ≤ a) (h2 : a < n) :
    (rabinMiller n a = .ok 1 ↔ a ^ (n - 1) ≡ 1 [ZMOD n] ∨ a ^ (n - 1) ≡ -1 [ZMOD n]) ∧
    rabinMiller n ((n : Int) - 1) = .ok 1 := by
  have hsp : splitTwo ((n : Int) - 1) 0 = ((n : Int) - 1, 0) := by
    rw [splitTwo, dif_neg (by omega)]
  have hiff : ∀ b : Int, 1 ≤ b → b < n →
      (rabinMiller n b = .ok 1 ↔ b ^ (n - 1) ≡ 1 [ZMOD n] ∨ b ^ (n - 1) ≡ -1 [ZMOD n]) := by
    intro b hb1 hb2
    rw [rabinMiller, if_neg (by omega), hsp]
    simp only
    have hnat : ((n : Int) - 1).toNat = n - 1 := by omega
    rw [millerRabinRound, hnat]
    have hy0 : 0 ≤ (b ^ (n - 1)).fmod (n : Int) := Int.fmod_nonneg_of_pos _ (by omega)
    have hy1 : (b ^ (n - 1)).fmod (n : Int) < n := Int.fmod_lt_of_pos _ (by omega)
    have e1 : b ^ (n - 1) ≡ 1 [ZMOD n] ↔ (b ^ (n - 1)).fmod (n : Int) = 1 := by
      rw [Int.ModEq, fmod_pos_eq _ (by omega), Int.emod_eq_of_lt (by omega) (by omega : (1 : Int) < n)]
    have e2 : b ^ (n - 1) ≡ -1 [ZMOD n] ↔ (b ^ (n - 1)).fmod (n : Int) = (n : Int) - 1 := by
      rw [Int.ModEq, fmod_pos_eq _ (by omega)]
      have : (-1 : Int) % n = n - 1 := by
        rw [← Int.add_emod_right, Int.emod_eq_of_lt (by omega) (by omega)]; ring
      rw [this]
    rw [e1, e2]
    generalize (b ^ (n - 1)).fmod (n : Int) = y
    by_cases hy : y ≠ 1 ∧ y ≠ (n : Int) - 1
    · rw [if_pos hy]
      simp [squareLoop, hy.1, hy.2]
    · rw [if_neg hy]
      simp only [if_true, true_iff]
      by_contra hc
      exact hy ⟨fun h => hc (.inl h), fun h => hc (.inr h)⟩
  refine ⟨hiff a h1 h2, (hiff _ (by omega) (by omega)).mpr (.inr ?_)⟩
  have ho : Odd (n - 1) := Nat.odd_iff.mpr (by omega)
  have h := Int.ModEq.pow (n - 1) (show (n : Int) - 1 ≡ -1 [ZMOD n] from by
    rw [Int.modEq_iff_dvd]; exact ⟨-1, by ring⟩)
  rwa [ho.neg_one_pow] at h

example : rabinMiller 4 3 = .ok 1 := (C69_even 4 (by norm_num) (by norm_num) 3 (by norm_num) (by norm_num)).2

private theorem ncard_le (n : Nat) [NeZero n] (P : Nat → Prop) (m : Nat)
    (h : ∀ T : Finset (ZMod n), (∀ z ∈ T, ∃ a : Nat, a < n ∧ P a ∧ z = a) → T.card ≤ m) :
    {a : Nat | 1 ≤ a ∧ a < n ∧ P a}.ncard ≤ m := by
  classical
  have hfin : {a : Nat | 1 ≤ a ∧ a < n ∧ P a}.Finite := (Set.finite_lt_nat n).subset fun a h => h.2.1
  have := h (hfin.toFinset.image fun a : Nat => (a : ZMod n)) (by
    intro z hz
    rw [Finset.mem_image] at hz
    obtain ⟨a, ha, rfl⟩ := hz
    rw [Set.Finite.mem_toFinset] at ha
    exact ⟨a, ha.2.1, ha.2.2, rfl⟩)
  rw [Finset.card_image_of_injOn (by
    intro a ha b hb hab
    rw [Finset.mem_coe, Set.Finite.mem_toFinset] at ha hb
    have := (ZMod.natCast_eq_natCast_iff' a b n).mp hab
    rwa [Nat.mod_eq_of_lt ha.2.1, Nat.mod_eq_of_lt hb.2.1] at this)] at this
  rwa [Set.ncard_eq_toFinset_card _ hfin]

/-- C102: for every odd composite `n` at most a quarter of the bases `1, …, n - 1` are accepted by
`rabin_miller`. -/
theorem C102_quarter (n : Nat) (hn : 2 ≤ n) (hodd : n % 2 = 1) (hc : ¬ n.Prime) :
    4 * {a : Nat | 1 ≤ a ∧ a < n ∧ rabinMiller n a = .ok 1}.ncard ≤ n - 1 := by
  have : NeZero n := ⟨by omega⟩
  have hn3 : 3 ≤ n := by omega
  obtain ⟨s, t, hst, hnst, ht, hs⟩ := split_nat n hn3 hodd
  have h := ncard_le n (fun a => 1 ≤ a ∧ rabinMiller n a = .ok 1) ((n - 1) / 4) (by
    intro T hT
    have := liars_quarter hodd (by omega) hc ht hnst.symm T (by
      intro z hz
      obtain ⟨a, han, ⟨ha1, ha⟩, rfl⟩ := hT z hz
      obtain ⟨s', t', e, ht', h⟩ := (C69_strong_probable_prime n hn3 hodd a (by omega) (by omega)).mp ha
      obtain ⟨rfl, rfl⟩ := two_split_unique (hnst.symm.trans e) ht ht'
      have := (liar_iff_modEq n s t (a : Int)).mpr h
      simpa using this)
    omega)
  have e : {a : Nat | 1 ≤ a ∧ a < n ∧ 1 ≤ a ∧ rabinMiller n a = .ok 1} =
      {a : Nat | 1 ≤ a ∧ a < n ∧ rabinMiller n a = .ok 1} := by
    ext a; simp only [Set.mem_ofPred_eq]; tauto
  rw [e] at h
  omega

-- The bound is attained: two of the eight bases pass for 9.
example : rabinMiller 9 1 = .ok 1 ∧ rabinMiller 9 8 = .ok 1 := by decide +kernel
example : 4 * {a : Nat | 1 ≤ a ∧ a < 561 ∧ rabinMiller (561 : Nat) a = .ok 1}.ncard ≤ 560 :=
  C102_quarter 561 (by norm_num) (by norm_num) (by norm_num)

/-- The number of bases of `is_prime` for a number of bits. -/
def primeRounds (bits : Int) : Nat :=
  if 1300 ≤ bits then 2 else if 850 ≤ bits then 3 else if 650 ≤ bits then 4 else if 550 ≤ bits then 5
  else if 450 ≤ bits then 6 else if 400 ≤ bits then 7 else if 350 ≤ bits then 8 else if 300 ≤ bits then 9
  else if 250 ≤ bits then 12 else if 200 ≤ bits then 15 else if 150 ≤ bits then 18
  else if 100 ≤ bits then 27 else 40

private theorem roundsFrom_cons (b k : Int) (tt t : Nat) (l : List (Int × Nat)) :
    roundsFrom b ((k, tt) :: l) t = if b < k then t else roundsFrom b l tt := rfl

private theorem roundsFrom_nil (b : Int) (t : Nat) : roundsFrom b [] t = t := rfl

theorem roundsFrom_eq (bits : Int) : roundsFrom bits roundTable 40 = primeRounds bits := by
  rw [roundTable]
  iterate 12 rw [roundsFrom_cons]
  rw [roundsFrom_nil, primeRounds]
  rcases lt_or_ge bits 100 with h0 | h0
  · rw [if_pos h0]
    iterate 12 rw [if_neg (by omega)]
  rcases lt_or_ge bits 150 with h1 | h1
  · iterate 1 rw [if_neg (by omega)]
    rw [if_pos h1]
    iterate 11 rw [if_neg (by omega)]
    rw [if_pos (by omega)]
  rcases lt_or_ge bits 200 with h2 | h2
  · iterate 2 rw [if_neg (by omega)]
    rw [if_pos h2]
    iterate 10 rw [if_neg (by omega)]
    rw [if_pos (by omega)]
  rcases lt_or_ge bits 250 with h3 | h3
  · iterate 3 rw [if_neg (by omega)]
    rw [if_pos h3]
    iterate 9 rw [if_neg (by omega)]
    rw [if_pos (by omega)]
  rcases lt_or_ge bits 300 with h4 | h4
  · iterate 4 rw [if_neg (by omega)]
    rw [if_pos h4]
    iterate 8 rw [if_neg (by omega)]
    rw [if_pos (by omega)]
  rcases lt_or_ge bits 350 with h5 | h5
  · iterate 5 rw [if_neg (by omega)]
    rw [if_pos h5]
    iterate 7 rw [if_neg (by omega)]
    rw [if_pos (by omega)]
  rcases lt_or_ge bits 400 with h6 | h6
  · iterate 6 rw [if_neg (by omega)]
    rw [if_pos h6]
    iterate 6 rw [if_neg (by omega)]
    rw [if_pos (by omega)]
  rcases lt_or_ge bits 450 with h7 | h7
  · iterate 7 rw [if_neg (by omega)]
    rw [if_pos h7]
    iterate 5 rw [if_neg (by omega)]
    rw [if_pos (by omega)]
  rcases lt_or_ge bits 550 with h8 | h8
  · iterate 8 rw [if_neg (by omega)]
    rw [if_pos h8]
    iterate 4 rw [if_neg (by omega)]
    rw [if_pos (by omega)]
  rcases lt_or_ge bits 650 with h9 | h9
  · iterate 9 rw [if_neg (by omega)]
    rw [if_pos h9]
    iterate 3 rw [if_neg (by omega)]
    rw [if_pos (by omega)]
  rcases lt_or_ge bits 850 with h10 | h10
  · iterate 10 rw [if_neg (by omega)]
    rw [if_pos h10]
    iterate 2 rw [if_neg (by omega)]
    rw [if_pos (by omega)]
  rcases lt_or_ge bits 1300 with h11 | h11
  · iterate 11 rw [if_neg (by omega)]
    rw [if_pos h11]
    iterate 1 rw [if_neg (by omega)]
    rw [if_pos (by omega)]
  iterate 12 rw [if_neg (by omega)]
  rw [if_pos (by omega)]

theorem smallprimes_nth (i : Nat) (hi : i < 40) : smallprimes.getD i 0 = (Nat.nth Nat.Prime i : Nat) := by
  have hcheck : ∀ i < 40, ∃ q < 175, smallprimes.getD i 0 = ((q : Nat) : Int) ∧ trial 14 q = true ∧
      (List.range q).countP (trial 14) = i := by decide +kernel
  obtain ⟨q, hq, h1, h2, h3⟩ := hcheck i hi
  rw [h1]
  congr 1
  have hc : Nat.count Nat.Prime q = i := by
    rw [← h3, Nat.count]
    apply List.countP_congr
    intro x hx
    rw [List.mem_range] at hx
    rw [trial_iff 14 x (by omega)]
    simp
  rw [← hc, Nat.nth_count ((trial_iff 14 q (by omega)).mp h2)]

/-- C65: above 1229 `is_prime` answers whether `n` has no factor 2, 3, 5, 7, 11 and is a strong probable
prime to the first few primes, their number depending on the float logarithm. -/
theorem C65_strong_probable_prime (log2 : Int → Int) (n : Nat) (hn : 1229 < n) :
    isPrime log2 n = true ↔
      Nat.Coprime n 2310 ∧ ∀ i < primeRounds (1 + log2 n), StrongProbablePrime n (Nat.nth Nat.Prime i) := by
  rw [isPrime, if_neg (by rw [lastSmallprime]; omega), roundsFrom_eq]
  have hg : gcd2 (n : Int) (2 * 3 * 5 * 7 * 11) = 1 ↔ Nat.Coprime n 2310 := by
    rw [gcd2_pos_eq _ _ (by omega), show (2 * 3 * 5 * 7 * 11 : Int) = ((2310 : Nat) : Int) from rfl,
      Int.gcd_natCast_natCast, Nat.Coprime]
    omega
  have hle : primeRounds (1 + log2 n) ≤ 40 := by rw [← roundsFrom_eq]; exact rounds_le _
  by_cases hc : Nat.Coprime n 2310
  · rw [if_neg (by rw [not_not]; exact hg.mpr hc)]
    have hodd : n % 2 = 1 := by
      have h2 : Nat.Coprime n 2 := Nat.Coprime.coprime_dvd_right (by norm_num) hc
      exact Nat.odd_iff.mp (Nat.coprime_two_right.mp h2)
    obtain ⟨s, t, hst, hnst, ht, hs⟩ := split_nat n (by omega) hodd
    rw [hst]
    simp only [List.all_eq_true, List.mem_range]
    rw [and_iff_right hc]
    refine forall₂_congr fun i hi => ?_
    obtain ⟨hb1, hb2⟩ := smallprimes_range i (by omega)
    rw [← smallprimes_nth i (by omega)]
    have h := C69_strong_probable_prime n (by omega) hodd (smallprimes.getD i 0) (by omega) (by omega)
    rw [← h, rabinMiller, if_neg (by omega), hst]
    simp only
    simp
  · rw [if_pos (fun h => hc (hg.mp h))]
    simp [hc]
example := C65_strong_probable_prime (fun _ => 12) 2047 (by decide)

/-! ### C70, C103: the Fermat test -/

/-- C70: for `n ≥ 2` the answer is 1 exactly when `a^(n-1)` is 1 modulo `n`. -/
theorem C70_fermat_iff (n : Nat) (hn : 2 ≤ n) (a : Int) :
    fermatLittleTest n a = .ok (if a ^ (n - 1) ≡ 1 [ZMOD n] then 1 else 0) := by
  rw [fermatLittleTest, pyPow_pos a (by omega) (by omega)]
  have he : ((n : Int) - 1).toNat = n - 1 := by omega
  rw [he]
  change Except.ok (if a ^ (n - 1) % (n : Int) = 1 then 1 else 0) = _
  have e : a ^ (n - 1) ≡ 1 [ZMOD n] ↔ a ^ (n - 1) % (n : Int) = 1 := by
    rw [Int.ModEq, Int.emod_eq_of_lt (by omega) (by omega : (1 : Int) < n)]
  simp only [e]
example := C70_fermat_iff 91 (by decide) 3

private theorem fermat_pass_iff (n : Nat) (hn : 2 ≤ n) (a : Int) :
    fermatLittleTest n a = .ok 1 ↔ (a : ZMod n) ^ (n - 1) = 1 := by
  have e : (a : ZMod n) ^ (n - 1) = 1 ↔ a ^ (n - 1) ≡ 1 [ZMOD n] := by
    rw [← ZMod.intCast_eq_intCast_iff]; push_cast; exact Iff.rfl
  rw [C70_fermat_iff n hn, e]
  by_cases h : a ^ (n - 1) ≡ 1 [ZMOD n]
  · simp [h]
  · simp [h]

private theorem exists_int (n : Nat) [NeZero n] (w : ZMod n) (hw : IsUnit w) :
    ∃ a : Int, (a : ZMod n) = w ∧ Int.gcd a n = 1 := by
  refine ⟨(w.val : Int), by simp, ?_⟩
  rw [Int.gcd_natCast_natCast]
  rw [← ZMod.natCast_zmod_val w, ZMod.isUnit_iff_coprime] at hw
  exact hw

/-- C103: the composite numbers that pass the Fermat test for all coprime bases are exactly those of
Korselt's criterion. -/
theorem C103_korselt (n : Nat) (hn : 2 ≤ n) :
    (∀ a : Int, Int.gcd a n = 1 → fermatLittleTest n a = .ok 1) ↔
      (Squarefree n ∧ ∀ q : Nat, q.Prime → q ∣ n → q - 1 ∣ n - 1) := by
  have : NeZero n := ⟨by omega⟩
  constructor
  · intro h
    have hall : ∀ w : ZMod n, IsUnit w → w ^ (n - 1) = 1 := by
      intro w hw
      obtain ⟨a, rfl, ha⟩ := exists_int n w hw
      exact (fermat_pass_iff n hn a).mp (h a ha)
    have hsq : ∀ q : Nat, q.Prime → ¬ q * q ∣ n := by
      intro q hq hqn
      obtain ⟨w, hw, hw1⟩ := exists_witness_square (by omega) q hq hqn
      exact hw1 (hall w hw)
    refine ⟨Nat.squarefree_iff_prime_squarefree.mpr hsq, ?_⟩
    intro q hq hqn
    obtain ⟨m, hm⟩ := hqn
    have hc : m.Coprime q := by
      rw [Nat.coprime_comm, Nat.Prime.coprime_iff_not_dvd hq]
      rintro ⟨l, rfl⟩
      exact hsq q hq ⟨l, by rw [hm]; ring⟩
    by_contra hnd
    obtain ⟨w, hw, hw1⟩ : ∃ w : ZMod n, IsUnit w ∧ w ^ (n - 1) ≠ 1 := by
      rw [hm, mul_comm q m]
      exact exists_witness_coprime m q hq hc (by rwa [hm, mul_comm q m] at hnd)
    exact hw1 (hall w hw)
  · rintro ⟨h1, h2⟩ a ha
    exact C70_fermat_carmichael n hn h1 h2 a ha

-- 561 = 3 * 11 * 17 passes, 91 = 7 * 13 does not.
example : ∀ a : Int, Int.gcd a (561 : Nat) = 1 → fermatLittleTest (561 : Nat) a = .ok 1 := C70_fermat_561
example : ¬ ∀ a : Int, Int.gcd a (91 : Nat) = 1 → fermatLittleTest (91 : Nat) a = .ok 1 := by
  rw [C103_korselt 91 (by norm_num)]
  rintro ⟨-, h⟩
  exact absurd (h 13 (by norm_num) (by norm_num)) (by norm_num)

/-- C103: if any coprime base fails, at most half of the bases `1, …, n - 1` pass. -/
theorem C103_half (n : Nat) (hn : 2 ≤ n) (b : Int) (hb : Int.gcd b n = 1) (hf : fermatLittleTest n b ≠ .ok 1) :
    2 * {a : Nat | 1 ≤ a ∧ a < n ∧ fermatLittleTest n a = .ok 1}.ncard ≤ n - 1 := by
  have : NeZero n := ⟨by omega⟩
  have hbu : IsUnit (b : ZMod n) := (ZMod.coe_int_isUnit_iff_isCoprime b n).mpr (by
    rw [isCoprime_comm]; exact Int.isCoprime_iff_gcd_eq_one.mpr hb)
  have hb1 : (b : ZMod n) ^ (n - 1) ≠ 1 := fun h => hf ((fermat_pass_iff n hn b).mpr h)
  have h := ncard_le n (fun a => fermatLittleTest n a = .ok 1) ((n - 1) / 2) (by
    intro T hT
    have hT' : ∀ z ∈ T, z ^ (n - 1) = 1 := by
      intro z hz
      obtain ⟨a, -, ha, rfl⟩ := hT z hz
      have := (fermat_pass_iff n hn a).mp ha
      simpa using this
    have hc := card_translates (ι := Bool) (by omega) T (fun k => if k then (b : ZMod n) else 1)
      (fun z hz => IsUnit.of_pow_eq_one (hT' z hz) (by omega))
      (by rintro (_ | _) <;> simp [hbu])
      (by
        intro z hz z' hz' k l heq
        have h := congrArg (· ^ (n - 1)) heq
        simp only [mul_pow, hT' z hz, hT' z' hz', one_mul] at h
        cases k <;> cases l <;> simp_all)
    rw [Fintype.card_bool] at hc
    omega)
  omega

example : 2 * {a : Nat | 1 ≤ a ∧ a < 91 ∧ fermatLittleTest (91 : Nat) a = .ok 1}.ncard ≤ 90 :=
  C103_half 91 (by norm_num) 2 (by decide +kernel) (by decide +kernel)

end Cryptopy
