import Verif.Lemmas.PseudoCheck
import Verif.Props.Arith
import Verif.Props.Primes

/-!
C144: which composite numbers `is_prime` certainly rejects and up to where it and `next_prime` are exact.
-/

namespace Cryptopy
open Model

/-! ### Multiples of the bases -/

private theorem not_strong {n q : Nat} (hq : 1 < q) (hqn : q ∣ n) :
    ¬ StrongProbablePrime n (q : Int) := by
  rintro ⟨s, t, h1, h2, h3⟩
  have hd : (q : Int) ∣ n := by exact_mod_cast hqn
  have ht : t ≠ 0 := by omega
  have key : ∀ e : Nat, e ≠ 0 → ∀ c : Int, (q : Int) ^ e ≡ c [ZMOD n] → (q : Int) ∣ c := by
    intro e he c h
    have h4 := (h.of_dvd hd)
    have h5 : (q : Int) ∣ (q : Int) ^ e := dvd_pow_self _ he
    exact (Int.ModEq.dvd_iff h4).mp h5
  rcases h3 with h3 | ⟨j, -, h3⟩
  · have h6 := Int.le_of_dvd (by norm_num) (key t ht _ h3)
    omega
  · have h6 := key _ (mul_ne_zero (by positivity) ht) _ h3
    rw [Int.dvd_neg] at h6
    have := Int.le_of_dvd (by norm_num) h6
    omega

/-- C144: a number above 1229 that is divisible by one of the primes used as bases is rejected. -/
theorem C144_base_multiple (log2 : Int → Int) (n : Nat) (hn : 1229 < n) (i : Nat) (hi : i < primeRounds (1 + log2 n))
    (hd : Nat.nth Nat.Prime i ∣ n) : isPrime log2 n = false := by
  rw [← Bool.not_eq_true, C65_strong_probable_prime log2 n hn]
  rintro ⟨-, h2⟩
  exact not_strong (Nat.nth_mem_of_infinite Nat.infinite_setOfPred_prime i).one_lt hd (h2 i hi)
example := C144_base_multiple (fun n => (Nat.log2 n.toNat : Nat)) 2048 (by decide) 0 (by decide +kernel)
  (by rw [Nat.nth_prime_zero_eq_two]; decide)

private theorem count_174 : Nat.count Nat.Prime 174 = 40 := by
  rw [Nat.count]
  have h : (List.range 174).countP (trial 14) = 40 := by decide +kernel
  rw [← h]
  apply List.countP_congr
  intro x hx
  rw [List.mem_range] at hx
  rw [trial_iff 14 x (by omega)]
  simp

/-- C144: for numbers of less than 100 bits every multiple of a prime up to 173 is rejected. -/
theorem C144_factor (log2 : Int → Int) (n : Nat) (hn : 1229 < n) (hb : log2 n < 99) (q : Nat) (hq : q.Prime) (hq' : q ≤ 173)
    (hd : q ∣ n) : isPrime log2 n = false := by
  have h40 : primeRounds (1 + log2 n) = 40 := by
    rw [primeRounds]
    iterate 12 rw [if_neg (by omega)]
  have hc : Nat.count Nat.Prime q < 40 := by
    rw [← count_174]
    exact Nat.count_strict_mono hq (by omega)
  refine C144_base_multiple log2 n hn (Nat.count Nat.Prime q) (by rw [h40]; exact hc) ?_
  rw [Nat.nth_count hq]
  exact hd
example := C144_factor (fun n => (Nat.log2 n.toNat : Nat)) (173 * 179) (by decide) (by decide +kernel) 173 (by norm_num) (by decide)
  (by decide)

/-! ### Composite numbers without small factors -/

private theorem euler_of_strong {n a : Nat} (hodd : n % 2 = 1) (hn : 3 ≤ n) (h : StrongProbablePrime n (a : Int)) :
    (a : Int) ^ ((n - 1) / 2) ≡ 1 [ZMOD n] ∨ (a : Int) ^ ((n - 1) / 2) ≡ -1 [ZMOD n] := by
  obtain ⟨s, t, h1, h2, h3⟩ := h
  obtain ⟨r, rfl⟩ : ∃ r, s = r + 1 := by
    cases s with
    | zero => rw [pow_zero, one_mul] at h1; omega
    | succ r => exact ⟨r, rfl⟩
  have e : (n - 1) / 2 = 2 ^ r * t := by
    rw [h1, pow_succ, mul_assoc, mul_comm 2 t, ← mul_assoc, Nat.mul_div_cancel _ (by norm_num)]
  rw [e]
  rcases h3 with h3 | ⟨j, hj, h3⟩
  · left
    rw [mul_comm, pow_mul]
    simpa using h3.pow (2 ^ r)
  · rcases Nat.lt_or_ge j r with h4 | h4
    · left
      obtain ⟨d, rfl⟩ : ∃ d, r = j + (d + 1) := ⟨r - j - 1, by omega⟩
      rw [pow_add, mul_assoc, mul_comm (2 ^ (d + 1)), ← mul_assoc, pow_mul]
      have := h3.pow (2 ^ (d + 1))
      rwa [Even.neg_one_pow (by rw [pow_succ]; exact even_two.mul_left _)] at this
    · right
      have : j = r := by omega
      rwa [this] at h3

private theorem mod_of_modEq {n : Nat} (hn : 3 ≤ n) (x : Nat) :
    ((x : Int) ≡ 1 [ZMOD n] → x % n = 1) ∧ ((x : Int) ≡ -1 [ZMOD n] → x % n = n - 1) := by
  constructor
  · intro h
    have h5 : x ≡ 1 [MOD n] := by rw [← Int.natCast_modEq_iff]; push_cast; exact h
    rw [Nat.ModEq, Nat.mod_eq_of_lt (by omega : 1 < n)] at h5
    exact h5
  · intro h
    have h5 : x ≡ n - 1 [MOD n] := by
      rw [← Int.natCast_modEq_iff, Nat.cast_sub (by omega)]
      refine h.trans ?_
      rw [Int.modEq_iff_dvd]
      exact ⟨1, by push_cast; ring⟩
    rw [Nat.ModEq, Nat.mod_eq_of_lt (by omega : n - 1 < n)] at h5
    exact h5

theorem fails2_not_strong {n : Nat} (hn : 3 ≤ n) (hodd : n % 2 = 1) (h : PseudoScan.fails2 n = true) :
    ¬ StrongProbablePrime n (2 : Nat) := by
  intro hs
  obtain ⟨h1, h2⟩ := PseudoScan.fails2_spec hn h
  have key := mod_of_modEq hn (2 ^ ((n - 1) / 2))
  push_cast at key
  rcases euler_of_strong hodd hn hs with h3 | h3
  · exact h1 (key.1 (by exact_mod_cast h3))
  · exact h2 (key.2 (by exact_mod_cast h3))

theorem strongFails_not_strong {a n : Nat} (hn : 3 ≤ n) (hn' : n < 2 ^ 30) (h : PseudoScan.strongFails a n = true) :
    ¬ StrongProbablePrime n (a : Nat) := by
  rintro ⟨s, t, h1, h2, h3⟩
  obtain ⟨h4, h5⟩ := PseudoScan.strongFails_spec hn hn' h s t h1 h2
  rcases h3 with h3 | ⟨j, hj, h3⟩
  · exact h4 ((mod_of_modEq hn (a ^ t)).1 (by exact_mod_cast h3))
  · exact h5 j hj ((mod_of_modEq hn (a ^ (2 ^ j * t))).2 (by exact_mod_cast h3))

/-- If `n = p m` is a strong probable prime to the base `g`, the order of `g` modulo the prime `p` divides `m - 1`. -/
theorem order_dvd_cofactor {p m g : Nat} (hp : p.Prime) (hm : 1 ≤ m) (hodd : (p * m) % 2 = 1) (hbig : 3 ≤ p * m)
    (hg : ¬ p ∣ g) (s : StrongProbablePrime (p * m) (g : Nat)) : orderOf (g : ZMod p) ∣ m - 1 := by
  have hf : (g : Int) ^ (p * m - 1) ≡ 1 [ZMOD (p * m : Nat)] := by
    have e : p * m - 1 = (p * m - 1) / 2 * 2 := by omega
    rw [e, pow_mul]
    rcases euler_of_strong hodd hbig s with h | h
    · exact (h.pow 2).trans (by norm_num)
    · exact (h.pow 2).trans (by norm_num)
  have : Fact p.Prime := ⟨hp⟩
  have hgp : (g : ZMod p) ≠ 0 := fun h => hg ((ZMod.natCast_eq_zero_iff _ _).mp h)
  rw [orderOf_dvd_iff_pow_eq_one]
  have h4 : (g : ZMod p) ^ (p * m - 1) = 1 := by
    have h5 : (g : Int) ^ (p * m - 1) ≡ 1 [ZMOD p] := hf.of_dvd (by push_cast; exact dvd_mul_right _ _)
    have h6 := (ZMod.intCast_eq_intCast_iff _ _ _).mpr h5
    push_cast at h6
    exact h6
  have e : p * m - 1 = (p - 1) * m + (m - 1) := by
    obtain ⟨r, rfl⟩ : ∃ r, p = r + 1 := ⟨p - 1, by have := hp.pos; omega⟩
    rw [Nat.add_sub_cancel, add_mul, one_mul]; omega
  rwa [e, pow_add, pow_mul, ZMod.pow_card_sub_one_eq_one hgp, one_pow, one_mul] at h4

/-- No composite number below `179^4` whose prime factors are all above 173 is a strong probable prime to all the
primes up to 173. -/
private theorem no_composite {p m : Nat} (hp : p.Prime) (h1 : 179 ≤ p) (h2 : p ≤ m) (h3 : p * m < 1026625681)
    (hm : Nat.gcd m PseudoScan.primorial173 = 1) (hodd : (p * m) % 2 = 1)
    (hs : ∀ a ∈ PseudoScan.primes173, StrongProbablePrime (p * m) (a : Nat)) : False := by
  have hpp : p * p < 1026625681 := lt_of_le_of_lt (Nat.mul_le_mul_left _ h2) h3
  have hp5 : p < 32041 := by nlinarith
  have hbig : 3 ≤ p * m := by nlinarith
  have hok := PseudoScan.checkP_all p h1 hp5
  have hcop : Nat.beq (Nat.gcd p PseudoScan.primorial173) 1 = true := by
    rw [Nat.beq_eq, ← Nat.coprime_iff_gcd_eq_one, hp.coprime_iff_not_dvd, PseudoScan.prime_dvd_primorial hp]
    omega
  rw [PseudoScan.checkP, hcop] at hok
  cases hany : PseudoScan.primes173.any fun g => PseudoScan.ordOk g p (Nat.pred p)
  · rw [hany] at hok; cases hok
  rw [hany] at hok
  have hok : PseudoScan.scan PseudoScan.failsMore 1026625681 PseudoScan.primorial173 p (p - 1) 40000 p = true := hok
  obtain ⟨g, hg, hord⟩ := List.any_eq_true.mp hany
  have hord : PseudoScan.ordOk g p (p - 1) = true := hord
  have ho := PseudoScan.ordOk_spec (by omega) (by omega) hord
  obtain ⟨hgp, hgl⟩ := PseudoScan.prime_of_mem hg
  have hpg : ¬ p ∣ g := fun h => by have := Nat.le_of_dvd hgp.pos h; omega
  obtain ⟨k, hk⟩ := order_dvd_cofactor hp (by omega) hodd hbig hpg (hs g hg)
  rw [ho] at hk
  have hk0 : k ≠ 0 := fun e => by rw [e, mul_zero] at hk; omega
  obtain ⟨j, rfl⟩ : ∃ j, k = j + 1 := ⟨k - 1, by omega⟩
  have hmk : m = p + j * (p - 1) := by
    have e : (p - 1) * (j + 1) = (p - 1) + j * (p - 1) := by ring
    omega
  have hfin := PseudoScan.scan_spec _ _ _ p (p - 1) (by omega) 40000 p hok j (by rw [← hmk]; exact h3)
  rw [← hmk] at hfin
  have hmem : ∀ a ∈ ([2, 3, 5, 7] : List Nat), a ∈ PseudoScan.primes173 := by decide
  rcases hfin with h | h | h
  · exact h hm
  · exact fails2_not_strong hbig hodd h (hs 2 (hmem 2 (by decide)))
  · have h30 : p * m < 2 ^ 30 := by omega
    rw [PseudoScan.failsMore, Ecpp.force_eq, Bool.or_eq_true, Bool.or_eq_true, Bool.or_eq_true] at h
    rcases h with ((h | h) | h) | h
    · exact strongFails_not_strong hbig h30 h (hs 2 (hmem 2 (by decide)))
    · exact strongFails_not_strong hbig h30 h (hs 3 (hmem 3 (by decide)))
    · exact strongFails_not_strong hbig h30 h (hs 5 (hmem 5 (by decide)))
    · exact strongFails_not_strong hbig h30 h (hs 7 (hmem 7 (by decide)))

/-- C144: below `179^4 = 1026625681` the answer is exact, provided the float logarithm is below 99 there. -/
theorem C144_exact (log2 : Int → Int) (n : Int) (hn : n < 179 ^ 4) (hb : log2 n < 99) :
    isPrime log2 n = true ↔ n.toNat.Prime := by
  by_cases hs : n ≤ 1229
  · exact C65_exact_small log2 n hs
  obtain ⟨m, rfl⟩ : ∃ m : Nat, n = m := ⟨n.toNat, by omega⟩
  rw [Int.toNat_natCast]
  refine ⟨fun h => ?_, C65_accepts_primes log2 m⟩
  by_contra hnp
  have hm : 1229 < m := by omega
  have hlim : m < 1026625681 := by norm_num at hn; omega
  have hp := Nat.minFac_prime (n := m) (by omega)
  have hsq := Nat.minFac_sq_le_self (by omega : 0 < m) hnp
  have hle : ∀ r : Nat, 2 ≤ r → r ∣ m → m.minFac ≤ r := fun r hr hd => Nat.minFac_le_of_dvd hr hd
  obtain ⟨q, hq⟩ := Nat.minFac_dvd m
  have hbig : 173 < m.minFac := by
    by_contra hle
    rw [C144_factor log2 m hm hb m.minFac hp (by omega) (Nat.minFac_dvd m)] at h
    cases h
  generalize m.minFac = p at *
  have hp179 : 179 ≤ p := by
    by_contra hlt
    have : p = 174 ∨ p = 175 ∨ p = 176 ∨ p = 177 ∨ p = 178 := by omega
    rcases this with rfl | rfl | rfl | rfl | rfl <;> norm_num at hp
  have hq2 : 2 ≤ q := by
    by_contra hlt
    have : q = 0 ∨ q = 1 := by omega
    rcases this with rfl | rfl
    · omega
    · rw [mul_one] at hq; rw [hq] at hnp; exact hnp hp
  have hpq := hle q hq2 (hq ▸ dvd_mul_left q p)
  have h40 : primeRounds (1 + log2 m) = 40 := by
    rw [primeRounds]
    iterate 12 rw [if_neg (by omega)]
  obtain ⟨hcop, hst⟩ := (C65_strong_probable_prime log2 m hm).mp h
  have hodd : m % 2 = 1 :=
    Nat.odd_iff.mp (Nat.coprime_two_right.mp (Nat.Coprime.coprime_dvd_right (by norm_num) hcop))
  rw [hq] at hodd hlim
  refine no_composite hp hp179 hpq hlim ?_ hodd fun a ha => ?_
  · rw [← Nat.coprime_iff_gcd_eq_one]
    refine Nat.Coprime.symm (Nat.coprime_of_dvd fun r hr h1 h2 => ?_)
    have h3 := hle r hr.two_le (h2.trans (hq ▸ dvd_mul_left q p))
    have h4 := (PseudoScan.prime_dvd_primorial hr).mp h1
    omega
  · obtain ⟨ha1, ha2⟩ := PseudoScan.prime_of_mem ha
    have hc : Nat.count Nat.Prime a < 40 := by
      rw [← count_174]
      exact Nat.count_strict_mono ha1 (by omega)
    have := hst (Nat.count Nat.Prime a) (by omega)
    rwa [Nat.nth_count ha1, hq] at this
example := C144_exact (fun n => (Nat.log2 n.toNat : Nat)) 1000001 (by decide) (by decide +kernel)

/-- C144: there `next_prime` returns the least prime above its argument. -/
theorem C144_next (log2 : Int → Int) (s : Int) (hs : s < 513312840) (hb : ∀ n < 179 ^ 4, log2 n < 99) :
    ∃ p : Nat, nextPrime log2 s = some (p : Int) ∧ IsLeast {q : Nat | q.Prime ∧ s < q} p := by
  obtain ⟨n, h1, h2, h3, h4, h5⟩ := C67_next_prime log2 s
  have hn : n < 179 ^ 4 ∧ 0 ≤ n := by
    by_cases h : s < 2
    · rw [h5 h]; norm_num
    · have := C67_bound log2 s (by omega) n h1
      norm_num; omega
  obtain ⟨p, rfl⟩ : ∃ p : Nat, n = p := ⟨n.toNat, by omega⟩
  have hp := (C144_exact log2 p hn.1 (hb p hn.1)).mp h3
  rw [Int.toNat_natCast] at hp
  exact ⟨p, h1, ⟨hp, h2⟩, fun q hq => by exact_mod_cast h4 q hq.1 hq.2⟩
example := C144_next (fun _ => 30) 513312839 (by decide) fun _ _ => by decide

/-- C144: below the limit every base that `factorization` returns is prime, and `phi` is Euler's function. -/
theorem C144_factorization (log2 : Int → Int) (n : Int) (h1 : 1 ≤ n) (hn : n < 179 ^ 4) (hb : ∀ n < 179 ^ 4, log2 n < 99) :
    ∃ l, factorization log2 n = some l ∧ (∀ f ∈ l, f.1.toNat.Prime) ∧ phi log2 n = some (n.toNat.totient : Int) := by
  obtain ⟨l, e, h2, h3, h4, h5, h6⟩ := C60_factorization log2 n h1
  have hall : ∀ f ∈ l, f.1.toNat.Prime := by
    intro f hf
    rcases List.eq_nil_or_concat l with rfl | ⟨l', g, rfl⟩
    · cases hf
    rw [List.concat_eq_append] at *
    rw [List.dropLast_concat] at h5
    rcases List.mem_append.mp hf with h | h
    · exact h5 f h
    · rw [List.mem_singleton] at h
      subst h
      rcases h6 f (by simp) with h | ⟨h7, h8, -⟩
      · exact h
      · refine (C144_exact log2 f.1 ?_ (hb _ ?_)).mp h8 <;>
        · refine lt_of_le_of_lt (Int.le_of_dvd (by omega) ?_) hn
          rw [← h4, List.map_append, List.prod_append, List.map_singleton, List.prod_singleton, h7, pow_one]
          exact dvd_mul_left _ _
  exact ⟨l, e, hall, C61_phi log2 n h1 l e hall⟩

/-- The logarithm used by the code, rounded in any way, satisfies the hypotheses. -/
example : ∀ n : Int, n < 179 ^ 4 → (fun n : Int => ((Nat.log2 n.toNat : Nat) : Int) + 1) n < 99 := by
  intro n hn
  have h1 : n.toNat < 2 ^ 30 := by norm_num at hn ⊢; omega
  have h2 : Nat.log2 n.toNat < 31 := by
    rcases Nat.eq_zero_or_pos n.toNat with h | h
    · rw [h]; decide
    · rw [Nat.log2_lt (by omega)]; omega
  simp only
  omega
/-- A strong pseudoprime to 2 and 3 that is a product of two primes, and a multiple of 173 without smaller factors. -/
example : 1373653 = 829 * 1657 ∧ ((1373653 : Int) < 179 ^ 4) ∧ 173 * 179 ∣ 30967 := by decide

end Cryptopy
