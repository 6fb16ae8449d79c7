import Verif.Props.Arith
import Verif.Lemmas.LiarCert

/-!
C156: when the errors of `is_prime` reach `factorization`, `phi`, `carmichael` and `next_prime`, and the number of C66 as an
example.
-/

namespace Cryptopy
open Model Spec

/-- The divisors of `n` without a prime factor up to 1229. -/
def roughDivisors (n : Nat) : Set Nat := {r | r ∣ n ∧ ∀ p : Nat, p.Prime → p ∣ r → 1229 < p}

private theorem prime_dvd_smooth {l : List (Int × Nat)} (h : FactorsBelow 1230 l) {p : Nat} (hp : p.Prime)
    (hd : p ∣ natProduct l) : p ≤ 1229 := by
  rw [natProduct, hp.prime.dvd_prod_iff] at hd
  obtain ⟨a, ha, hpa⟩ := hd
  obtain ⟨f, hf, rfl⟩ := List.mem_map.mp ha
  have h1 := h.1 f hf
  have h2 := hp.dvd_of_dvd_pow hpa
  have h3 := Nat.le_of_dvd h1.1.pos h2
  omega

private theorem rough_greatest {s q : Nat} (hq0 : 0 < q) (h1 : ∀ p : Nat, p.Prime → p ∣ s → p ≤ 1229)
    (h2 : ∀ p : Nat, p.Prime → p ∣ q → 1229 < p) : IsGreatest (roughDivisors (s * q)) q := by
  refine ⟨⟨dvd_mul_left _ _, h2⟩, fun r hr => Nat.le_of_dvd hq0 ?_⟩
  refine Nat.Coprime.dvd_of_dvd_mul_left (Nat.coprime_of_dvd fun p hp hpr hps => ?_) hr.1
  have := h1 p hp hps
  have := hr.2 p hp hpr
  omega

private theorem below_complete {d : Int} {l : List (Int × Nat)} (h : FactorsBelow d l) : Complete l :=
  ⟨fun f hf => ⟨(h.1 f hf).1, (h.1 f hf).2.1⟩, h.2⟩

/-- The factorization when the rough part `m` is accepted, and in general. -/
private theorem cases_of (log2 : Int → Int) (n : Nat) (hn : 2 ≤ n) :
    ∃ (m : Nat) (res : List (Int × Nat)), 0 < m ∧ FactorsBelow 1230 res ∧ n = natProduct res * m ∧
      (∀ p : Nat, p.Prime → p ∣ m → 1229 < p) ∧
      (1 < m → isPrime log2 m = true → factorization log2 n = some (res ++ [((m : Int), 1)])) ∧
      (¬ (1 < m ∧ ¬ m.Prime ∧ isPrime log2 m = true) → ∃ l, factorization log2 n = some l ∧ ∀ f ∈ l, f.1.toNat.Prime) := by
  obtain ⟨m, res, h1, h2, h3, h4, h5, h6⟩ := factorSmall_spec smallprimes (n : Int) [] 0 (by omega)
    smallprimes_sorted smallprimes_primes ⟨by simp, by simp⟩ (by omega) (by
      intro q hq _
      by_cases hq2 : (q : Int) ≤ 1229
      · exact .inl ((smallprimes_exact q (by omega)).mpr hq)
      · right; omega)
  obtain ⟨m, rfl⟩ : ∃ k : Nat, m = k := ⟨m.toNat, by omega⟩
  have hrough : ∀ p : Nat, p.Prime → p ∣ m → 1229 < p := fun p hp hd => h6 p hp (by exact_mod_cast hd)
  have hprod : n = natProduct res * m := by
    have h7 : (n : Int) = m * factorProduct res := by rw [← h4]; simp [factorProduct]
    rw [factorProduct_natProduct (below_complete h5)] at h7
    rw [mul_comm]
    exact_mod_cast h7
  have hgt : IsGreatest (roughDivisors n) m := by
    rw [hprod]
    exact rough_greatest (by omega) (fun p hp => prime_dvd_smooth h5 hp) hrough
  have hacc : 1 < m → isPrime log2 m = true → factorization log2 n = some (res ++ [((m : Int), 1)]) := by
    intro hm hip
    have hbig : 1229 < m := by
      have := hrough _ (Nat.minFac_prime (by omega : m ≠ 1)) (Nat.minFac_dvd m)
      have := Nat.minFac_le (by omega : 0 < m)
      omega
    rw [factorization, if_neg (by omega)]
    simp only [h1]
    rw [if_pos (by simp only [lastSmallprime]; omega), if_pos hip]
  refine ⟨m, res, by omega, h5, hprod, hrough, hacc, fun hno => ?_⟩
  by_cases hm : 1 < m ∧ isPrime log2 m = true
  · refine ⟨_, hacc hm.1 hm.2, fun f hf => ?_⟩
    rcases List.mem_append.mp hf with hf | hf
    · exact (h5.1 f hf).1
    · rw [List.mem_singleton.mp hf]
      by_contra hp
      exact hno ⟨hm.1, hp, hm.2⟩
  · obtain ⟨l, e1, e2, d, e3⟩ := factorization_spec log2 n (by omega)
    refine ⟨l, e1, ?_⟩
    rcases e3 with e3 | ⟨l', q, rfl, e4, e5, e6, e7⟩
    · exact fun f hf => (e3.1 f hf).1
    · exfalso
      obtain ⟨q, rfl⟩ : ∃ k : Nat, q = k := ⟨q.toNat, by omega⟩
      have hq : IsGreatest (roughDivisors n) q := by
        have h8 : n = natProduct l' * q := by
          rw [factorProduct_append, pow_one, factorProduct_natProduct (below_complete e4)] at e2
          exact_mod_cast e2.symm
        rw [h8]
        exact rough_greatest (by omega) (fun p hp => prime_dvd_smooth e4 hp)
          fun p hp hd => e7 p hp (by exact_mod_cast hd)
      have : m = q := hgt.unique hq
      subst this
      exact hm ⟨by omega, e6⟩

private theorem exists_rough (n : Nat) (hn : 1 ≤ n) (r : Nat) (hr : IsGreatest (roughDivisors n) r) (h2 : ¬ 2 ≤ n) : r = 1 := by
  have : n = 1 := by omega
  subst this
  have := hr.1.1
  exact Nat.dvd_one.mp this

/-- C156: all bases that `factorization(n)` returns are prime unless the largest divisor of `n` without prime factors up to
1229 is a composite number that `is_prime` accepts; then the last pair is that number with the exponent 1. -/
theorem C156_factorization (log2 : Int → Int) (n : Nat) (hn : 1 ≤ n) (r : Nat) (hr : IsGreatest (roughDivisors n) r) :
    ∃ l, factorization log2 n = some l ∧
      ((∀ f ∈ l, f.1.toNat.Prime) ↔ ¬ (1 < r ∧ ¬ r.Prime ∧ isPrime log2 r = true)) ∧
      (1 < r ∧ ¬ r.Prime ∧ isPrime log2 r = true → l.getLast? = some ((r : Int), 1)) := by
  by_cases h2 : 2 ≤ n
  · obtain ⟨m, res, hm, h5, hprod, hrough, hacc, hall⟩ := cases_of log2 n h2
    have : m = r := by
      refine IsGreatest.unique (s := roughDivisors n) ?_ hr
      rw [hprod]
      exact rough_greatest hm (fun p hp => prime_dvd_smooth h5 hp) hrough
    subst this
    by_cases hbad : 1 < m ∧ ¬ m.Prime ∧ isPrime log2 m = true
    · refine ⟨_, hacc hbad.1 hbad.2.2, iff_of_false (fun hp => hbad.2.1 ?_) (not_not.mpr hbad), fun _ => ?_⟩
      · have := hp ((m : Int), 1) (List.mem_append_right _ List.mem_cons_self)
        exact this
      · rw [List.getLast?_append]; rfl
    · obtain ⟨l, h1, h2⟩ := hall hbad
      exact ⟨l, h1, iff_of_true h2 hbad, fun h => absurd h hbad⟩
  · have h1 := exists_rough n hn r hr h2
    refine ⟨[], C60_below_two log2 n (by omega), iff_of_true (by simp) (by omega), by omega⟩

/-- C156: `phi(n)` is Euler's function unless the largest divisor `r` of `n` without prime factors up to 1229 is a
composite number that `is_prime` accepts; then it is `phi(n/r) * (r-1)`, which is too large. -/
theorem C156_phi (log2 : Int → Int) (n : Nat) (hn : 1 ≤ n) (r : Nat) (hr : IsGreatest (roughDivisors n) r) :
    (¬ (1 < r ∧ ¬ r.Prime ∧ isPrime log2 r = true) → phi log2 n = some (n.totient : Int)) ∧
    (1 < r ∧ ¬ r.Prime ∧ isPrime log2 r = true →
      phi log2 n = some (((n / r).totient * (r - 1) : Nat) : Int) ∧ n.totient < (n / r).totient * (r - 1)) := by
  by_cases h2 : 2 ≤ n
  · obtain ⟨m, res, hm, h5, hprod, hrough, hacc, hall⟩ := cases_of log2 n h2
    have hne := natProduct_ne_zero (below_complete h5)
    have : m = r := by
      refine IsGreatest.unique (s := roughDivisors n) ?_ hr
      rw [hprod]
      exact rough_greatest hm (fun p hp => prime_dvd_smooth h5 hp) hrough
    subst this
    constructor
    · intro hgood
      obtain ⟨l, h1, h2⟩ := hall hgood
      have := C61_phi log2 n (by omega) l h1 h2
      rwa [Int.toNat_natCast] at this
    · intro hbad
      have hquot : n / m = natProduct res := by rw [hprod, Nat.mul_div_cancel _ hm]
      have hbig : 1229 < m := by
        have := hrough _ (Nat.minFac_prime (by omega : m ≠ 1)) (Nat.minFac_dvd m)
        have := Nat.minFac_le (by omega : 0 < m)
        omega
      have h3 : 3 ≤ n := by
        rw [hprod]
        have := Nat.le_mul_of_pos_left m (Nat.pos_of_ne_zero hne)
        omega
      have hcop : Nat.Coprime (natProduct res) m := Nat.coprime_of_dvd fun p hp h1 h2 => by
        have := prime_dvd_smooth h5 hp h1
        have := hrough p hp h2
        omega
      constructor
      · rw [phi, if_neg (by omega), hacc hbad.1 hbad.2.2, Option.map_some, phiOfFactors, List.foldl_append,
          phiOfFactors_aux res 1 (below_complete h5), one_mul, hquot]
        simp only [List.foldl_cons, List.foldl_nil]
        rw [if_neg (by norm_num)]
        push_cast [Nat.cast_sub (show 1 ≤ m by omega)]
        rfl
      · rw [hquot, hprod, Nat.totient_mul hcop]
        refine Nat.mul_lt_mul_of_pos_left ?_ (Nat.totient_pos.mpr (Nat.pos_of_ne_zero hne))
        refine lt_of_le_of_ne (by have := Nat.totient_lt m hbad.1; omega) fun he => hbad.2.1 ?_
        exact (Nat.totient_eq_iff_prime (by omega)).mp he
  · have h1 := exists_rough n hn r hr h2
    refine ⟨fun _ => ?_, by omega⟩
    have : n = 1 := by omega
    subst this
    rfl

/-- The hypotheses of `C156_factorization` and `C156_phi` for a number with small and large prime factors. -/
example : IsGreatest (roughDivisors (60 * 1231)) 1231 :=
  rough_greatest (by norm_num) (fun p _ hd => (Nat.le_of_dvd (by norm_num) hd).trans (by norm_num)) fun p hp hd => by
    rw [(Nat.prime_dvd_prime_iff_eq hp (by norm_num)).mp hd]
    norm_num

/-! ### The number of C66 -/

/-- C66: the three factors are prime, the product has 793 bits, and `is_prime` accepts it whatever the float logarithm
returns. -/
theorem C66_three_primes :
    Nat.Prime 991382306367499482825468350838013179899992871730703785257327734249328696463283 ∧
    Nat.Prime 179440197452517406391409771501680385561898709783257385131576319899128494059854043 ∧
    Nat.Prime 191336785128927400185315391711736543720698624244025830554664252710120438417413427 ∧
    Nat.log2 (991382306367499482825468350838013179899992871730703785257327734249328696463283 *
      179440197452517406391409771501680385561898709783257385131576319899128494059854043 *
      191336785128927400185315391711736543720698624244025830554664252710120438417413427) + 1 = 793 ∧
    ∀ log2 : Int → Int, isPrime log2 ((991382306367499482825468350838013179899992871730703785257327734249328696463283 *
      179440197452517406391409771501680385561898709783257385131576319899128494059854043 *
      191336785128927400185315391711736543720698624244025830554664252710120438417413427 : Nat) : Int) = true :=
  ⟨liarP_prime, liarQ_prime, liarR_prime, by decide +kernel, liar_accepted⟩

private theorem liar_rough : IsGreatest (roughDivisors liar) liar := by
  refine ⟨⟨dvd_rfl, fun p hp hd => ?_⟩, fun r hr => Nat.le_of_dvd (by decide +kernel) hr.1⟩
  rw [liar, hp.dvd_mul, hp.dvd_mul, Nat.prime_dvd_prime_iff_eq hp liarP_prime, Nat.prime_dvd_prime_iff_eq hp liarQ_prime,
    Nat.prime_dvd_prime_iff_eq hp liarR_prime] at hd
  have h : 1229 < liarP ∧ 1229 < liarQ ∧ 1229 < liarR := by decide +kernel
  generalize liarP = a at *
  generalize liarQ = b at *
  generalize liarR = c at *
  omega

/-- C156: the product `n` of the three primes of C66 is the number next to `n - 1` and to `n - 2` for `next_prime`, its
factorization is `[(n, 1)]`, and `phi(n)` and `carmichael(n)` are `n - 1`, more than their true values
`(p-1)(q-1)(r-1)` and `lcm(p-1, q-1, r-1)`. -/
theorem C156_wrong_values (log2 : Int → Int) (p q r n : Nat)
    (hp : p = 991382306367499482825468350838013179899992871730703785257327734249328696463283)
    (hq : q = 179440197452517406391409771501680385561898709783257385131576319899128494059854043)
    (hr : r = 191336785128927400185315391711736543720698624244025830554664252710120438417413427)
    (hn : n = p * q * r) :
    ¬ n.Prime ∧ nextPrime log2 (n - 1) = some (n : Int) ∧ nextPrime log2 (n - 2) = some (n : Int) ∧
    factorization log2 n = some [((n : Int), 1)] ∧
    phi log2 n = some ((n : Int) - 1) ∧ n.totient = (p - 1) * (q - 1) * (r - 1) ∧ n.totient < n - 1 ∧
    carmichael log2 n = some (.ok ((n : Int) - 1)) ∧
    IsLeast {x : Nat | 0 < x ∧ ∀ a : Nat, Nat.Coprime a n → a ^ x ≡ 1 [MOD n]}
      (Nat.lcm (Nat.lcm (p - 1) (q - 1)) (r - 1)) ∧ Nat.lcm (Nat.lcm (p - 1) (q - 1)) (r - 1) < n - 1 := by
  have hp' : p = liarP := hp
  have hq' : q = liarQ := hq
  have hr' : r = liarR := hr
  have hn' : n = liar := by rw [hn, hp', hq', hr', liar]
  have hpp : p.Prime := hp' ▸ liarP_prime
  have hqp : q.Prime := hq' ▸ liarQ_prime
  have hrp : r.Prime := hr' ▸ liarR_prime
  have hlt : 2 < p ∧ p < q ∧ q < r := by
    rw [hp', hq', hr']; decide +kernel
  have hacc : isPrime log2 n = true := hn' ▸ liar_accepted log2
  have hcomp : ¬ n.Prime := hn' ▸ liar_composite
  have hrough : IsGreatest (roughDivisors n) n := hn' ▸ liar_rough
  have hbig : 1229 < n := by rw [hn']; decide +kernel
  have hodd : n % 2 = 1 := by rw [hn']; decide +kernel
  have hlcm : Nat.lcm (Nat.lcm (p - 1) (q - 1)) (r - 1) < n - 1 := by
    rw [hp', hq', hr', hn']; decide +kernel
  clear hp hq hr hp' hq' hr' hn'
  have c1 : Nat.Coprime p q := (Nat.coprime_primes hpp hqp).mpr (by omega)
  have c2 : Nat.Coprime (p * q) r :=
    Nat.Coprime.mul_left ((Nat.coprime_primes hpp hrp).mpr (by omega)) ((Nat.coprime_primes hqp hrp).mpr (by omega))
  have hphi := (C156_phi log2 n (by omega) n hrough).2 ⟨by omega, hcomp, hacc⟩
  rw [Nat.div_self (by omega), Nat.totient_one, one_mul] at hphi
  have hnext : nextPrimeLoop log2 n = some (n : Int) := by rw [nextPrimeLoop, if_pos hacc]
  have hfac : factorization log2 n = some [((n : Int), 1)] := by
    obtain ⟨m, res, hm, h5, hprod, hr2, hacc2, -⟩ := cases_of log2 n (by omega)
    have hmn : m = n := by
      refine IsGreatest.unique (s := roughDivisors n) ?_ hrough
      rw [hprod]
      exact rough_greatest hm (fun p hp => prime_dvd_smooth h5 hp) hr2
    have hres : res = [] := by
      rcases res with _ | ⟨f, res⟩
      · rfl
      · exfalso
        rw [hmn] at hprod
        have h1 : natProduct (f :: res) = 1 := Nat.eq_of_mul_eq_mul_right (show 0 < n by omega) (by rw [one_mul]; exact hprod.symm)
        rw [natProduct_cons] at h1
        have h2 := Nat.eq_one_of_mul_eq_one_right h1
        have h3 := h5.1 f List.mem_cons_self
        rw [Nat.pow_eq_one] at h2
        rcases h2 with h2 | h2
        · exact h3.1.ne_one h2
        · omega
    rw [hacc2 (by omega) (by rw [hmn]; exact hacc), hres, hmn]
    rfl
  have hcar : ArithmeticFunction.carmichael n = Nat.lcm (Nat.lcm (p - 1) (q - 1)) (r - 1) := by
    have e : ∀ s : Nat, s.Prime → s ≠ 2 → ArithmeticFunction.carmichael s = s - 1 := fun s hs h2 => by
      have := ArithmeticFunction.carmichael_pow_of_prime_ne_two 1 hs h2
      rwa [pow_one, Nat.totient_prime hs] at this
    rw [hn, ArithmeticFunction.carmichael_mul c2, ArithmeticFunction.carmichael_mul c1, e p hpp (by omega), e q hqp (by omega),
      e r hrp (by omega)]
  refine ⟨hcomp, ?_, ?_, hfac, ?_, ?_, hphi.2, ?_, ?_, hlcm⟩
  · rw [nextPrime, if_neg (by omega), if_neg (by omega), sub_add_cancel]
    exact hnext
  · rw [nextPrime, if_neg (by omega), if_pos (by omega), show (n : Int) - 2 + 1 + 1 = n by ring]
    exact hnext
  · rw [hphi.1, Nat.cast_sub (by omega)]
    rfl
  · rw [hn, Nat.totient_mul c2, Nat.totient_mul c1, Nat.totient_prime hpp, Nat.totient_prime hqp, Nat.totient_prime hrp]
  · rw [Model.carmichael, hfac, Option.map_some, carmichaelOfFactorized]
    simp only [List.foldlM_nil]
    rw [carmichaelOfPpower, if_neg (by omega)]
    simp only [Nat.sub_self, pow_zero, mul_one]
    rfl
  · rw [← hcar]
    exact carmichael_isLeast (by omega)
example := C156_wrong_values (fun _ => 7) _ _ _ _ rfl rfl rfl rfl

end Cryptopy
