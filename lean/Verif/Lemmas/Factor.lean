import Verif.Lemmas.Primality
import Mathlib.Data.Nat.Totient
import Mathlib.NumberTheory.ArithmeticFunction.Carmichael

/-! Lemmas on `factorization`, `phi` and `carmichael`. -/

namespace Cryptopy.Model

/-- The product of prime powers a factor list stands for. -/
def factorProduct (l : List (Int × Nat)) : Int := (l.map fun f => f.1 ^ f.2).prod

theorem factorProduct_append (l : List (Int × Nat)) (q : Int) (e : Nat) :
    factorProduct (l ++ [(q, e)]) = factorProduct l * q ^ e := by
  simp [factorProduct]

/-- What holds of the factors found so far: prime bases below `d`, in increasing order, positive
exponents. -/
def FactorsBelow (d : Int) (l : List (Int × Nat)) : Prop :=
  (∀ f ∈ l, f.1.toNat.Prime ∧ 1 ≤ f.2 ∧ f.1 < d) ∧ (l.map Prod.fst).Pairwise (· < ·)

theorem FactorsBelow.append {d d' : Int} {l : List (Int × Nat)} (h : FactorsBelow d l) {q : Int} {e : Nat}
    (hq : q.toNat.Prime) (he : 1 ≤ e) (hd : d ≤ q) (hd' : q < d') : FactorsBelow d' (l ++ [(q, e)]) := by
  obtain ⟨h1, h2⟩ := h
  refine ⟨?_, ?_⟩
  · intro f hf
    rcases List.mem_append.mp hf with hf | hf
    · have := h1 f hf
      exact ⟨this.1, this.2.1, by omega⟩
    · rw [List.mem_singleton.mp hf]
      exact ⟨hq, he, hd'⟩
  · rw [List.map_append, List.pairwise_append]
    refine ⟨h2, by simp, ?_⟩
    intro a ha b hb
    obtain ⟨f, hf, rfl⟩ := List.mem_map.mp ha
    have := h1 f hf
    simp at hb
    omega

theorem FactorsBelow.mono {d d' : Int} {l : List (Int × Nat)} (h : FactorsBelow d l) (hd : d ≤ d') :
    FactorsBelow d' l :=
  ⟨fun f hf => ⟨(h.1 f hf).1, (h.1 f hf).2.1, by have := (h.1 f hf).2.2; omega⟩, h.2⟩

theorem smallDivide_spec (d : Int) (hd : 2 ≤ d) (k : Nat) : ∀ (n q : Int) (count : Nat), n ≤ k → 1 ≤ n →
    n = d * q → ∃ (n' : Int) (e : Nat), smallDivide d n q count = (n', count + e) ∧
      n = n' * d ^ (e + 1) ∧ ¬ d ∣ n' ∧ 1 ≤ n' := by
  induction k with
  | zero => intro n q c h1 h2; omega
  | succ k ih =>
    intro n q count hk hn hnq
    have hq1 : 1 ≤ q := by
      by_contra hcon
      have : d * q ≤ 0 := mul_nonpos_of_nonneg_of_nonpos (by omega) (by omega)
      omega
    have hdn : d * 1 ≤ d * q := mul_le_mul_of_nonneg_left hq1 (by omega)
    have hqn : 2 * q ≤ d * q := mul_le_mul_of_nonneg_right hd (by omega)
    rw [smallDivide, dif_pos ⟨by omega, hd, by omega, by omega⟩]
    by_cases h : q.fmod d = 0
    · rw [if_neg (by simpa using h)]
      have hdq : q = d * q.fdiv d := (Int.mul_fdiv_cancel_of_fmod_eq_zero h).symm
      obtain ⟨n', e, h1, h2, h3, h4⟩ := ih q (q.fdiv d) (count + 1) (by omega) hq1 hdq
      refine ⟨n', e + 1, by rw [h1]; congr 1; omega, ?_, h3, h4⟩
      rw [hnq, h2, pow_succ]; ring
    · rw [if_pos h]
      refine ⟨q, 0, rfl, by rw [hnq]; ring, ?_, hq1⟩
      rwa [Int.dvd_iff_fmod_eq_zero]

theorem searchDivide_spec (d : Int) (hd : 2 ≤ d) (k : Nat) : ∀ (n : Int) (count : Nat), n ≤ k → 1 ≤ n →
    ∃ (n' : Int) (e : Nat), searchDivide d n count = (n', count + e) ∧
      n = n' * d ^ e ∧ ¬ d ∣ n' ∧ 1 ≤ n' := by
  induction k with
  | zero => intro n c h1 h2; omega
  | succ k ih =>
    intro n count hk hn
    rw [searchDivide]
    by_cases hdn : d ≤ n
    · rw [dif_pos ⟨hdn, hd⟩]
      by_cases h : n.fmod d = 0
      · rw [if_neg (by simpa using h)]
        have hdq : d * n.fdiv d = n := Int.mul_fdiv_cancel_of_fmod_eq_zero h
        have hq1 : 1 ≤ n.fdiv d := by
          by_contra hcon
          have : d * n.fdiv d ≤ 0 := mul_nonpos_of_nonneg_of_nonpos (by omega) (by omega)
          omega
        have hqn : 2 * n.fdiv d ≤ d * n.fdiv d := mul_le_mul_of_nonneg_right hd (by omega)
        obtain ⟨n', e, h1, h2, h3, h4⟩ := ih (n.fdiv d) (count + 1) (by omega) hq1
        refine ⟨n', e + 1, by rw [h1]; congr 1; omega, ?_, h3, h4⟩
        rw [← hdq, h2, pow_succ]; ring
      · rw [if_pos h]
        refine ⟨n, 0, rfl, by simp, ?_, hn⟩
        rwa [Int.dvd_iff_fmod_eq_zero]
    · rw [dif_neg (by omega)]
      refine ⟨n, 0, rfl, by simp, ?_, hn⟩
      intro hdv
      have := Int.le_of_dvd (by omega) hdv
      omega

/-- The loop over the small primes. -/
theorem factorSmall_spec (ds : List Int) : ∀ (n : Int) (result : List (Int × Nat)) (b : Int), 1 ≤ n →
    ds.Pairwise (· < ·) → (∀ d ∈ ds, d.toNat.Prime ∧ b ≤ d ∧ d ≤ 1229) → FactorsBelow b result → b ≤ 1230 →
    (∀ q : Nat, q.Prime → (q : Int) ∣ n → (q : Int) ∈ ds ∨ 1229 < q) →
    ∃ n' result', factorSmall ds n result = (n', result') ∧ 1 ≤ n' ∧ n' ∣ n ∧
      n * factorProduct result = n' * factorProduct result' ∧ FactorsBelow 1230 result' ∧
      ∀ q : Nat, q.Prime → (q : Int) ∣ n' → 1229 < q := by
  induction ds with
  | nil =>
    intro n result b hn _ _ hres hb hrough
    refine ⟨n, result, rfl, hn, dvd_refl _, rfl, hres.mono hb, ?_⟩
    intro q hq hqn
    rcases hrough q hq hqn with h | h
    · simp at h
    · exact h
  | cons d ds ih =>
    intro n result b hn hsort hprimes hres hb hrough
    obtain ⟨hs1, hs2⟩ := List.pairwise_cons.mp hsort
    have hd := hprimes d (by simp)
    have hd2 : 2 ≤ d := by have := hd.1.two_le; omega
    rw [factorSmall]
    by_cases hdn : d > n
    · rw [if_pos hdn]
      refine ⟨n, result, rfl, hn, dvd_refl _, rfl, hres.mono hb, ?_⟩
      intro q hq hqn
      exfalso
      have hle := Int.le_of_dvd (by omega) hqn
      rcases hrough q hq hqn with h | h
      · rcases List.mem_cons.mp h with h | h
        · omega
        · have := hs1 _ h; omega
      · omega
    rw [if_neg hdn]
    have hprimes' : ∀ x ∈ ds, x.toNat.Prime ∧ d + 1 ≤ x ∧ x ≤ 1229 := by
      intro x hx
      have h1 := hprimes x (by simp [hx])
      have h2 := hs1 x hx
      exact ⟨h1.1, by omega, h1.2.2⟩
    by_cases hr : n.fmod d = 0
    · rw [if_pos hr]
      obtain ⟨n', e, h1, h2, h3, h4⟩ := smallDivide_spec d hd2 n.toNat n (n.fdiv d) 1 (by omega) hn
        (Int.mul_fdiv_cancel_of_fmod_eq_zero hr).symm
      simp only [h1]
      have hn'n : n' ∣ n := ⟨_, h2⟩
      obtain ⟨m, res', i1, i2, i3, i4, i5, i6⟩ := ih n' (result ++ [(d, 1 + e)]) (d + 1) h4 hs2 hprimes'
        (hres.append hd.1 (by omega) hd.2.1 (by omega)) (by omega) (by
          intro q hq hqn
          rcases hrough q hq (dvd_trans hqn hn'n) with h | h
          · rcases List.mem_cons.mp h with h | h
            · exact absurd (h ▸ hqn) h3
            · exact .inl h
          · exact .inr h)
      refine ⟨m, res', i1, i2, dvd_trans i3 hn'n, ?_, i5, i6⟩
      rw [← i4, factorProduct_append]
      conv_lhs => rw [h2]
      rw [Nat.add_comm e 1]; ring
    · rw [if_neg hr]
      exact ih n result (d + 1) hn hs2 hprimes' (hres.mono (by omega)) (by omega) (by
          intro q hq hqn
          rcases hrough q hq hqn with h | h
          · rcases List.mem_cons.mp h with h | h
            · exact absurd (Int.fmod_eq_zero_of_dvd (h ▸ hqn)) hr
            · exact .inl h
          · exact .inr h)

/-- The search for larger divisors. -/
theorem factorSearch_spec (k : Nat) : ∀ (d n : Int) (result : List (Int × Nat)), n ≤ d + k → 3 ≤ d → d % 2 = 1 →
    1 ≤ n → n % 2 = 1 → FactorsBelow (d + 1) result → (∀ q : Nat, q.Prime → (q : Int) ∣ n → d < q) →
    ∃ (n' d' : Int) (result' : List (Int × Nat)), factorSearch d n result = some (n', result') ∧ 1 ≤ n' ∧
      n * factorProduct result = n' * factorProduct result' ∧ FactorsBelow d' result' ∧
      (n' = 1 ∨ (n'.toNat.Prime ∧ d' ≤ n')) := by
  induction k with
  | zero =>
    intro d n result hk hd hdo hn hno hres hrough
    rw [factorSearch]
    have hq0 : n.fdiv (d + 2) = 0 := by
      rw [Int.fdiv_eq_ediv_of_nonneg _ (by omega)]
      exact Int.ediv_eq_zero_of_lt (by omega) (by omega)
    simp only [hq0]
    rw [if_pos (by omega)]
    refine ⟨n, d + 1, result, rfl, hn, rfl, hres, ?_⟩
    left
    by_contra hn1
    have hp := Nat.minFac_prime (show n.toNat ≠ 1 by omega)
    have hdv : ((n.toNat.minFac : Nat) : Int) ∣ n := by
      have := Nat.minFac_dvd n.toNat
      have h2 : ((n.toNat.minFac : Nat) : Int) ∣ ((n.toNat : Nat) : Int) := by exact_mod_cast this
      rwa [Int.toNat_of_nonneg (by omega)] at h2
    have h1 := hrough _ hp hdv
    have h2 := Int.le_of_dvd (by omega) hdv
    omega
  | succ k ih =>
    intro d n result hk hd hdo hn hno hres hrough
    rw [factorSearch]
    have hrough2 : ∀ q : Nat, q.Prime → (q : Int) ∣ n → d + 2 ≤ q := by
      intro q hq hqn
      have h1 := hrough q hq hqn
      have h2 : q % 2 = 1 := by
        rcases hq.eq_two_or_odd with h | h
        · omega
        · exact h
      omega
    by_cases hlt : n.fdiv (d + 2) < d + 2
    · simp only
      rw [if_pos hlt]
      have hsq : n < (d + 2) * (d + 2) := by
        rw [Int.fdiv_eq_ediv_of_nonneg _ (by omega)] at hlt
        exact Int.lt_mul_of_ediv_lt (by omega) hlt
      by_cases hn1 : n = 1
      · exact ⟨n, d + 1, result, rfl, hn, rfl, hres, .inl hn1⟩
      have hprime : n.toNat.Prime := by
        by_contra hnp
        have hp := Nat.minFac_prime (show n.toNat ≠ 1 by omega)
        have hdv : ((n.toNat.minFac : Nat) : Int) ∣ n := by
          have := Nat.minFac_dvd n.toNat
          have h2 : ((n.toNat.minFac : Nat) : Int) ∣ ((n.toNat : Nat) : Int) := by exact_mod_cast this
          rwa [Int.toNat_of_nonneg (by omega)] at h2
        have h1 := hrough2 _ hp hdv
        have h3 := Nat.minFac_sq_le_self (show 0 < n.toNat by omega) hnp
        have h4 : ((n.toNat.minFac ^ 2 : Nat) : Int) ≤ n := by omega
        have h5 : (d + 2) * (d + 2) ≤ (n.toNat.minFac : Int) * (n.toNat.minFac : Int) :=
          mul_le_mul h1 h1 (by omega) (by omega)
        rw [pow_two] at h4; push_cast at h4
        omega
      refine ⟨n, d + 1, result, rfl, hn, rfl, hres, .inr ⟨hprime, ?_⟩⟩
      have := hrough2 n.toNat hprime (by rw [Int.toNat_of_nonneg (by omega)])
      omega
    · simp only
      rw [if_neg hlt]
      have hbig : d + 2 ≤ n := by
        by_contra hcon
        apply hlt
        have hq0 : n.fdiv (d + 2) = 0 := by
          rw [Int.fdiv_eq_ediv_of_nonneg _ (by omega)]
          exact Int.ediv_eq_zero_of_lt (by omega) (by omega)
        omega
      by_cases hr : n.fmod (d + 2) = 0
      · rw [if_pos hr]
        have hdvd : d + 2 ∣ n := Int.dvd_of_fmod_eq_zero hr
        have hqe : (d + 2) * n.fdiv (d + 2) = n := Int.mul_fdiv_cancel_of_fmod_eq_zero hr
        have hdp : (d + 2).toNat.Prime := by
          have hp := Nat.minFac_prime (show (d + 2).toNat ≠ 1 by omega)
          have hdv : (((d + 2).toNat.minFac : Nat) : Int) ∣ d + 2 := by
            have := Nat.minFac_dvd (d + 2).toNat
            have h2 : (((d + 2).toNat.minFac : Nat) : Int) ∣ (((d + 2).toNat : Nat) : Int) := by
              exact_mod_cast this
            rwa [Int.toNat_of_nonneg (by omega)] at h2
          have h1 := hrough2 _ hp (dvd_trans hdv hdvd)
          have h2 := Int.le_of_dvd (by omega) hdv
          have h3 : (d + 2).toNat.minFac = (d + 2).toNat := by omega
          rwa [h3] at hp
        obtain ⟨n', e, h1, h2, h3, h4⟩ := searchDivide_spec (d + 2) (by omega) n.toNat (n.fdiv (d + 2)) 1
          (by
            have hq0 : 0 ≤ n.fdiv (d + 2) := by omega
            have : 1 * n.fdiv (d + 2) ≤ (d + 2) * n.fdiv (d + 2) := mul_le_mul_of_nonneg_right (by omega) hq0
            omega) (by omega)
        simp only [h1]
        have hn'n : n' ∣ n := ⟨(d + 2) * (d + 2) ^ e, by rw [← hqe, h2]; ring⟩
        have hn'le := Int.le_of_dvd (by omega) hn'n
        obtain ⟨m, d', res', i1, i2, i3, i4, i5⟩ := ih (d + 2) n' (result ++ [(d + 2, 1 + e)])
          (by push_cast at hk ⊢; omega) (by omega) (by omega) h4 (by
            by_contra hcon
            have h2n : (2 : Int) ∣ n := dvd_trans (by omega) hn'n
            omega) (hres.append hdp (by omega) (by omega) (by omega)) (by
            intro q hq hqn
            have h5 := hrough2 q hq (dvd_trans hqn hn'n)
            rcases Int.lt_or_eq_of_le h5 with h6 | h6
            · exact h6
            · exact absurd (h6 ▸ hqn) h3)
        refine ⟨m, d', res', i1, i2, ?_, i4, i5⟩
        rw [← i3, factorProduct_append]
        conv_lhs => rw [← hqe, h2]
        rw [pow_add, pow_one]; ring
      · rw [if_neg hr]
        exact ih (d + 2) n result (by push_cast at hk ⊢; omega) (by omega) (by omega) hn hno
          (hres.mono (by omega)) (by
            intro q hq hqn
            have h5 := hrough2 q hq hqn
            rcases Int.lt_or_eq_of_le h5 with h6 | h6
            · exact h6
            · exact absurd (Int.fmod_eq_zero_of_dvd (h6 ▸ hqn)) hr)

theorem smallprimes_sorted : smallprimes.Pairwise (· < ·) := by decide +kernel

theorem smallprimes_primes (d : Int) (h : d ∈ smallprimes) : d.toNat.Prime ∧ 0 ≤ d ∧ d ≤ 1229 := by
  have h2 := smallprimes_nonneg d h
  refine ⟨(smallprimes_exact d.toNat (by omega)).mp ?_, by omega, h2.2⟩
  rwa [Int.toNat_of_nonneg (by omega)]

/-- The result of `factorization`. -/
theorem factorization_spec (log2 : Int → Int) (n : Int) (hn : 2 ≤ n) :
    ∃ l, factorization log2 n = some l ∧ factorProduct l = n ∧
      (∃ d, FactorsBelow d l ∨ ∃ l' q, l = l' ++ [(q, 1)] ∧ FactorsBelow 1230 l' ∧ 1229 < q ∧
        isPrime log2 q = true ∧ ∀ r : Nat, r.Prime → (r : Int) ∣ q → 1229 < r) := by
  obtain ⟨m, res, h1, h2, h3, h4, h5, h6⟩ := factorSmall_spec smallprimes n [] 0 (by omega)
    smallprimes_sorted smallprimes_primes ⟨by simp, by simp⟩ (by omega) (by
      intro q hq _
      by_cases hq2 : (q : Int) ≤ 1229
      · exact .inl ((smallprimes_exact q (by omega)).mpr hq)
      · right; omega)
  rw [factorization, if_neg (by omega)]
  simp only [h1]
  have hprod : n = m * factorProduct res := by rw [← h4]; simp [factorProduct]
  by_cases hm : m > lastSmallprime
  · have hm' : 1229 < m := hm
    rw [if_pos hm]
    by_cases hip : isPrime log2 m = true
    · rw [if_pos hip]
      refine ⟨_, rfl, by rw [factorProduct_append, hprod]; ring, 0, .inr ⟨res, m, rfl, h5, hm, hip, ?_⟩⟩
      intro r hr hrm
      exact h6 r hr hrm
    · rw [if_neg hip]
      have hmodd : m % 2 = 1 := by
        by_contra hcon
        have := h6 2 Nat.prime_two (by omega)
        omega
      obtain ⟨m', d', res', i1, i2, i3, i4, i5⟩ := factorSearch_spec m.toNat lastSmallprime m res
        (by simp only [lastSmallprime]; omega) (by decide) (by decide) h2 hmodd h5 (by
          intro q hq hqn
          have := h6 q hq hqn
          simp only [lastSmallprime]; omega)
      rw [i1]
      simp only
      by_cases hm1 : m' > 1
      · rw [if_pos hm1]
        rcases i5 with i5 | i5
        · omega
        · exact ⟨_, rfl, by rw [factorProduct_append, hprod, i3]; ring, m' + 1,
            .inl (i4.append i5.1 (le_refl _) i5.2 (by omega))⟩
      · rw [if_neg hm1]
        have : m' = 1 := by omega
        exact ⟨_, rfl, by rw [hprod, i3, this]; ring, d', .inl i4⟩
  · rw [if_neg hm]
    have hm1 : m = 1 := by
      by_contra hn1
      have hp := Nat.minFac_prime (show m.toNat ≠ 1 by omega)
      have hdv : ((m.toNat.minFac : Nat) : Int) ∣ m := by
        have := Nat.minFac_dvd m.toNat
        have h2 : ((m.toNat.minFac : Nat) : Int) ∣ ((m.toNat : Nat) : Int) := by exact_mod_cast this
        rwa [Int.toNat_of_nonneg (by omega)] at h2
      have h7 := h6 _ hp hdv
      have h8 := Int.le_of_dvd (by omega) hdv
      simp only [lastSmallprime] at hm
      omega
    exact ⟨res, rfl, by rw [hprod, hm1, one_mul], 1230, .inl h5⟩

/-! ### Totient and Carmichael function of a complete factorization -/

/-- The list is a factorization into distinct primes. -/
def Complete (l : List (Int × Nat)) : Prop :=
  (∀ f ∈ l, f.1.toNat.Prime ∧ 1 ≤ f.2) ∧ (l.map Prod.fst).Pairwise (· < ·)

/-- The product as a natural number. -/
def natProduct (l : List (Int × Nat)) : Nat := (l.map fun f => f.1.toNat ^ f.2).prod

theorem natProduct_cons (f : Int × Nat) (l : List (Int × Nat)) :
    natProduct (f :: l) = f.1.toNat ^ f.2 * natProduct l := by simp [natProduct]

theorem Complete.tail {f : Int × Nat} {l : List (Int × Nat)} (h : Complete (f :: l)) : Complete l :=
  ⟨fun g hg => h.1 g (by simp [hg]), (List.pairwise_cons.mp (by simpa using h.2)).2⟩

theorem prime_toNat_pos {q : Int} (h : q.toNat.Prime) : 2 ≤ q := by
  have := h.two_le
  omega

theorem Complete.coprime {f : Int × Nat} {l : List (Int × Nat)} (h : Complete (f :: l)) :
    Nat.Coprime (f.1.toNat ^ f.2) (natProduct l) := by
  apply Nat.Coprime.pow_left
  rw [natProduct, Nat.coprime_list_prod_right_iff]
  intro m hm
  obtain ⟨g, hg, rfl⟩ := List.mem_map.mp hm
  apply Nat.Coprime.pow_right
  have hf := h.1 f (by simp)
  have hg' := h.1 g (by simp [hg])
  rw [Nat.coprime_primes hf.1 hg'.1]
  have h1 := List.pairwise_cons.mp (show (f.1 :: l.map Prod.fst).Pairwise (· < ·) by simpa using h.2)
  have h2 := h1.1 g.1 (List.mem_map.mpr ⟨g, hg, rfl⟩)
  have h3 := prime_toNat_pos hf.1
  omega

theorem factorProduct_natProduct {l : List (Int × Nat)} (h : Complete l) :
    factorProduct l = natProduct l := by
  induction l with
  | nil => rfl
  | cons f l ih =>
    have hf := prime_toNat_pos (h.1 f (by simp)).1
    have h1 : factorProduct (f :: l) = f.1 ^ f.2 * factorProduct l := by simp [factorProduct]
    rw [h1, ih h.tail, natProduct_cons]
    push_cast
    rw [Int.toNat_of_nonneg (by omega)]

theorem phiOfFactors_aux (l : List (Int × Nat)) : ∀ r : Int, Complete l →
    l.foldl (fun result f =>
      if f.2 > 1 then result * f.1 ^ (f.2 - 1) * (f.1 - 1) else result * (f.1 - 1)) r
      = r * ((natProduct l).totient : Int) := by
  induction l with
  | nil => intro r _; simp [natProduct]
  | cons f l ih =>
    intro r h
    have hf := h.1 f (by simp)
    have hf2 := prime_toNat_pos hf.1
    rw [List.foldl_cons, ih _ h.tail, natProduct_cons, Nat.totient_mul h.coprime,
      Nat.totient_prime_pow hf.1 (by omega)]
    have hc : ((f.1.toNat - 1 : Nat) : Int) = f.1 - 1 := by omega
    push_cast
    rw [hc, Int.toNat_of_nonneg (by omega)]
    split
    · ring
    · have : f.2 - 1 = 0 := by omega
      rw [this]; ring

theorem phiOfFactors_eq {l : List (Int × Nat)} (h : Complete l) :
    phiOfFactors l = ((natProduct l).totient : Int) := by
  rw [phiOfFactors, phiOfFactors_aux l 1 h, one_mul]

theorem carmichaelOfPpower_eq {f : Int × Nat} (hp : f.1.toNat.Prime) (he : 1 ≤ f.2) :
    carmichaelOfPpower f = (ArithmeticFunction.carmichael (f.1.toNat ^ f.2) : Int) := by
  obtain ⟨q, e⟩ := f
  simp only at hp he ⊢
  have hq := prime_toNat_pos hp
  obtain ⟨p, rfl⟩ : ∃ p : Nat, q = p := ⟨q.toNat, by omega⟩
  rw [Int.toNat_natCast] at hp ⊢
  rw [carmichaelOfPpower]
  simp only
  by_cases h2 : p = 2
  · subst h2
    by_cases he2 : e > 2
    · rw [if_pos ⟨by rfl, he2⟩, ArithmeticFunction.carmichael_two_pow_of_ne_two (by omega)]
      push_cast; rfl
    · rw [if_neg (by omega), ArithmeticFunction.carmichael_two_pow_of_le_two (by omega)]
      push_cast; ring
  · rw [if_neg (by omega), ArithmeticFunction.carmichael_pow_of_prime_ne_two e hp h2,
      Nat.totient_prime_pow hp (by omega)]
    rw [Nat.cast_mul, Nat.cast_pow, Nat.cast_sub (by omega)]
    push_cast; ring

theorem carmichael_pos {n : Nat} (h : n ≠ 0) : 0 < ArithmeticFunction.carmichael n := by
  have : NeZero n := ⟨h⟩
  rw [ArithmeticFunction.carmichael_eq_exponent h]
  exact Monoid.exponent_pos.mpr Monoid.ExponentExists.of_finite

theorem natProduct_ne_zero {l : List (Int × Nat)} (h : Complete l) : natProduct l ≠ 0 := by
  induction l with
  | nil => simp [natProduct]
  | cons f l ih =>
    rw [natProduct_cons]
    exact mul_ne_zero (pow_ne_zero _ (h.1 f (by simp)).1.ne_zero) (ih h.tail)

theorem carmichael_foldlM (l : List (Int × Nat)) : ∀ m : Nat, m ≠ 0 → Complete l →
    Nat.Coprime m (natProduct l) →
    l.foldlM (fun result g => lcmArgs [result, carmichaelOfPpower g])
      (ArithmeticFunction.carmichael m : Int)
      = .ok (ArithmeticFunction.carmichael (m * natProduct l) : Int) := by
  induction l with
  | nil => intro m _ _ _; simp [natProduct]; rfl
  | cons f l ih =>
    intro m hm h hc
    have hf := h.1 f (by simp)
    have hq := prime_toNat_pos hf.1
    have hne : f.1.toNat ^ f.2 ≠ 0 := pow_ne_zero _ hf.1.ne_zero
    rw [natProduct_cons] at hc ⊢
    have hc1 : Nat.Coprime m (f.1.toNat ^ f.2) := Nat.Coprime.coprime_mul_right_right hc
    have hc2 : Nat.Coprime m (natProduct l) := Nat.Coprime.coprime_mul_left_right hc
    have hstep : lcmArgs [(ArithmeticFunction.carmichael m : Int), carmichaelOfPpower f]
        = .ok (ArithmeticFunction.carmichael (m * f.1.toNat ^ f.2) : Int) := by
      rw [carmichaelOfPpower_eq hf.1 hf.2, lcmArgs, List.foldlM_cons,
        lcm2_pos _ _ (by exact_mod_cast carmichael_pos hm) (by exact_mod_cast carmichael_pos hne),
        ArithmeticFunction.carmichael_mul hc1]
      rfl
    rw [List.foldlM_cons, hstep]
    have := ih (m * f.1.toNat ^ f.2) (mul_ne_zero hm hne) h.tail (Nat.Coprime.mul_left hc2 h.coprime)
    rw [mul_assoc] at this
    exact this

theorem carmichaelOfFactorized_eq {l : List (Int × Nat)} (h : Complete l) :
    carmichaelOfFactorized l = .ok (ArithmeticFunction.carmichael (natProduct l) : Int) := by
  cases l with
  | nil =>
    rw [carmichaelOfFactorized]
    have : ArithmeticFunction.carmichael (natProduct []) = 1 := by
      have h1 : natProduct [] = 2 ^ 0 := by simp [natProduct]
      rw [h1, ArithmeticFunction.carmichael_two_pow_of_le_two (by omega)]
      norm_num
    rw [this]; rfl
  | cons f l =>
    have hf := h.1 f (by simp)
    rw [carmichaelOfFactorized, carmichaelOfPpower_eq hf.1 hf.2,
      carmichael_foldlM l _ (pow_ne_zero _ hf.1.ne_zero) h.tail h.coprime, natProduct_cons]

/-- The Carmichael function is the least positive exponent of all units. -/
theorem carmichael_isLeast {n : Nat} (hn : n ≠ 0) :
    IsLeast {x : Nat | 0 < x ∧ ∀ a : Nat, Nat.Coprime a n → a ^ x ≡ 1 [MOD n]}
      (ArithmeticFunction.carmichael n) := by
  constructor
  · refine ⟨carmichael_pos hn, fun a ha => ?_⟩
    have := ArithmeticFunction.pow_carmichael (ZMod.unitOfCoprime a ha)
    have h2 := congrArg (fun u : (ZMod n)ˣ => (u : ZMod n)) this
    simp only [Units.val_pow_eq_pow_val, ZMod.coe_unitOfCoprime, Units.val_one] at h2
    rw [← ZMod.natCast_eq_natCast_iff]
    push_cast
    exact h2
  · rintro x ⟨hx, h⟩
    rw [ArithmeticFunction.carmichael_eq_exponent hn]
    apply Nat.le_of_dvd hx
    apply Monoid.exponent_dvd_of_forall_pow_eq_one
    intro u
    have : NeZero n := ⟨hn⟩
    have h1 := h (u : ZMod n).val (ZMod.val_coe_unit_coprime u)
    rw [← ZMod.natCast_eq_natCast_iff] at h1
    push_cast at h1
    rw [ZMod.natCast_zmod_val] at h1
    apply Units.ext
    rw [Units.val_pow_eq_pow_val, h1, Units.val_one]

end Cryptopy.Model
