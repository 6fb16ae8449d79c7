import Verif.Lemmas.Sqrt
import Verif.Lemmas.PrimeCert
import Mathlib.NumberTheory.Bertrand

/-! Lemmas on the Miller-Rabin test, `is_prime`, `next_prime`, `rabin_miller`, `fermat_little_test`. -/

namespace Cryptopy.Model

theorem squareLoop_prime {p : Nat} [Fact p.Prime] (k : Nat) : ∀ y : Int, 0 ≤ y → y < p → y ≠ 1 →
    (y : ZMod p) ^ (2 ^ (k + 1)) = 1 → squareLoop p k y = some ((p : Int) - 1) := by
  have hp := (Fact.out : p.Prime)
  have h2 := hp.two_le
  have hpm : ∀ y : Int, 0 ≤ y → y < p → y ≠ 1 → (y : ZMod p) ^ 2 = 1 → y = p - 1 := by
    intro y h0 h1 hy h
    have h3 : ((y : ZMod p) - 1) * ((y : ZMod p) + 1) = 0 := by linear_combination h
    rcases mul_eq_zero.mp h3 with h4 | h4
    · exfalso; apply hy
      exact eq_of_cast_eq h0 h1 (by omega) (by omega) (by rw [sub_eq_zero.mp h4]; simp)
    · exact eq_of_cast_eq h0 h1 (by omega) (by omega)
        (by rw [eq_neg_of_add_eq_zero_left h4]; push_cast; simp)
  induction k with
  | zero =>
    intro y h0 h1 hy h
    rw [squareLoop, hpm y h0 h1 hy (by simpa using h)]
  | succ k ih =>
    intro y h0 h1 hy h
    rw [squareLoop]
    by_cases hn : y = p - 1
    · rw [if_neg (by simpa using hn), hn]
    rw [if_pos hn]
    have hcast : (((y ^ 2).fmod (p : Int) : Int) : ZMod p) = (y : ZMod p) ^ 2 := by
      rw [fmod_cast _ (by omega)]; push_cast; rfl
    have hne : (y ^ 2).fmod (p : Int) ≠ 1 := by
      intro h3
      rw [h3] at hcast
      exact hn (hpm y h0 h1 hy (by rw [← hcast]; simp))
    simp only
    rw [if_neg hne]
    apply ih _ (Int.fmod_nonneg_of_pos _ (by omega)) (Int.fmod_lt_of_pos _ (by omega)) hne
    rw [hcast, ← pow_mul, ← pow_succ']
    exact h

/-- The Miller-Rabin round accepts a prime for every base it does not divide. -/
theorem millerRabinRound_prime {p : Nat} [Fact p.Prime] (a : Int) (ha : (a : ZMod p) ≠ 0) :
    millerRabinRound p (splitTwo ((p : Int) - 1) 0).1 (splitTwo ((p : Int) - 1) 0).2 a = true := by
  have hp := (Fact.out : p.Prime)
  have h2 := hp.two_le
  obtain ⟨hs1, hs2⟩ := splitTwo_zero ((p : Int) - 1) (by omega)
  obtain ⟨hs3, -⟩ := splitTwo_bounds ((p : Int) - 1) 0 (by omega)
  generalize splitTwo ((p : Int) - 1) 0 = se at *
  obtain ⟨r, s⟩ := se
  simp only at hs1 hs2 hs3 ⊢
  obtain ⟨t, rfl⟩ : ∃ t : Nat, r = t := ⟨r.toNat, by omega⟩
  have hts : t * 2 ^ s = p - 1 := by
    have : ((t * 2 ^ s : Nat) : Int) = (p : Int) - 1 := by rw [hs1]; push_cast; ring
    omega
  rw [millerRabinRound, Int.toNat_natCast]
  have hcast : (((a ^ t).fmod (p : Int) : Int) : ZMod p) = (a : ZMod p) ^ t := by
    rw [fmod_cast _ (by omega)]; push_cast; rfl
  have hf0 : 0 ≤ (a ^ t).fmod (p : Int) := Int.fmod_nonneg_of_pos _ (by omega)
  have hf1 : (a ^ t).fmod (p : Int) < p := Int.fmod_lt_of_pos _ (by omega)
  generalize (a ^ t).fmod (p : Int) = y at *
  split
  next h =>
    have hpow : (y : ZMod p) ^ (2 ^ s) = 1 := by
      rw [hcast, ← pow_mul, hts, ZMod.pow_card_sub_one_eq_one ha]
    rcases Nat.eq_zero_or_pos s with rfl | hspos
    · exfalso
      apply h.1
      exact eq_of_cast_eq hf0 hf1 (by omega) (by omega) (by simpa using hpow)
    · rw [squareLoop_prime (s - 1) y hf0 hf1 h.1 (by rw [← hpow]; congr 2; omega)]
      simp
  next => rfl

theorem dvd_fmod {q n y : Int} (hqn : q ∣ n) (hy : q ∣ y) : q ∣ y.fmod n := by
  rw [Int.fmod_def]
  exact dvd_sub hy (Dvd.dvd.mul_right hqn _)

/-- If a prime divides `n` and `y`, no later square is 1 or `n - 1`. -/
theorem squareLoop_shared {n q : Int} (hqn : q ∣ n) (k : Nat) : ∀ y : Int, q ∣ y →
    ∀ z, squareLoop n k y = some z → q ∣ z := by
  induction k with
  | zero => intro y hy z h; rw [squareLoop] at h; injection h with h; exact h ▸ hy
  | succ k ih =>
    intro y hy z h
    rw [squareLoop] at h
    split at h
    · simp only at h
      split at h
      · simp at h
      · apply ih _ _ z h
        exact dvd_fmod hqn (Dvd.dvd.pow hy (by norm_num))
    · injection h with h; exact h ▸ hy

theorem millerRabinRound_shared {n q r a : Int} (hq : 1 < q) (hqn : q ∣ n) (hqa : q ∣ a)
    (hr : 0 < r) (s : Nat) : millerRabinRound n r s a = false := by
  have hn1 : ∀ y, q ∣ y → y ≠ 1 ∧ y ≠ n - 1 := by
    intro y hy
    constructor
    · rintro rfl
      have := Int.le_of_dvd (by omega) hy
      omega
    · rintro rfl
      have h1 : q ∣ 1 := by
        have := dvd_sub hqn hy
        simpa using this
      have := Int.le_of_dvd (by omega) h1
      omega
  have hy : q ∣ (a ^ r.toNat).fmod n := dvd_fmod hqn (Dvd.dvd.pow hqa (by omega))
  rw [millerRabinRound]
  rw [if_pos (hn1 _ hy)]
  split
  · rfl
  next z hz =>
    have := squareLoop_shared hqn _ _ hy z hz
    simpa using (hn1 z this).2


/-! ### is_prime -/

theorem roundsFrom_le (nBits : Int) (l : List (Int × Nat)) : ∀ t, t ≤ 40 → (∀ x ∈ l, x.2 ≤ 40) →
    roundsFrom nBits l t ≤ 40 := by
  induction l with
  | nil => intro t h _; exact h
  | cons x l ih =>
    intro t h h2
    obtain ⟨k, tt⟩ := x
    rw [roundsFrom]
    split
    · exact h
    · exact ih tt (h2 (k, tt) (by simp)) (fun y hy => h2 y (by simp [hy]))

theorem rounds_le (nBits : Int) : roundsFrom nBits roundTable 40 ≤ 40 :=
  roundsFrom_le nBits roundTable 40 (le_refl _) (by decide)

theorem roundsFrom_ge (nBits : Int) (l : List (Int × Nat)) : ∀ t, 2 ≤ t → (∀ x ∈ l, 2 ≤ x.2) →
    2 ≤ roundsFrom nBits l t := by
  induction l with
  | nil => intro t h _; exact h
  | cons x l ih =>
    intro t h h2
    obtain ⟨k, tt⟩ := x
    rw [roundsFrom]
    split
    · exact h
    · exact ih tt (h2 (k, tt) (by simp)) (fun y hy => h2 y (by simp [hy]))

theorem smallprimes_range : ∀ i < 40, 1 < smallprimes.getD i 0 ∧ smallprimes.getD i 0 < 1229 := by
  decide +kernel

/-- Trial division decides primality below the square of the bound. -/
theorem prime_iff_trial (b n : Nat) (h : n < b * b) :
    n.Prime ↔ 2 ≤ n ∧ ∀ d < b, 2 ≤ d → d < n → n % d ≠ 0 := by
  constructor
  · intro hp
    refine ⟨hp.two_le, fun d _ hd2 hdn h0 => ?_⟩
    rcases (Nat.dvd_prime hp).mp (Nat.dvd_of_mod_eq_zero h0) with h1 | h1 <;> omega
  · rintro ⟨h2, hd⟩
    by_contra hnp
    have hsq := Nat.minFac_sq_le_self (by omega) hnp
    have hmp := Nat.minFac_prime (show n ≠ 1 by omega)
    have hlt : n.minFac < b := by
      by_contra hcon
      have : b * b ≤ n.minFac ^ 2 := by rw [pow_two]; exact Nat.mul_le_mul (by omega) (by omega)
      omega
    have hne : n.minFac < n := by
      rcases Nat.lt_or_ge n.minFac n with h3 | h3
      · exact h3
      · exfalso
        have : n.minFac = n := le_antisymm (Nat.minFac_le (by omega)) h3
        rw [this] at hmp
        exact hnp hmp
    exact hd n.minFac hlt hmp.two_le hne (Nat.mod_eq_zero_of_dvd (Nat.minFac_dvd n))

/-- Executable form of trial division. -/
def trial (b n : Nat) : Bool :=
  Nat.ble 2 n && (List.range b).all fun d => !(Nat.ble 2 d) || !(Nat.blt d n) || !(Nat.beq (n % d) 0)

theorem trial_iff (b n : Nat) (h : n < b * b) : trial b n = true ↔ n.Prime := by
  rw [prime_iff_trial b n h, trial]
  simp only [Bool.and_eq_true, Nat.ble_eq, List.all_eq_true, List.mem_range, Bool.or_eq_true,
    Bool.not_eq_true', Nat.blt]
  constructor
  · rintro ⟨h1, h2⟩
    refine ⟨h1, fun d hd hd2 hdn h0 => ?_⟩
    rcases h2 d hd with (h3 | h3) | h3
    · rw [← Bool.not_eq_true, Nat.ble_eq] at h3; omega
    · rw [← Bool.not_eq_true, Nat.ble_eq] at h3; omega
    · rw [← Bool.not_eq_true, Nat.beq_eq] at h3; omega
  · rintro ⟨h1, h2⟩
    refine ⟨h1, fun d hd => ?_⟩
    rw [← Bool.not_eq_true, ← Bool.not_eq_true, ← Bool.not_eq_true, Nat.ble_eq, Nat.ble_eq, Nat.beq_eq]
    have := h2 d hd
    by_cases hd2 : 2 ≤ d
    · by_cases hdn : d < n
      · right; exact this hd2 hdn
      · left; right; omega
    · left; left; exact hd2

theorem smallprimes_check :
    ((List.range 1230).filter (trial 36)).map (fun n : Nat => (n : Int)) = smallprimes := by
  decide +kernel

theorem smallprimes_exact (n : Nat) (hn : n < 1230) : (n : Int) ∈ smallprimes ↔ n.Prime := by
  rw [← trial_iff 36 n (by omega), ← smallprimes_check, List.mem_map]
  constructor
  · rintro ⟨m, hm, he⟩
    have : m = n := by exact_mod_cast he
    rw [← this]
    exact (List.mem_filter.mp hm).2
  · intro h
    exact ⟨n, List.mem_filter.mpr ⟨List.mem_range.mpr hn, h⟩, rfl⟩

theorem smallprimes_nonneg : ∀ x ∈ smallprimes, 2 ≤ x ∧ x ≤ 1229 := by decide +kernel

theorem isPrime_small (log2 : Int → Int) (n : Int) (h : n ≤ 1229) :
    isPrime log2 n = true ↔ 0 ≤ n ∧ n.toNat.Prime := by
  rw [isPrime, if_pos (show n ≤ lastSmallprime from h), decide_eq_true_iff]
  constructor
  · intro hm
    have h2 := smallprimes_nonneg n hm
    refine ⟨by omega, (smallprimes_exact n.toNat (by omega)).mp ?_⟩
    rwa [Int.toNat_of_nonneg (by omega)]
  · rintro ⟨h0, hp⟩
    have := (smallprimes_exact n.toNat (by omega)).mpr hp
    rwa [Int.toNat_of_nonneg h0] at this

theorem isPrime_of_prime (log2 : Int → Int) (p : Nat) (hp : p.Prime) : isPrime log2 p = true := by
  by_cases h : (p : Int) ≤ 1229
  · rw [isPrime_small _ _ h]; exact ⟨by omega, by simpa using hp⟩
  have : Fact p.Prime := ⟨hp⟩
  rw [isPrime, if_neg (show ¬ (p : Int) ≤ lastSmallprime from h), if_neg, List.all_eq_true]
  · intro i hi
    have hi' : i < 40 := lt_of_lt_of_le (List.mem_range.mp hi) (rounds_le _)
    have hr := smallprimes_range i hi'
    apply millerRabinRound_prime
    rw [Ne, ZMod.intCast_zmod_eq_zero_iff_dvd]
    intro hd
    have := Int.le_of_dvd (by omega) hd
    omega
  · rw [gcd2_pos_eq _ _ (by omega)]
    have : Int.gcd (p : Int) 2310 = 1 := by
      rw [Int.gcd_def]
      change Nat.gcd p 2310 = 1
      rw [← Nat.coprime_iff_gcd_eq_one, hp.coprime_iff_not_dvd]
      intro hd
      have h3 : p ∣ 2 * 3 * 5 * 7 * 11 := hd
      simp only [hp.dvd_mul] at h3
      rcases h3 with (((h3 | h3) | h3) | h3) | h3 <;> have := Nat.le_of_dvd (by omega) h3 <;> omega
    simp [this]

theorem isPrime_false_of_small_factor (log2 : Int → Int) (n q : Int) (h : 1229 < n) (hq : 1 < q)
    (hq2 : q ∣ 2310) (hqn : q ∣ n) : isPrime log2 n = false := by
  rw [isPrime, if_neg (by simp only [lastSmallprime]; omega), if_pos]
  intro h1
  have : q ∣ gcd2 n (2 * 3 * 5 * 7 * 11) := (dvd_gcd2_iff _ _ _).mpr ⟨hqn, hq2⟩
  rw [h1] at this
  have := Int.le_of_dvd (by omega) this
  omega

/-! ### A composite accepted by `is_prime` -/

/-- Three primes found by the method of Arnault; their product is a strong pseudoprime to the 40
smallest prime bases. -/
def liarP : Nat := 991382306367499482825468350838013179899992871730703785257327734249328696463283
/-- The second factor. -/
def liarQ : Nat := 179440197452517406391409771501680385561898709783257385131576319899128494059854043
/-- The third factor. -/
def liarR : Nat := 191336785128927400185315391711736543720698624244025830554664252710120438417413427
/-- The composite number. -/
def liar : Nat := liarP * liarQ * liarR

theorem liar_rounds :
    ((List.range 40).all fun i =>
      let a := (smallprimes.getD i 0).toNat
      let y := Cert.powMod 800 a ((liar - 1) / 2) liar 1
      decide (y = 1 ∨ y = liar - 1)) = true := by
  decide +kernel

theorem liar_split : splitTwo ((liar : Int) - 1) 0 = ((((liar - 1) / 2 : Nat) : Int), 1) := by
  have h1 : liar % 4 = 3 := by decide +kernel
  generalize liar = n at *
  rw [splitTwo, dif_pos (by omega), splitTwo, dif_neg (by omega)]
  congr 1
  omega

theorem liar_gcd : gcd2 (liar : Int) (2 * 3 * 5 * 7 * 11) = 1 := by
  rw [gcd2_eq _ _ (by omega) (by norm_num)]
  have : Nat.gcd liar 2310 = 1 := by decide +kernel
  have h : Int.gcd (liar : Int) (2 * 3 * 5 * 7 * 11) = Nat.gcd liar 2310 := rfl
  rw [h, this]; rfl

theorem liar_accepted (log2 : Int → Int) : isPrime log2 (liar : Int) = true := by
  have hbig : 1229 < liar := by decide +kernel
  have hexp : (liar - 1) / 2 < 2 ^ 800 := by decide +kernel
  have hrounds := liar_rounds
  have hsplit := liar_split
  have hgcd := liar_gcd
  generalize liar = n at *
  rw [isPrime, if_neg (by simp only [lastSmallprime]; omega), if_neg (not_not.mpr hgcd), List.all_eq_true]
  intro i hi
  have hi' : i < 40 := lt_of_lt_of_le (List.mem_range.mp hi) (rounds_le _)
  have hr := smallprimes_range i hi'
  rw [List.all_eq_true] at hrounds
  have h1 := of_decide_eq_true (hrounds i (List.mem_range.mpr hi'))
  rw [hsplit]
  simp only
  generalize smallprimes.getD i 0 = a at *
  obtain ⟨b, rfl⟩ : ∃ b : Nat, a = b := ⟨a.toNat, by omega⟩
  rw [Int.toNat_natCast] at h1
  have hm := Cert.powMod_eq 800 b ((n - 1) / 2) n 1 hexp
  have hlt := Cert.powMod_lt 800 b ((n - 1) / 2) n 1 (by omega)
  rw [one_mul] at hm
  have hy : (((b : Int)) ^ (((n - 1) / 2 : Nat) : Int).toNat).fmod (n : Int)
      = (Cert.powMod 800 b ((n - 1) / 2) n 1 : Nat) := by
    rw [Int.toNat_natCast, fmod_pos_eq _ (by omega)]
    have h2 : b ^ ((n - 1) / 2) % n = Cert.powMod 800 b ((n - 1) / 2) n 1 := by
      rw [← hm, Nat.mod_eq_of_lt hlt]
    rw [← h2]; push_cast; rfl
  rw [millerRabinRound, hy]
  generalize Cert.powMod 800 b ((n - 1) / 2) n 1 = y at *
  rw [if_neg]
  rintro ⟨h3, h4⟩
  omega

theorem liar_composite : ¬ liar.Prime := by
  have h1 : liarP ≠ 1 := by decide +kernel
  have h2 : liarQ * liarR ≠ 1 := by decide +kernel
  rw [liar, mul_assoc]
  exact Nat.not_prime_mul h1 h2

/-! ### next_prime -/

theorem nextPrimeLoop_spec (log2 : Int → Int) (k : Nat) : ∀ r : Int, isPrime log2 (r + 2 * k) = true →
    ∃ j : Nat, j ≤ k ∧ nextPrimeLoop log2 r = some (r + 2 * j) ∧ isPrime log2 (r + 2 * j) = true ∧
      ∀ i < j, isPrime log2 (r + 2 * (i : Int)) = false := by
  induction k with
  | zero =>
    intro r h
    refine ⟨0, le_refl _, ?_, h, by simp⟩
    rw [nextPrimeLoop, if_pos (by simpa using h)]; simp
  | succ k ih =>
    intro r h
    by_cases hr : isPrime log2 r = true
    · exact ⟨0, by omega, by rw [nextPrimeLoop, if_pos hr]; simp, by simpa using hr, by simp⟩
    · obtain ⟨j, h1, h2, h3, h4⟩ := ih (r + 2) (by rw [← h]; congr 1; push_cast; ring)
      have e : ∀ i : Nat, r + 2 + 2 * (i : Int) = r + 2 * ((i + 1 : Nat) : Int) := by
        intro i; push_cast; ring
      refine ⟨j + 1, by omega, ?_, ?_, ?_⟩
      · rw [nextPrimeLoop, if_neg hr, h2, e]
      · rw [← e]; exact h3
      · intro i hi
        cases i with
        | zero => simpa using hr
        | succ i => rw [← e]; exact h4 i (by omega)

end Cryptopy.Model
