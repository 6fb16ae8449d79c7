import Mathlib.NumberTheory.Bertrand
import Verif.Lemmas.Factor
import Verif.Lemmas.Order
import Verif.Lemmas.PolyMod

/-!
Properties C54-C70: number theory (`ecc/numbertheory.py`, `fmath/prime.py`).
-/

namespace Cryptopy
open Model Spec

/-! ### C54: inverse_mod -/

/-- C54: for every modulus `m ≥ 1`, `inverse_mod(a, m)` is the inverse in `[1, m]` when `a` is coprime
to `m`, and an `AssertionError` otherwise. -/
theorem C54_inverse_mod (a m : Int) (hm : 1 ≤ m) :
    (Int.gcd a m ≠ 1 → inverseMod a m = .error .assertion) ∧
    (Int.gcd a m = 1 → ∃ r, inverseMod a m = .ok r ∧ 1 ≤ r ∧ r ≤ m ∧ (1 < m → r < m) ∧
      m ∣ a * r - 1) := by
  rw [inverseMod]
  by_cases h : a < 0 ∨ m ≤ a
  · rw [if_pos h, if_neg (by omega)]
    have := inverseModCore_spec (a.fmod m) m (by omega) (Int.fmod_nonneg_of_pos _ (by omega))
      (Int.fmod_lt_of_pos _ (by omega))
    rw [gcd_fmod_left] at this
    refine ⟨this.1, fun hg => ?_⟩
    obtain ⟨r, h1, h2, h3, h4, h5⟩ := this.2 hg
    refine ⟨r, h1, h2, h3, h4, ?_⟩
    have h6 : a * r - 1 = (a.fmod m * r - 1) + m * (a.fdiv m * r) := by
      have := Int.fmod_add_mul_fdiv a m
      calc a * r - 1 = (a.fmod m + m * a.fdiv m) * r - 1 := by rw [this]
        _ = _ := by ring
    rw [h6]
    exact dvd_add h5 (dvd_mul_right m _)
  · rw [if_neg h]
    exact inverseModCore_spec a m (by omega) (by omega) (by omega)

/-- C54: `m = 0` is a `ZeroDivisionError`. -/
theorem C54_zero_modulus (a : Int) : inverseMod a 0 = .error .zeroDivision := by
  rw [inverseMod, if_pos (by omega), if_pos rfl]

example : ∃ r, inverseMod (-3) 7 = .ok r ∧ 1 ≤ r ∧ r ≤ 7 ∧ (1 < (7 : Int) → r < 7) ∧ (7 : Int) ∣ -3 * r - 1 :=
  (C54_inverse_mod (-3) 7 (by decide)).2 (by decide)
example : inverseMod 6 9 = .error .assertion := (C54_inverse_mod 6 9 (by decide)).1 (by decide)

/-! ### C55: gcd and lcm -/

/-- C55: `gcd2` of non-negative arguments is the greatest common divisor. -/
theorem C55_gcd2 (a b : Int) (ha : 0 ≤ a) (hb : 0 ≤ b) : gcd2 a b = Int.gcd a b := gcd2_eq a b ha hb

/-- C55: for arguments of any sign the absolute value is, and the sign is that of a non-zero first
argument. -/
theorem C55_gcd2_signed (a b : Int) :
    (gcd2 a b).natAbs = Int.gcd a b ∧ (0 < a → 0 < gcd2 a b) ∧ (a < 0 → gcd2 a b < 0) :=
  ⟨gcd2_natAbs a b, gcd2_pos a b, gcd2_neg a b⟩

/-- C55: `gcd` of a non-empty argument list divides exactly as the common divisors of the list, and is
non-negative when the arguments are. -/
theorem C55_gcd_list (x : Int) (xs : List Int) :
    ∃ g, gcdArgs (x :: xs) = .ok g ∧ gcdList (x :: xs) = .ok g ∧
      (∀ d, d ∣ g ↔ ∀ y ∈ x :: xs, d ∣ y) ∧ ((∀ y ∈ x :: xs, 0 ≤ y) → 0 ≤ g) := by
  refine ⟨xs.foldl gcd2 x, rfl, rfl, fun d => ?_, fun h => ?_⟩
  · rw [dvd_foldl_gcd2]; simp
  · exact foldl_gcd2_nonneg xs x (h x (by simp)) (fun y hy => h y (by simp [hy]))

/-- C55: `lcm` of a non-empty list of positive integers is positive and divides exactly the common
multiples of the list. -/
theorem C55_lcm_list (x : Int) (xs : List Int) (h : ∀ y ∈ x :: xs, 0 < y) :
    ∃ l, lcmArgs (x :: xs) = .ok l ∧ lcmList (x :: xs) = .ok l ∧ 0 < l ∧
      ∀ m, l ∣ m ↔ ∀ y ∈ x :: xs, y ∣ m := by
  obtain ⟨r, h1, h2, h3⟩ := foldlM_lcm2 xs x (h x (by simp)) (fun y hy => h y (by simp [hy]))
  exact ⟨r, h1, h1, h2, fun m => by rw [h3]; simp⟩

/-- C55: empty argument lists raise, and so does `lcm2(0, 0)`. -/
theorem C55_errors : gcdArgs [] = .error .index ∧ gcdList [] = .error .type ∧
    lcmArgs [] = .error .index ∧ lcmList [] = .error .type ∧ lcm2 0 0 = .error .zeroDivision := by
  refine ⟨rfl, rfl, rfl, rfl, ?_⟩
  have h : gcd2 0 0 = 0 := by rw [gcd2, dif_neg (by simp)]
  rw [lcm2]
  simp only [h]
  rfl

example : gcd2 12 18 = 6 := C55_gcd2 12 18 (by decide) (by decide)
example : ∃ l, lcmArgs [4, 6] = .ok l ∧ lcmList [4, 6] = .ok l ∧ 0 < l ∧
    ∀ m, l ∣ m ↔ ∀ y ∈ [(4 : Int), 6], y ∣ m := C55_lcm_list 4 [6] (by decide)

/-! ### C56: jacobi -/

/-- C56: `jacobi` is the Jacobi symbol for odd `n ≥ 3`. -/
theorem C56_jacobi (a n : Int) (hn : 3 ≤ n) (hodd : n % 2 = 1) :
    jacobi a n = .ok (jacobiSym a n.toNat) := jacobi_eq a n hn hodd

/-- C56: any other `n` is rejected. -/
theorem C56_precondition (a n : Int) (h : n < 3 ∨ n % 2 = 0) : jacobi a n = .error .assertion :=
  jacobi_error a n h

example : jacobi 7 15 = .ok (jacobiSym 7 15) := C56_jacobi 7 15 (by decide) (by decide)

/-! ### C57: square_root_mod_prime -/

/-- C57: for every prime `p` and `0 ≤ a < p`, a reduced square root is returned when `a` is a square
modulo `p`; otherwise `SquareRootError` is raised. -/
theorem C57_square_root (p : Nat) (hp : p.Prime) (a : Int) (ha0 : 0 ≤ a) (hap : a < p) :
    ((∃ x : Int, x * x ≡ a [ZMOD p]) →
      ∃ r, squareRootModPrime a p = .ok r ∧ 0 ≤ r ∧ r < p ∧ r * r ≡ a [ZMOD p]) ∧
    ((¬ ∃ x : Int, x * x ≡ a [ZMOD p]) → squareRootModPrime a p = .error .squareRoot) := by
  have : Fact p.Prime := ⟨hp⟩
  constructor
  · rintro ⟨x, hx⟩
    obtain ⟨r, h1, h2, h3, h4⟩ := squareRootModPrime_residue (p := p) a ha0 hap ⟨(x : ZMod p), by
      have := (ZMod.intCast_eq_intCast_iff _ _ _).mpr hx
      push_cast at this
      exact this.symm⟩
    refine ⟨r, h1, h2, h3, (ZMod.intCast_eq_intCast_iff _ _ _).mp ?_⟩
    push_cast
    rw [← pow_two]; exact h4
  · intro h
    apply squareRootModPrime_nonresidue (p := p) a ha0 hap
    rintro ⟨y, hy⟩
    apply h
    refine ⟨(y.val : Int), (ZMod.intCast_eq_intCast_iff _ _ _).mp ?_⟩
    push_cast
    rw [ZMod.natCast_zmod_val]; exact hy.symm

/-- C57: arguments out of range raise `AssertionError`. -/
theorem C57_range (a p : Int) (h : a < 0 ∨ p ≤ a) : squareRootModPrime a p = .error .assertion := by
  rw [squareRootModPrime, Py.assert, if_neg (by omega)]; rfl

example : ∃ r, squareRootModPrime 13 17 = .ok r ∧ 0 ≤ r ∧ r < (17 : Nat) ∧ r * r ≡ 13 [ZMOD (17 : Nat)] :=
  (C57_square_root 17 (by norm_num) 13 (by decide) (by decide)).1 ⟨8, by decide⟩
example : squareRootModPrime 3 (7 : Nat) = .error .squareRoot :=
  (C57_square_root 7 (by norm_num) 3 (by decide) (by decide)).2 (by
    rintro ⟨x, hx⟩
    have h1 : x % 7 = 0 ∨ x % 7 = 1 ∨ x % 7 = 2 ∨ x % 7 = 3 ∨ x % 7 = 4 ∨ x % 7 = 5 ∨ x % 7 = 6 := by omega
    have h2 : x * x % 7 = 3 := hx
    rw [Int.mul_emod] at h2
    rcases h1 with h | h | h | h | h | h | h <;> rw [h] at h2 <;> omega)

/-! ### C58: modular_sqrt -/

private theorem legendre_one_iff (p : Nat) [Fact p.Prime] (a : Int) :
    legendreSym p a = 1 ↔ ¬ (p : Int) ∣ a ∧ ∃ x : Int, x * x ≡ a [ZMOD p] := by
  by_cases h0 : (a : ZMod p) = 0
  · rw [(legendreSym.eq_zero_iff p a).mpr h0]
    rw [ZMod.intCast_zmod_eq_zero_iff_dvd] at h0
    simp [h0]
  · rw [legendreSym.eq_one_iff p h0]
    rw [ZMod.intCast_zmod_eq_zero_iff_dvd] at h0
    constructor
    · rintro ⟨y, hy⟩
      refine ⟨h0, (y.val : Int), (ZMod.intCast_eq_intCast_iff _ _ _).mp ?_⟩
      push_cast
      rw [ZMod.natCast_zmod_val]; exact hy.symm
    · rintro ⟨_, x, hx⟩
      have := (ZMod.intCast_eq_intCast_iff _ _ _).mpr hx
      push_cast at this
      exact ⟨x, this.symm⟩

/-- C58: for every odd prime and every integer, Tonelli-Shanks terminates with a reduced root of a
non-zero square, and with 0 otherwise. -/
theorem C58_modular_sqrt (p : Nat) (hp : p.Prime) (hp2 : p ≠ 2) (a : Int) :
    ((¬ (p : Int) ∣ a ∧ ∃ x : Int, x * x ≡ a [ZMOD p]) →
      ∃ r, modularSqrt a p = some (.ok r) ∧ 0 < r ∧ r < p ∧ r * r ≡ a [ZMOD p]) ∧
    (¬ (¬ (p : Int) ∣ a ∧ ∃ x : Int, x * x ≡ a [ZMOD p]) → modularSqrt a p = some (.ok 0)) := by
  have : Fact p.Prime := ⟨hp⟩
  constructor
  · intro h
    obtain ⟨r, h1, h2, h3, h4⟩ := modularSqrt_residue hp2 a ((legendre_one_iff p a).mpr h)
    have h5 : r * r ≡ a [ZMOD p] := by
      apply (ZMod.intCast_eq_intCast_iff _ _ _).mp
      push_cast
      rw [← pow_two]; exact h4
    refine ⟨r, h1, ?_, h3, h5⟩
    rcases Int.lt_or_eq_of_le h2 with h6 | h6
    · exact h6
    · exfalso
      apply h.1
      rw [← h6] at h5
      have := Int.ModEq.dvd h5
      simpa using this
  · intro h
    exact modularSqrt_nonresidue hp2 a (fun hl => h ((legendre_one_iff p a).mp hl))

/-- C58: for `p = 2` it returns 0 for every `a`, also for odd `a`, whose root is 1. -/
theorem C58_modular_sqrt_two (a : Int) : modularSqrt a 2 = some (.ok 0) := modularSqrt_two a

example : ∃ r, modularSqrt 13 (17 : Nat) = some (.ok r) ∧ 0 < r ∧ r < (17 : Nat) ∧ r * r ≡ 13 [ZMOD (17 : Nat)] :=
  (C58_modular_sqrt 17 (by norm_num) (by decide) 13).1 ⟨by decide, 8, by decide⟩

/-! ### C59: legendre_symbol -/

/-- C59: for every odd prime, `legendre_symbol` is 0, 1 or -1 according to whether `p` divides `a`,
`a` is a non-zero square, or not a square. -/
theorem C59_legendre (p : Nat) (hp : p.Prime) (hp2 : p ≠ 2) (a : Int) :
    ∃ l, legendreSymbol a p = .ok l ∧
      ((p : Int) ∣ a → l = 0) ∧
      (¬ (p : Int) ∣ a → (∃ x : Int, x * x ≡ a [ZMOD p]) → l = 1) ∧
      ((¬ ∃ x : Int, x * x ≡ a [ZMOD p]) → l = -1) := by
  have : Fact p.Prime := ⟨hp⟩
  refine ⟨_, legendreSymbol_eq hp2 a, ?_, ?_, ?_⟩
  · intro h
    rw [legendreSym.eq_zero_iff, ZMod.intCast_zmod_eq_zero_iff_dvd]; exact h
  · intro h1 h2
    exact (legendre_one_iff p a).mpr ⟨h1, h2⟩
  · intro h
    rw [legendreSym.eq_neg_one_iff]
    rintro ⟨y, hy⟩
    apply h
    refine ⟨(y.val : Int), (ZMod.intCast_eq_intCast_iff _ _ _).mp ?_⟩
    push_cast
    rw [ZMod.natCast_zmod_val]; exact hy.symm

/-- C59: for `p = 2` the result is -1 for every `a`, squares included. -/
theorem C59_legendre_two (a : Int) : legendreSymbol a 2 = .ok (-1) := legendreSymbol_two a

example : ∃ l, legendreSymbol 2 (7 : Nat) = .ok l ∧ l = 1 := by
  obtain ⟨l, h1, -, h2, -⟩ := C59_legendre 7 (by norm_num) (by decide) 2
  exact ⟨l, h1, h2 (by decide) ⟨3, by decide⟩⟩

/-! ### C60: factorization -/

/-- C60: for every `n ≥ 1` the search terminates and the pairs have strictly increasing bases,
positive exponents and product `n`; every base but the last is prime, and the last one is prime, or
it has exponent 1, passed `is_prime` and has no prime factor up to 1229.  The float logarithm in
`is_prime` is arbitrary. -/
theorem C60_factorization (log2 : Int → Int) (n : Int) (hn : 1 ≤ n) :
    ∃ l, factorization log2 n = some l ∧
      (l.map Prod.fst).Pairwise (· < ·) ∧ (∀ f ∈ l, 1 ≤ f.2) ∧
      (l.map fun f => f.1 ^ f.2).prod = n ∧
      (∀ f ∈ l.dropLast, f.1.toNat.Prime) ∧
      (∀ f ∈ l.getLast?, f.1.toNat.Prime ∨
        (f.2 = 1 ∧ isPrime log2 f.1 = true ∧ ∀ r : Nat, r.Prime → (r : Int) ∣ f.1 → 1229 < r)) := by
  by_cases hn2 : n < 2
  · have : n = 1 := by omega
    exact ⟨[], by rw [factorization, if_pos hn2], by simp, by simp, by simp [this], by simp, by simp⟩
  obtain ⟨l, h1, h2, d, h3⟩ := factorization_spec log2 n (by omega)
  refine ⟨l, h1, ?_, ?_, h2, ?_, ?_⟩
  · rcases h3 with h3 | ⟨l', q, rfl, h4, h5, h6, h7⟩
    · exact h3.2
    · rw [List.map_append, List.pairwise_append]
      refine ⟨h4.2, by simp, ?_⟩
      intro a ha b hb
      obtain ⟨f, hf, rfl⟩ := List.mem_map.mp ha
      have := (h4.1 f hf).2.2
      simp at hb
      omega
  · rcases h3 with h3 | ⟨l', q, rfl, h4, h5, h6, h7⟩
    · exact fun f hf => (h3.1 f hf).2.1
    · intro f hf
      rcases List.mem_append.mp hf with hf | hf
      · exact (h4.1 f hf).2.1
      · rw [List.mem_singleton.mp hf]
  · rcases h3 with h3 | ⟨l', q, rfl, h4, h5, h6, h7⟩
    · exact fun f hf => (h3.1 f (List.dropLast_subset _ hf)).1
    · rw [List.dropLast_concat]
      exact fun f hf => (h4.1 f hf).1
  · rcases h3 with h3 | ⟨l', q, rfl, h4, h5, h6, h7⟩
    · exact fun f hf => .inl (h3.1 f (List.mem_of_getLast? hf)).1
    · intro f hf
      rw [List.getLast?_concat] at hf
      have : f = (q, 1) := by simpa using hf.symm
      rw [this]
      exact .inr ⟨rfl, h6, h7⟩
example := C60_factorization (fun _ => 20) (2 ^ 3 * 1231 * 1237) (by decide)

/-- C60: below 2 the list is empty. -/
theorem C60_below_two (log2 : Int → Int) (n : Int) (hn : n < 2) : factorization log2 n = some [] := by
  rw [factorization, if_pos hn]
example := C60_below_two (fun _ => 0) (-5) (by decide)

/-- C60: below 1231² the factorization is complete. -/
theorem C60_complete_small (log2 : Int → Int) (n : Int) (hn : n < 1231 * 1231) :
    ∃ l, factorization log2 n = some l ∧ ∀ f ∈ l, f.1.toNat.Prime := by
  by_cases hn1 : n < 2
  · exact ⟨[], C60_below_two log2 n hn1, by simp⟩
  obtain ⟨l, h1, h2, d, h3⟩ := factorization_spec log2 n (by omega)
  refine ⟨l, h1, ?_⟩
  rcases h3 with h3 | ⟨l', q, rfl, h4, h5, h6, h7⟩
  · exact fun f hf => (h3.1 f hf).1
  · intro f hf
    rcases List.mem_append.mp hf with hf | hf
    · exact (h4.1 f hf).1
    · rw [List.mem_singleton.mp hf]
      simp only
      by_contra hnp
      have hp := Nat.minFac_prime (show q.toNat ≠ 1 by omega)
      have hdv : ((q.toNat.minFac : Nat) : Int) ∣ q := by
        have := Nat.minFac_dvd q.toNat
        have h2 : ((q.toNat.minFac : Nat) : Int) ∣ ((q.toNat : Nat) : Int) := by exact_mod_cast this
        rwa [Int.toNat_of_nonneg (by omega)] at h2
      have hgt := h7 _ hp hdv
      have hsq := Nat.minFac_sq_le_self (show 0 < q.toNat by omega) hnp
      have h1230 : q.toNat.minFac ≠ 1230 := by
        intro he
        rw [he] at hp
        revert hp
        norm_num
      have h8 : 1231 * 1231 ≤ q.toNat.minFac ^ 2 := by
        rw [pow_two]; exact Nat.mul_le_mul (by omega) (by omega)
      have hqn : q ≤ n := by
        apply Int.le_of_dvd (by omega)
        rw [← h2, factorProduct_append, pow_one]
        exact dvd_mul_left q _
      omega

example : ∃ l, factorization (fun _ => 0) 1230 = some l ∧ ∀ f ∈ l, f.1.toNat.Prime :=
  C60_complete_small _ 1230 (by decide)

/-! ### C61, C62: totient and Carmichael function -/

private theorem complete_of (log2 : Int → Int) (n : Int) (hn : 1 ≤ n) (l : List (Int × Nat))
    (hl : factorization log2 n = some l) (hc : ∀ f ∈ l, f.1.toNat.Prime) :
    Complete l ∧ natProduct l = n.toNat := by
  obtain ⟨l', h1, h2, h3, h4, -, -⟩ := C60_factorization log2 n hn
  rw [hl] at h1
  injection h1 with h1
  subst h1
  have hcomp : Complete l := ⟨fun f hf => ⟨hc f hf, h3 f hf⟩, h2⟩
  refine ⟨hcomp, ?_⟩
  have h5 := factorProduct_natProduct hcomp
  have h6 : factorProduct l = n := h4
  omega

/-- C61: `phi(n)` is Euler's totient whenever the bases found are all prime. -/
theorem C61_phi (log2 : Int → Int) (n : Int) (hn : 1 ≤ n) (l : List (Int × Nat))
    (hl : factorization log2 n = some l) (hc : ∀ f ∈ l, f.1.toNat.Prime) :
    phi log2 n = some (n.toNat.totient : Int) := by
  obtain ⟨h1, h2⟩ := complete_of log2 n hn l hl hc
  rw [phi]
  by_cases h3 : n < 3
  · rw [if_pos h3]
    have : n = 1 ∨ n = 2 := by omega
    rcases this with rfl | rfl
    · rfl
    · rfl
  · rw [if_neg h3, hl, Option.map_some, phiOfFactors_eq h1, h2]

/-- C61: in particular for every `1 ≤ n < 1231²`; for `n ≤ 0` it is 1. -/
theorem C61_phi_small (log2 : Int → Int) (n : Int) :
    (1 ≤ n → n < 1231 * 1231 → phi log2 n = some (n.toNat.totient : Int)) ∧
    (n ≤ 0 → phi log2 n = some 1) := by
  constructor
  · intro h1 h2
    obtain ⟨l, hl, hc⟩ := C60_complete_small log2 n h2
    exact C61_phi log2 n h1 l hl hc
  · intro h
    rw [phi, if_pos (by omega)]

/-- C62: `carmichael(n)` is the least positive exponent annihilating all units modulo `n`, whenever
the bases found are all prime. -/
theorem C62_carmichael (log2 : Int → Int) (n : Nat) (hn : 1 ≤ n) (l : List (Int × Nat))
    (hl : factorization log2 n = some l) (hc : ∀ f ∈ l, f.1.toNat.Prime) :
    ∃ c : Nat, carmichael log2 n = some (.ok (c : Int)) ∧
      IsLeast {x : Nat | 0 < x ∧ ∀ a : Nat, Nat.Coprime a n → a ^ x ≡ 1 [MOD n]} c := by
  obtain ⟨h1, h2⟩ := complete_of log2 n (by omega) l hl hc
  rw [Int.toNat_natCast] at h2
  refine ⟨ArithmeticFunction.carmichael n, ?_, carmichael_isLeast (by omega)⟩
  rw [carmichael, hl, Option.map_some, carmichaelOfFactorized_eq h1, h2]

/-- C62: in particular for every `1 ≤ n < 1231²`. -/
theorem C62_carmichael_small (log2 : Int → Int) (n : Nat) (hn : 1 ≤ n) (h : n < 1231 * 1231) :
    ∃ c : Nat, carmichael log2 n = some (.ok (c : Int)) ∧
      IsLeast {x : Nat | 0 < x ∧ ∀ a : Nat, Nat.Coprime a n → a ^ x ≡ 1 [MOD n]} c := by
  obtain ⟨l, hl, hc⟩ := C60_complete_small log2 n (by omega)
  exact C62_carmichael log2 n hn l hl hc

example : phi (fun _ => 0) 1230 = some ((1230 : Int).toNat.totient : Int) :=
  (C61_phi_small _ 1230).1 (by decide) (by decide)
example : ∃ c : Nat, carmichael (fun _ => 0) (561 : Nat) = some (.ok (c : Int)) ∧
    IsLeast {x : Nat | 0 < x ∧ ∀ a : Nat, Nat.Coprime a 561 → a ^ x ≡ 1 [MOD 561]} c :=
  C62_carmichael_small _ 561 (by decide) (by decide)

/-! ### C63: order_mod -/

/-- C63: for `m ≥ 2` and positive `x` coprime to `m` the loop ends with the least positive `k` with
`x^k ≡ 1`, except that for `x ≡ 1 (mod m)` with `x ≠ 1` it ends with 2. -/
theorem C63_order_mod (m : Nat) (hm : 2 ≤ m) (x : Int) (hx : 0 < x) (hg : Int.gcd x m = 1) :
    ∃ k : Nat, orderMod x m = some (.ok (k : Int)) ∧
      (¬ (x ≡ 1 [ZMOD m] ∧ x ≠ 1) → IsLeast {i : Nat | 0 < i ∧ x ^ i ≡ 1 [ZMOD m]} k) ∧
      (x ≡ 1 [ZMOD m] ∧ x ≠ 1 → k = 2) := by
  have : NeZero m := ⟨by omega⟩
  have hiff : (x : ZMod m) = 1 ↔ x ≡ 1 [ZMOD m] := by
    rw [← ZMod.intCast_eq_intCast_iff]; simp
  have hpow : ∀ i : Nat, (x : ZMod m) ^ i = 1 ↔ x ^ i ≡ 1 [ZMOD m] := by
    intro i
    rw [← ZMod.intCast_eq_intCast_iff]; simp
  by_cases h1 : x ≡ 1 [ZMOD m] ∧ x ≠ 1
  · refine ⟨2, ?_, fun h => absurd h1 h, fun _ => rfl⟩
    rw [orderMod_coprime m hm x hx hg, if_pos ⟨hiff.mpr h1.1, h1.2⟩]; rfl
  · refine ⟨orderOf (x : ZMod m), ?_, fun _ => ⟨⟨?_, ?_⟩, ?_⟩, fun h => absurd h h1⟩
    · rw [orderMod_coprime m hm x hx hg, if_neg (by rw [hiff]; exact h1)]
    · have hu : IsUnit (x : ZMod m) := by
        obtain ⟨n, rfl⟩ : ∃ n : Nat, x = n := ⟨x.toNat, by omega⟩
        rw [Int.cast_natCast, ZMod.isUnit_iff_coprime]
        exact hg
      obtain ⟨u, hu⟩ := hu
      rw [← hu, orderOf_units]; exact orderOf_pos u
    · rw [← hpow]; exact pow_orderOf_eq_one _
    · rintro i ⟨hi, hi1⟩
      exact orderOf_le_of_pow_eq_one hi ((hpow i).mpr hi1)

/-- C63: `m ≤ 1` gives 0; for `m ≥ 2` an `x` that is not coprime to `m`, or not positive, is an
`AssertionError`. -/
theorem C63_order_mod_rejects (m x : Int) :
    (m ≤ 1 → orderMod x m = some (.ok 0)) ∧
    (2 ≤ m → (Int.gcd x m ≠ 1 ∨ x ≤ 0) → orderMod x m = some (.error .assertion)) :=
  ⟨orderMod_trivial m x, fun h => orderMod_not_coprime m x (by omega)⟩

example : ∃ k : Nat, orderMod 3 (7 : Nat) = some (.ok (k : Int)) ∧
    (¬ (3 ≡ 1 [ZMOD (7 : Nat)] ∧ (3 : Int) ≠ 1) → IsLeast {i : Nat | 0 < i ∧ (3 : Int) ^ i ≡ 1 [ZMOD (7 : Nat)]} k) ∧
    (3 ≡ 1 [ZMOD (7 : Nat)] ∧ (3 : Int) ≠ 1 → k = 2) := C63_order_mod 7 (by decide) 3 (by decide) (by decide)
example : (8 : Int) ≡ 1 [ZMOD (7 : Nat)] ∧ (8 : Int) ≠ 1 := by decide

/-! ### C64: largest_factor_relatively_prime -/

/-- C64: for `a ≥ 1` and every `b` the function terminates with the largest divisor of `a` that is
coprime to `b`. -/
theorem C64_largest_factor (a : Nat) (b : Int) (ha : 1 ≤ a) :
    ∃ r : Nat, largestFactor a b = some (r : Int) ∧ IsGreatest {c : Nat | c ∣ a ∧ Int.gcd c b = 1} r := by
  obtain ⟨r, h1, h2, h3, h4⟩ := largestFactor_spec a a b (le_refl _) ha
  refine ⟨r, h1, ⟨h2, h3⟩, ?_⟩
  rintro c ⟨hc1, hc2⟩
  exact Nat.le_of_dvd (Nat.pos_of_dvd_of_pos h2 (by omega)) (h4 c hc1 hc2)

/-- C64: for `a = 0` and `b ≥ 2` it does not terminate. -/
theorem C64_diverges (b : Int) (hb : 2 ≤ b) : largestFactor 0 b = none := largestFactor_zero b hb
example := C64_diverges 6 (by decide)

/-- C64: `kinda_order_mod(x, m)` is the order of `x` modulo that factor of `m`, for `1 < x < m'`. -/
theorem C64_kinda_order (m : Nat) (x : Int) (hm : 1 ≤ m) (hx : 0 < x) :
    ∃ r : Nat, IsGreatest {c : Nat | c ∣ m ∧ Int.gcd c x = 1} r ∧
      (r = 1 → kindaOrderMod x m = some (.ok 0)) ∧
      (x < r → ∃ k : Nat, kindaOrderMod x m = some (.ok (k : Int)) ∧
        IsLeast {i : Nat | 0 < i ∧ x ^ i ≡ 1 [ZMOD r]} k) := by
  obtain ⟨r, h1, h2⟩ := C64_largest_factor m x hm
  refine ⟨r, h2, ?_, ?_⟩
  · rintro rfl
    rw [kindaOrderMod, h1]
    exact orderMod_trivial _ _ (by simp)
  · intro hxr
    obtain ⟨k, h3, h4, -⟩ := C63_order_mod r (by omega) x hx (by rw [Int.gcd_comm]; exact h2.1.2)
    refine ⟨k, ?_, h4 ?_⟩
    · rw [kindaOrderMod, h1]; exact h3
    · rintro ⟨h5, h6⟩
      have h7 : x % (r : Int) = 1 % (r : Int) := h5
      rw [Int.emod_eq_of_lt (by omega) hxr, Int.emod_eq_of_lt (by omega) (by omega)] at h7
      exact h6 h7

example : ∃ r : Nat, largestFactor (12 : Nat) 2 = some (r : Int) ∧
    IsGreatest {c : Nat | c ∣ 12 ∧ Int.gcd c 2 = 1} r := C64_largest_factor 12 2 (by decide)

/-! ### C65, C66, C67: is_prime and next_prime -/

/-- C65: every prime is accepted, whatever the float logarithm returns. -/
theorem C65_accepts_primes (log2 : Int → Int) (p : Nat) (hp : p.Prime) : isPrime log2 p = true :=
  isPrime_of_prime log2 p hp

/-- C65: up to 1229 the answer is exact, for every integer. -/
theorem C65_exact_small (log2 : Int → Int) (n : Int) (h : n ≤ 1229) :
    isPrime log2 n = true ↔ n.toNat.Prime := by
  rw [isPrime_small log2 n h]
  constructor
  · exact fun h => h.2
  · intro h
    have := h.two_le
    exact ⟨by omega, h⟩
example := C65_exact_small (fun _ => 0) 1001 (by decide)

/-- C65: above 1229 every multiple of 2, 3, 5, 7 or 11 is rejected. -/
theorem C65_small_factors (log2 : Int → Int) (n : Int) (h : 1229 < n)
    (hd : 2 ∣ n ∨ 3 ∣ n ∨ 5 ∣ n ∨ 7 ∣ n ∨ 11 ∣ n) : isPrime log2 n = false := by
  rcases hd with hd | hd | hd | hd | hd
  · exact isPrime_false_of_small_factor log2 n 2 h (by decide) (by decide) hd
  · exact isPrime_false_of_small_factor log2 n 3 h (by decide) (by decide) hd
  · exact isPrime_false_of_small_factor log2 n 5 h (by decide) (by decide) hd
  · exact isPrime_false_of_small_factor log2 n 7 h (by decide) (by decide) hd
  · exact isPrime_false_of_small_factor log2 n 11 h (by decide) (by decide) hd

/-- C66: an explicit composite number, with its factors, which `is_prime` accepts whatever the float
logarithm returns. -/
theorem C66_accepts_composite :
    ∃ a b : Nat, 1 < a ∧ 1 < b ∧ ∀ log2 : Int → Int, isPrime log2 ((a * b : Nat) : Int) = true := by
  refine ⟨liarP, liarQ * liarR, by decide +kernel, by decide +kernel, fun log2 => ?_⟩
  have := liar_accepted log2
  rwa [liar, mul_assoc] at this

/-- C66: hence `is_prime` is not a primality test. -/
theorem C66_not_exact : ∃ n : Nat, ¬ n.Prime ∧ ∀ log2 : Int → Int, isPrime log2 n = true :=
  ⟨liar, liar_composite, liar_accepted⟩

/-- C67: `next_prime` terminates with an accepted number above the start, no prime is skipped, and
below 2 the answer is 2. -/
theorem C67_next_prime (log2 : Int → Int) (s : Int) :
    ∃ n : Int, nextPrime log2 s = some n ∧ s < n ∧ isPrime log2 n = true ∧
      (∀ q : Nat, q.Prime → s < q → n ≤ q) ∧ (s < 2 → n = 2) := by
  rw [nextPrime]
  by_cases h2 : s < 2
  · rw [if_pos h2]
    exact ⟨2, rfl, h2, isPrime_of_prime log2 2 Nat.prime_two,
      fun q hq _ => by have := hq.two_le; omega, fun _ => rfl⟩
  rw [if_neg h2]
  generalize hr0 : (if (s + 1) % 2 = 0 then s + 1 + 1 else s + 1) = r0
  have hr1 : s < r0 ∧ r0 ≤ s + 2 ∧ r0 % 2 = 1 := by
    rw [← hr0]; split <;> omega
  have hdist : ∀ q : Nat, q.Prime → s < q → ∃ k : Nat, (q : Int) = r0 + 2 * k := by
    intro q hq hsq
    have hodd : q % 2 = 1 := by
      rcases hq.eq_two_or_odd with h | h
      · omega
      · exact h
    refine ⟨((q : Int) - r0).toNat / 2, ?_⟩
    have : r0 ≤ q := by
      rw [← hr0]; split <;> omega
    omega
  obtain ⟨p, hp1, hp2⟩ := Nat.exists_infinite_primes (s.toNat + 1)
  obtain ⟨k, hk⟩ := hdist p hp2 (by omega)
  obtain ⟨j, -, h3, h4, h5⟩ := nextPrimeLoop_spec log2 k r0 (by
    rw [← hk]; exact isPrime_of_prime log2 p hp2)
  refine ⟨r0 + 2 * j, h3, by omega, h4, ?_, fun h => absurd h h2⟩
  intro q hq hsq
  obtain ⟨i, hi⟩ := hdist q hq hsq
  by_contra hcon
  have hij : i < j := by omega
  have h6 := h5 i hij
  rw [← hi, isPrime_of_prime log2 q hq] at h6
  exact Bool.noConfusion h6

/-- C67: the answer is at most twice the start. -/
theorem C67_bound (log2 : Int → Int) (s : Int) (hs : 1 ≤ s) (n : Int) (h : nextPrime log2 s = some n) : n ≤ 2 * s := by
  obtain ⟨n', h1, -, -, h4, -⟩ := C67_next_prime log2 s
  rw [h] at h1
  obtain rfl : n = n' := Option.some.inj h1
  obtain ⟨q, hq, h2, h3⟩ := Nat.exists_prime_lt_and_le_two_mul s.toNat (by omega)
  have := h4 q hq (by omega)
  omega

example : isPrime (fun _ => 12) 1000003 = true := C65_accepts_primes _ 1000003 (by norm_num)
example : isPrime (fun _ => 12) 1000001 = false ∨ ¬ (11 : Int) ∣ 1000001 := by
  by_cases h : (11 : Int) ∣ 1000001
  · exact .inl (C65_small_factors _ 1000001 (by decide) (by omega))
  · exact .inr h

/-! ### C68: polynomials modulo a monic polynomial -/

/-- C68: `polynomial_reduce_mod` returns a list congruent to its argument modulo the monic polynomial,
of the length of the argument cut to the degree of the modulus. -/
theorem C68_reduce (p : Nat) (hp : 0 < p) (l pm : List Int) (hpm : 1 < pm.length)
    (hmonic : pm.getLast? = some 1) :
    ∃ r, polynomialReduceMod l pm p = .ok r ∧ r.length = min l.length (pm.length - 1) ∧
      poly p pm ∣ poly p r - poly p l := by
  have hm : pm.getD (pm.length - 1) 0 = 1 := by
    rw [List.getLast?_eq_getElem?] at hmonic
    rw [List.getD_eq_getElem?_getD, hmonic]; rfl
  obtain ⟨h1, h2, -⟩ := polyReduceLoop_spec hp pm hpm hm _ l (le_refl _)
  exact ⟨_, polynomialReduceMod_ok l pm hpm hm, h2, h1⟩
example := C68_reduce 17 (by decide) [1, 2, 3, 4, 5] [13, -3, 1] (by decide) rfl

/-- C68: `polynomial_multiply_mod` returns a reduced list congruent to the product. -/
theorem C68_multiply (p : Nat) (hp : 0 < p) (m1 m2 pm : List Int) (hpm : 1 < pm.length)
    (hmonic : pm.getLast? = some 1) :
    ∃ r, polynomialMultiplyMod m1 m2 pm p = .ok r ∧ r.length < pm.length ∧
      (∀ c ∈ r, 0 ≤ c ∧ c < (p : Int)) ∧ poly p pm ∣ poly p r - poly p m1 * poly p m2 := by
  have hm : pm.getD (pm.length - 1) 0 = 1 := by
    rw [List.getLast?_eq_getElem?] at hmonic
    rw [List.getD_eq_getElem?_getD, hmonic]; rfl
  obtain ⟨r, h1, h2, h3, h4⟩ := polynomialMultiplyMod_spec hp m1 m2 pm hpm hm
  exact ⟨r, h1, by omega, h3, h4⟩
example := C68_multiply 17 (by decide) [1, 2] [3, 4] [13, -3, 1] (by decide) rfl

/-- C68: `polynomial_exp_mod` for exponents `2 ≤ e < p` returns a reduced list congruent to the
power. -/
theorem C68_power (p : Nat) (base pm : List Int) (hpm : 1 < pm.length)
    (hmonic : pm.getLast? = some 1) (e : Nat) (he : 2 ≤ e) (hep : e < p) :
    ∃ r, polynomialExpMod base e pm p = .ok r ∧ r.length < pm.length ∧
      (∀ c ∈ r, 0 ≤ c ∧ c < (p : Int)) ∧ poly p pm ∣ poly p r - poly p base ^ e := by
  have hm : pm.getD (pm.length - 1) 0 = 1 := by
    rw [List.getLast?_eq_getElem?] at hmonic
    rw [List.getD_eq_getElem?_getD, hmonic]; rfl
  obtain ⟨r, h1, h2, h3, -, h4⟩ := polynomialExpMod_spec (by omega) base pm hpm hm e he hep
  refine ⟨r, h1, by omega, h3, ?_⟩
  rw [← map_pow] at h4
  exact AdjoinRoot.mk_eq_mk.mp h4

/-- C68: exponent 0 gives the constant 1 and exponent 1 gives back the base, unreduced; an exponent of
`p` or more is an `AssertionError`. -/
theorem C68_power_edges (p : Nat) (base pm : List Int) :
    (1 ≤ p → polynomialExpMod base 0 pm p = .ok [1]) ∧
    (2 ≤ p → polynomialExpMod base 1 pm p = .ok base) ∧
    (∀ e : Int, p ≤ e → polynomialExpMod base e pm p = .error .assertion) := by
  refine ⟨fun h => ?_, fun h => ?_, fun e h => ?_⟩
  · rw [polynomialExpMod, if_neg (by omega), if_pos rfl]
  · rw [polynomialExpMod, if_neg (by omega), if_neg (by omega), if_pos (by decide), polyExpLoop,
      dif_neg (by decide)]
  · rw [polynomialExpMod, if_pos (by omega)]

/-- C68: a modulus that is not monic, or constant, is an `AssertionError` (`IndexError` when empty). -/
theorem C68_bad_modulus (p : Int) (l pm : List Int) :
    (pm = [] → polynomialReduceMod l pm p = .error .index) ∧
    (∀ c, pm.getLast? = some c → c ≠ 1 → polynomialReduceMod l pm p = .error .assertion) ∧
    (pm.length = 1 → polynomialReduceMod l pm p = .error .assertion) := by
  refine ⟨fun h => ?_, fun c h hc => ?_, fun h => ?_⟩
  · rw [polynomialReduceMod, if_pos h]
  · have hne : pm ≠ [] := by rintro rfl; simp at h
    rw [List.getLast?_eq_getElem?] at h
    rw [polynomialReduceMod, if_neg hne, if_pos (by
      rw [List.getD_eq_getElem?_getD, h]; exact hc)]
  · have hne : pm ≠ [] := by rintro rfl; simp at h
    rw [polynomialReduceMod, if_neg hne, if_pos (show ¬ pm.length > 1 by omega)]
    simp

example : ∃ r, polynomialExpMod [0, 1] (9 : Nat) [13, -3, 1] (17 : Nat) = .ok r ∧ r.length < 3 ∧
    (∀ c ∈ r, 0 ≤ c ∧ c < ((17 : Nat) : Int)) ∧ poly 17 [13, -3, 1] ∣ poly 17 r - poly 17 [0, 1] ^ 9 :=
  C68_power 17 [0, 1] [13, -3, 1] (by decide) rfl 9 (by decide) (by decide)

/-! ### C69, C70: fmath/prime.py -/

/-- C69: `rabin_miller(n, a)` returns 1 for every prime `n` and `1 ≤ a < n`. -/
theorem C69_prime (p : Nat) (hp : p.Prime) (a : Int) (h1 : 1 ≤ a) (h2 : a < p) :
    rabinMiller p a = .ok 1 := by
  have : Fact p.Prime := ⟨hp⟩
  rw [rabinMiller, if_neg (by omega)]
  have hr := millerRabinRound_prime (p := p) a (by
    rw [Ne, ZMod.intCast_zmod_eq_zero_iff_dvd]
    intro hd
    have := Int.le_of_dvd (by omega) hd
    omega)
  simp only [hr]
  rfl

/-- C69: every base in range that shares a factor with `n` exposes `n`. -/
theorem C69_shared_factor (n a : Int) (h1 : 1 ≤ a) (h2 : a < n) (hg : Int.gcd a n ≠ 1) :
    rabinMiller n a = .ok 0 := by
  rw [rabinMiller, if_neg (by omega)]
  have hb := splitTwo_bounds (n - 1) 0 (by omega)
  have hgpos : 0 < Int.gcd a n := Int.gcd_pos_of_ne_zero_left _ (by omega)
  have hr := millerRabinRound_shared (n := n) (q := Int.gcd a n) (by omega) (Int.gcd_dvd_right a n)
    (Int.gcd_dvd_left a n) hb.1 (splitTwo (n - 1) 0).2
  simp only [hr]
  rfl
example := C69_shared_factor 15 6 (by decide) (by decide) (by decide)

/-- C69: for every composite `n` some base in range returns 0. -/
theorem C69_composite (n : Nat) (hn : 2 ≤ n) (hc : ¬ n.Prime) :
    ∃ a : Int, 1 ≤ a ∧ a < n ∧ rabinMiller n a = .ok 0 := by
  have hp := Nat.minFac_prime (show n ≠ 1 by omega)
  have hd := Nat.minFac_dvd n
  have hlt : n.minFac < n := by
    rcases Nat.lt_or_ge n.minFac n with h | h
    · exact h
    · exfalso
      have : n.minFac = n := le_antisymm (Nat.minFac_le (by omega)) h
      rw [this] at hp
      exact hc hp
  refine ⟨n.minFac, by have := hp.two_le; omega, by omega, ?_⟩
  apply C69_shared_factor
  · have := hp.two_le; omega
  · omega
  · have : Int.gcd (n.minFac : Int) (n : Int) = n.minFac := by
      rw [Int.gcd_natCast_natCast]; exact Nat.gcd_eq_left hd
    rw [this]; exact hp.one_lt.ne'

/-- C69: a base out of range is an `AssertionError`; every other call returns 0 or 1. -/
theorem C69_range (n a : Int) :
    (¬ (1 ≤ a ∧ a ≤ n - 1) → rabinMiller n a = .error .assertion) ∧
    ((1 ≤ a ∧ a ≤ n - 1) → rabinMiller n a = .ok 0 ∨ rabinMiller n a = .ok 1) := by
  constructor
  · intro h; rw [rabinMiller, if_pos h]
  · intro h
    rw [rabinMiller, if_neg (not_not.mpr h)]
    simp only
    split
    · right; rfl
    · left; rfl

/-- C70: for prime `p` and every integer base the Fermat test is 1 exactly when `p` does not divide
the base. -/
theorem C70_fermat_prime (p : Nat) (hp : p.Prime) (a : Int) :
    fermatLittleTest p a = .ok (if (p : Int) ∣ a then 0 else 1) := by
  have : Fact p.Prime := ⟨hp⟩
  have h2 := hp.two_le
  rw [fermatLittleTest, pyPow_pos a (by omega) (by omega)]
  have he : ((p : Int) - 1).toNat = p - 1 := by omega
  rw [he]
  have hb0 : 0 ≤ a ^ (p - 1) % (p : Int) := Int.emod_nonneg _ (by omega)
  have hb1 : a ^ (p - 1) % (p : Int) < p := Int.emod_lt_of_pos _ (by omega)
  have hcast := emod_cast (a ^ (p - 1)) p
  push_cast at hcast
  change Except.ok (if a ^ (p - 1) % (p : Int) = 1 then 1 else 0) = _
  congr 1
  by_cases hd : (p : Int) ∣ a
  · rw [if_pos hd, if_neg]
    intro h1
    have h3 := Int.emod_emod_of_dvd (a ^ (p - 1)) (dvd_refl (p : Int))
    have h4 : a ^ (p - 1) % (p : Int) = 0 :=
      Int.emod_eq_zero_of_dvd (Dvd.dvd.pow hd (by omega))
    omega
  · rw [if_neg hd, if_pos]
    apply eq_of_cast_eq hb0 hb1 (by omega) (by omega)
    rw [emod_cast]
    push_cast
    rw [ZMod.pow_card_sub_one_eq_one]
    rwa [Ne, ZMod.intCast_zmod_eq_zero_iff_dvd]
example := C70_fermat_prime 101 (by norm_num) 7

/-- C70: a square-free `n` such that `q - 1` divides `n - 1` for all its prime factors `q` passes for
every coprime base. -/
theorem C70_fermat_carmichael (n : Nat) (hn : 2 ≤ n) (hsq : Squarefree n)
    (hk : ∀ q : Nat, q.Prime → q ∣ n → q - 1 ∣ n - 1) (a : Int) (ha : Int.gcd a n = 1) :
    fermatLittleTest n a = .ok 1 := by
  rw [fermatLittleTest, pyPow_pos a (by omega) (by omega)]
  have he : ((n : Int) - 1).toNat = n - 1 := by omega
  rw [he]
  change Except.ok (if a ^ (n - 1) % (n : Int) = 1 then 1 else 0) = _
  congr 1
  rw [if_pos]
  have hdvd : (n : Int) ∣ a ^ (n - 1) - 1 := by
    have hn' : n ∣ (a ^ (n - 1) - 1).natAbs := by
      generalize hz : (a ^ (n - 1) - 1).natAbs = z
      rw [← Nat.prod_primeFactors_of_squarefree hsq]
      subst hz
      apply Finset.prod_primes_dvd
      · intro q hq
        exact (Nat.prime_of_mem_primeFactors hq).prime
      · intro q hq
        have hqp := Nat.prime_of_mem_primeFactors hq
        have hqn := Nat.dvd_of_mem_primeFactors hq
        have : Fact q.Prime := ⟨hqp⟩
        rw [← Int.natCast_dvd, ← ZMod.intCast_zmod_eq_zero_iff_dvd]
        push_cast
        obtain ⟨k, hk'⟩ := hk q hqp hqn
        rw [hk', pow_mul, ZMod.pow_card_sub_one_eq_one, one_pow, sub_self]
        rw [Ne, ZMod.intCast_zmod_eq_zero_iff_dvd]
        intro hqa
        have h1 : (q : Int) ∣ (Int.gcd a n : Int) := Int.dvd_coe_gcd hqa (by exact_mod_cast hqn)
        rw [ha] at h1
        have h2 : q ∣ 1 := by exact_mod_cast h1
        exact hqp.one_lt.ne' (Nat.dvd_one.mp h2)
    exact Int.natCast_dvd.mpr hn'
  have h1 : a ^ (n - 1) % (n : Int) = 1 % (n : Int) := Int.ModEq.symm (Int.modEq_iff_dvd.mpr hdvd)
  rw [h1, Int.emod_eq_of_lt (by omega) (by omega)]

/-- C70: 561 = 3·11·17 passes for every coprime base. -/
theorem C70_fermat_561 (a : Int) (ha : Int.gcd a 561 = 1) : fermatLittleTest 561 a = .ok 1 := by
  have h561 : (561 : Nat) = 3 * 11 * 17 := by norm_num
  apply C70_fermat_carmichael 561 (by decide) _ _ a ha
  · rw [h561, Nat.squarefree_mul (by norm_num), Nat.squarefree_mul (by norm_num)]
    exact ⟨⟨(by norm_num : Nat.Prime 3).prime.squarefree, (by norm_num : Nat.Prime 11).prime.squarefree⟩,
      (by norm_num : Nat.Prime 17).prime.squarefree⟩
  · intro q hq hqn
    rw [h561, hq.dvd_mul, hq.dvd_mul] at hqn
    rcases hqn with (h | h) | h
    · rw [(Nat.prime_dvd_prime_iff_eq hq (by norm_num)).mp h]; decide
    · rw [(Nat.prime_dvd_prime_iff_eq hq (by norm_num)).mp h]; decide
    · rw [(Nat.prime_dvd_prime_iff_eq hq (by norm_num)).mp h]; decide

example : rabinMiller (7 : Nat) 3 = .ok 1 := C69_prime 7 (by norm_num) 3 (by decide) (by decide)
example : ∃ a : Int, 1 ≤ a ∧ a < (561 : Nat) ∧ rabinMiller (561 : Nat) a = .ok 0 :=
  C69_composite 561 (by decide) (by norm_num)
example : fermatLittleTest 561 2 = .ok 1 := C70_fermat_561 2 (by decide)

end Cryptopy
