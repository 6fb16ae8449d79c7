import Mathlib.Data.ZMod.Units
import Verif.Props.Arith

/-!
C146: the square root functions when the modulus is not prime.
-/

namespace Cryptopy
open Model

/-! ### `square_root_mod_prime` -/

/-- C146: an even modulus above 2 is an `AssertionError` for every non-zero `a`. -/
theorem C146_even (a p : Int) (h0 : 0 < a) (h1 : a < p) (h2 : 2 < p) (he : p % 2 = 0) :
    squareRootModPrime a p = .error .assertion := by
  rw [squareRootModPrime]
  simp only [Py.assert, if_pos (And.intro h0.le h1), if_pos (show (1 : Int) < p by omega), bind, Except.bind]
  rw [if_neg (by omega), if_neg (by omega), jacobi_error a p (Or.inr he)]
example := C146_even 3 10 (by decide) (by decide) (by decide) (by decide)

/-- The search of lines 175-181 raises no `SquareRootError`. -/
private theorem sqrtSearch_ne (a p : Int) (h2 : 4 < p) (ho : p % 2 = 1) (b : Int) :
    sqrtSearch a p b ≠ .error .squareRoot := by
  obtain ⟨k, hk⟩ : ∃ k : Nat, (p - b).toNat ≤ k := ⟨_, le_refl _⟩
  induction k generalizing b with
  | zero => rw [sqrtSearch, dif_neg (by omega)]; intro h; cases h
  | succ k ih =>
    rw [sqrtSearch]
    split
    · rw [jacobi_eq _ p (by omega) ho]
      simp only
      split
      · obtain ⟨n, rfl⟩ : ∃ n : Nat, p = n := ⟨p.toNat, by omega⟩
        obtain ⟨r, h1, -⟩ := C68_power n [0, 1] [a, -b, 1] (by simp) (by simp) ((n + 1) / 2) (by omega) (by omega)
        have e : ((((n + 1) / 2 : Nat)) : Int) = ((n : Int) + 1) / 2 := by omega
        rw [e] at h1
        rw [h1]
        match r with
        | [] => intro h; cases h
        | [_] => intro h; cases h
        | c0 :: c1 :: _ =>
          simp only
          split <;> intro h <;> cases h
      · exact ih (b + 1) (by omega)
    · intro h; cases h

/-- C146: for odd moduli, prime or not, a `SquareRootError` is always justified. -/
theorem C146_error (a p : Int) (h2 : 2 < p) (ho : p % 2 = 1) (h : squareRootModPrime a p = .error .squareRoot) :
    Int.gcd a p = 1 ∧ ¬ ∃ x : Int, x * x ≡ a [ZMOD p] := by
  have hr : 0 ≤ a ∧ a < p := by
    by_contra hn
    rw [C57_range a p (by omega)] at h
    cases h
  rw [squareRootModPrime] at h
  simp only [Py.assert, if_pos hr, if_pos (show (1 : Int) < p by omega), bind, Except.bind] at h
  by_cases h0 : a = 0
  · rw [if_pos h0] at h; cases h
  rw [if_neg h0, if_neg (by omega), jacobi_eq a p (by omega) ho] at h
  simp only at h
  by_cases hj : jacobiSym a p.toNat = -1
  · obtain ⟨n, rfl⟩ : ∃ n : Nat, p = n := ⟨p.toNat, by omega⟩
    rw [Int.toNat_natCast] at hj
    have : NeZero n := ⟨by omega⟩
    constructor
    · by_contra hg
      rw [jacobiSym.eq_zero_iff_not_coprime.mpr hg] at hj
      cases hj
    · rintro ⟨x, hx⟩
      have h3 := ZMod.nonsquare_of_jacobiSym_eq_neg_one hj
      apply h3
      refine ⟨(x : ZMod n), ?_⟩
      have := (ZMod.intCast_eq_intCast_iff _ _ _).mpr hx
      push_cast at this
      exact this.symm
  · rw [if_neg hj] at h
    exfalso
    by_cases h3 : p % 4 = 3
    · rw [if_pos h3, modularExp_pos a (by omega) (by omega)] at h; cases h
    · rw [if_neg h3] at h
      by_cases h5 : p % 8 = 5
      · rw [if_pos h5, modularExp_pos a (by omega) (by omega)] at h
        simp only at h
        split at h
        · rw [modularExp_pos a (by omega) (by omega)] at h; cases h
        · split at h
          · rw [modularExp_pos (4 * a) (by omega) (by omega)] at h; cases h
          · cases h
      · rw [if_neg h5] at h
        exact sqrtSearch_ne a p (by omega) (by omega) 2 h
example := C146_error 7 15 (by decide) (by decide) (by decide +kernel)

/-- C146: for a modulus that is 3 modulo 4 every `a` whose Jacobi symbol is not -1 gets the answer `a^((p+1)/4) mod p`,
which is a root exactly when `a^((p+1)/2)` is `a`. -/
theorem C146_three (a p : Int) (h0 : 0 < a) (h1 : a < p) (h3 : p % 4 = 3) (hj : jacobiSym a p.toNat ≠ -1) :
    ∃ r, squareRootModPrime a p = .ok r ∧ 0 ≤ r ∧ r < p ∧ r ≡ a ^ ((p + 1) / 4).toNat [ZMOD p] ∧
      (r * r ≡ a [ZMOD p] ↔ a ^ ((p + 1) / 2).toNat ≡ a [ZMOD p]) := by
  refine ⟨a ^ ((p + 1) / 4).toNat % p, ?_, Int.emod_nonneg _ (by omega), Int.emod_lt_of_pos _ (by omega),
    Int.mod_modEq _ _, ?_⟩
  · rw [squareRootModPrime]
    simp only [Py.assert, if_pos (And.intro h0.le h1), if_pos (show (1 : Int) < p by omega), bind, Except.bind]
    rw [if_neg (by omega), if_neg (by omega), jacobi_eq a p (by omega) (by omega)]
    simp only
    rw [if_neg hj, if_pos h3, modularExp_pos a (by omega) (by omega)]
  · have h : (a ^ ((p + 1) / 4).toNat % p) * (a ^ ((p + 1) / 4).toNat % p) ≡ a ^ ((p + 1) / 2).toNat [ZMOD p] := by
      refine ((Int.mod_modEq _ _).mul (Int.mod_modEq _ _)).trans ?_
      rw [← pow_add]
      have : ((p + 1) / 4).toNat + ((p + 1) / 4).toNat = ((p + 1) / 2).toNat := by omega
      rw [this]
    exact ⟨fun h4 => h.symm.trans h4, fun h4 => h.trans h4⟩
example := C146_three 2 15 (by decide) (by decide) (by decide) (by decide +kernel)

/-- C146: for a modulus that is 5 modulo 8 and an `a` whose Jacobi symbol is not -1: if `a^((p-1)/4)` is 1 the answer is a
root whether or not `p` is prime; if it is -1 the answer is a root exactly when `a·2^((p-1)/2)` is `-a`; in all other
cases there is a `RuntimeError`. -/
theorem C146_five (a p : Int) (h0 : 0 < a) (h1 : a < p) (h5 : p % 8 = 5) (hj : jacobiSym a p.toNat ≠ -1) :
    (a ^ ((p - 1) / 4).toNat ≡ 1 [ZMOD p] →
      ∃ r, squareRootModPrime a p = .ok r ∧ 0 ≤ r ∧ r < p ∧ r * r ≡ a [ZMOD p]) ∧
    (a ^ ((p - 1) / 4).toNat ≡ -1 [ZMOD p] →
      ∃ r, squareRootModPrime a p = .ok r ∧ 0 ≤ r ∧ r < p ∧
        (r * r ≡ a [ZMOD p] ↔ a * 2 ^ ((p - 1) / 2).toNat ≡ -a [ZMOD p])) ∧
    (¬ a ^ ((p - 1) / 4).toNat ≡ 1 [ZMOD p] → ¬ a ^ ((p - 1) / 4).toNat ≡ -1 [ZMOD p] →
      squareRootModPrime a p = .error .runtime) := by
  have hs : squareRootModPrime a p = (if a ^ ((p - 1) / 4).toNat % p = 1 then .ok (a ^ ((p + 3) / 8).toNat % p)
      else if a ^ ((p - 1) / 4).toNat % p = p - 1 then
        .ok ((2 * a * ((4 * a) ^ ((p - 5) / 8).toNat % p)) % p) else .error .runtime) := by
    rw [squareRootModPrime]
    simp only [Py.assert, if_pos (And.intro h0.le h1), if_pos (show (1 : Int) < p by omega), bind, Except.bind]
    rw [if_neg (by omega), if_neg (by omega), jacobi_eq a p (by omega) (by omega)]
    simp only
    rw [if_neg hj, if_neg (by omega), if_pos h5, modularExp_pos a (by omega) (by omega)]
    simp only
    rw [modularExp_pos a (by omega) (by omega), modularExp_pos (4 * a) (by omega) (by omega)]
    simp only [Int.fmod_eq_emod_of_nonneg _ (show (0 : Int) ≤ p by omega)]
  have e1 : ∀ x : Int, x ≡ 1 [ZMOD p] ↔ x % p = 1 := fun x => by
    rw [Int.ModEq, Int.emod_eq_of_lt (a := 1) (by norm_num) (by omega)]
  have e2 : ∀ x : Int, x ≡ -1 [ZMOD p] ↔ x % p = p - 1 := fun x => by
    rw [Int.ModEq, ← Int.add_emod_right (a := -1), Int.emod_eq_of_lt (a := -1 + p) (by omega) (by omega)]
    constructor <;> intro h <;> omega
  refine ⟨fun h => ⟨_, hs.trans (if_pos ((e1 _).mp h)), Int.emod_nonneg _ (by omega), Int.emod_lt_of_pos _ (by omega),
    ?_⟩, fun h => ?_, fun h h' => ?_⟩
  · refine ((Int.mod_modEq _ _).mul (Int.mod_modEq _ _)).trans ?_
    rw [← pow_add]
    have : ((p + 3) / 8).toNat + ((p + 3) / 8).toNat = ((p - 1) / 4).toNat + 1 := by omega
    rw [this, pow_succ]
    simpa using h.mul_right a
  · have hne : ¬ a ^ ((p - 1) / 4).toNat % p = 1 := by rw [(e2 _).mp h]; omega
    refine ⟨_, hs.trans ((if_neg hne).trans (if_pos ((e2 _).mp h))), Int.emod_nonneg _ (by omega),
      Int.emod_lt_of_pos _ (by omega), ?_⟩
    have key : (2 * a * ((4 * a) ^ ((p - 5) / 8).toNat % p)) % p * ((2 * a * ((4 * a) ^ ((p - 5) / 8).toNat % p)) % p) ≡
        -(a * 2 ^ ((p - 1) / 2).toNat) [ZMOD p] := by
      refine ((Int.mod_modEq _ _).mul (Int.mod_modEq _ _)).trans ?_
      refine (((Int.mod_modEq _ _).mul_left (2 * a)).mul ((Int.mod_modEq _ _).mul_left (2 * a))).trans ?_
      obtain ⟨m, hm⟩ : ∃ m : Nat, ((p - 5) / 8).toNat = m := ⟨_, rfl⟩
      have a1 : ((p - 1) / 4).toNat = 2 * m + 1 := by omega
      have a2 : ((p - 1) / 2).toNat = 4 * m + 2 := by omega
      rw [hm, a2]
      rw [a1] at h
      have e : 2 * a * (4 * a) ^ m * (2 * a * (4 * a) ^ m) = a ^ (2 * m + 1) * (a * 2 ^ (4 * m + 2)) := by
        rw [mul_pow, show (4 : Int) = 2 ^ 2 by norm_num, ← pow_mul]
        ring
      rw [e]
      simpa using h.mul_right (a * 2 ^ (4 * m + 2))
    constructor
    · intro h4
      have := (key.symm.trans h4).neg
      simpa using this
    · intro h4
      have := h4.neg
      rw [neg_neg] at this
      exact key.trans this
  · rw [hs, if_neg (fun e => h ((e1 _).mpr e)), if_neg (fun e => h' ((e2 _).mpr e))]
example := C146_five 4 21 (by decide) (by decide) (by decide) (by decide +kernel)

/-- For every composite `n` that is 3 modulo 4 some unit has a power `(n-1)/2` other than 1 and -1. -/
private theorem exists_bad (n : Nat) (h3 : n % 4 = 3) (hc : ¬ n.Prime) :
    ∃ u : (ZMod n)ˣ, u ^ ((n - 1) / 2) ≠ 1 ∧ u ^ ((n - 1) / 2) ≠ -1 := by
  have : NeZero n := ⟨by omega⟩
  have hodd : Odd ((n - 1) / 2) := by rw [Nat.odd_iff]; omega
  set q := n.minFac with hq
  have hqp : q.Prime := Nat.minFac_prime (by omega)
  obtain ⟨v, hv⟩ := Nat.minFac_dvd n
  rw [← hq] at hv
  have hv1 : v ≠ 1 := fun e => by rw [e, mul_one] at hv; rw [hv] at hc; exact hc hqp
  have hq2 : q % 2 = 1 := by
    rcases hqp.eq_two_or_odd with h | h
    · rw [h] at hv; omega
    · exact h
  have hv2 : v % 2 = 1 := by
    rcases Nat.mod_two_eq_zero_or_one v with h | h
    · have : n % 2 = 0 := by
        rw [hv, Nat.mul_mod, h, mul_zero, Nat.zero_mod]
      omega
    · exact h
  have hv3 : 3 ≤ v := by omega
  have hq3 : 3 ≤ q := by have := hqp.two_le; omega
  by_cases hcop : Nat.Coprime q v
  · -- the unit that is 1 modulo q and -1 modulo v
    obtain ⟨k, hk1, hk2⟩ := Nat.chineseRemainder hcop 1 (v - 1)
    have c1 : Nat.Coprime k q := by
      have := hk1.gcd_eq
      rw [Nat.Coprime, this, Nat.gcd_one_left]
    have c2 : Nat.Coprime k v := by
      have := hk2.gcd_eq
      rw [Nat.Coprime, this]
      have h5 : Nat.Coprime (v - 1) (v - 1 + 1) := Nat.coprime_self_add_right.mpr (Nat.coprime_one_right _)
      rwa [Nat.sub_add_cancel (by omega)] at h5
    have c : Nat.Coprime k n := by rw [hv]; exact c1.mul_right c2
    have hp1 : k ^ ((n - 1) / 2) ≡ 1 [MOD q] := by simpa using hk1.pow ((n - 1) / 2)
    have hp2 : ((k : Int)) ^ ((n - 1) / 2) ≡ -1 [ZMOD v] := by
      have h6 : (k : Int) ≡ -1 [ZMOD v] := by
        have h7 := Int.natCast_modEq_iff.mpr hk2
        refine h7.trans ?_
        rw [Int.modEq_iff_dvd, Nat.cast_sub (by omega)]
        exact ⟨-1, by push_cast; ring⟩
      have := h6.pow ((n - 1) / 2)
      rwa [hodd.neg_one_pow] at this
    refine ⟨ZMod.unitOfCoprime k c, ?_, ?_⟩
    · intro h
      have h8 : ((k ^ ((n - 1) / 2) : Nat) : ZMod n) = ((1 : Nat) : ZMod n) := by
        have := congrArg (fun u : (ZMod n)ˣ => (u : ZMod n)) h
        push_cast
        simpa using this
      rw [ZMod.natCast_eq_natCast_iff] at h8
      have h9 : k ^ ((n - 1) / 2) ≡ 1 [MOD v] := h8.of_dvd ⟨q, by rw [hv, mul_comm]⟩
      have h10 := (Int.natCast_modEq_iff.mpr h9)
      push_cast at h10
      have h11 := (h10.symm.trans hp2).dvd
      have := Int.le_of_dvd (by norm_num) (Int.dvd_neg.mpr h11)
      omega
    · intro h
      have h8 : ((k ^ ((n - 1) / 2) : Nat) : ZMod n) = ((n - 1 : Nat) : ZMod n) := by
        have := congrArg (fun u : (ZMod n)ˣ => (u : ZMod n)) h
        rw [Nat.cast_sub (by omega)]
        push_cast
        simpa using this
      rw [ZMod.natCast_eq_natCast_iff] at h8
      have h9 : k ^ ((n - 1) / 2) ≡ n - 1 [MOD q] := h8.of_dvd ⟨v, hv⟩
      have h10 := hp1.symm.trans h9
      have h11 := (Nat.modEq_iff_dvd' (by omega)).mp h10
      have h12 : q ∣ 2 := by
        have : n = (n - 1 - 1) + 2 := by omega
        rw [← Nat.dvd_add_right h11, ← this]
        exact ⟨v, hv⟩
      have := Nat.le_of_dvd (by norm_num) h12
      omega
  · -- q² divides n: the unit 1 + n / q
    have hqv : q ∣ v := by
      by_contra h
      exact hcop ((hqp.coprime_iff_not_dvd).mpr h)
    have hsq : ((v : ZMod n)) * v = 0 := by
      obtain ⟨w, hw⟩ := hqv
      have : ((v * v : Nat) : ZMod n) = 0 := by
        rw [ZMod.natCast_eq_zero_iff]
        exact ⟨w, by rw [hv]; nth_rw 1 [hw]; ring⟩
      push_cast at this
      exact this
    have hpow : ∀ e : Nat, (1 + (v : ZMod n)) ^ e = 1 + e * v := by
      intro e
      induction e with
      | zero => simp
      | succ e ih =>
        rw [pow_succ, ih]
        push_cast
        linear_combination (e : ZMod n) * hsq
    let u : (ZMod n)ˣ := ⟨1 + (v : ZMod n), 1 - v, by linear_combination -hsq, by linear_combination -hsq⟩
    have hne : ∀ e : Nat, Nat.Coprime e q → u ^ e ≠ 1 := by
      intro e he h
      have h5 := congrArg (fun u : (ZMod n)ˣ => (u : ZMod n)) h
      simp only [Units.val_pow_eq_pow_val, Units.val_one] at h5
      have h6 : (1 + (v : ZMod n)) ^ e = 1 := h5
      rw [hpow] at h6
      have h7 : ((e * v : Nat) : ZMod n) = 0 := by push_cast; linear_combination h6
      rw [ZMod.natCast_eq_zero_iff] at h7
      rw [hv] at h7
      have h8 := Nat.dvd_of_mul_dvd_mul_right (by omega) h7
      have h9 := Nat.Coprime.eq_one_of_dvd he.symm h8
      omega
    have hcq : Nat.Coprime (n - 1) q := by
      refine ((hqp.coprime_iff_not_dvd).mpr fun h => ?_).symm
      have h5 : q ∣ n - 1 + 1 := by rw [Nat.sub_add_cancel (by omega)]; exact ⟨v, hv⟩
      have := (Nat.dvd_add_right h).mp h5
      have := Nat.le_of_dvd (by norm_num) this
      omega
    have he : n - 1 = (n - 1) / 2 * 2 := by omega
    refine ⟨u, hne _ (hcq.coprime_dvd_left ⟨2, he⟩), fun h => hne _ hcq ?_⟩
    rw [he, pow_mul, h]; simp

/-- C146: for every composite modulus that is 3 modulo 4 there is an `a` coprime to it for which a number that is not a
root is returned without an exception. -/
theorem C146_wrong (p : Nat) (h3 : p % 4 = 3) (hc : ¬ p.Prime) :
    ∃ a r : Int, 0 < a ∧ a < p ∧ Int.gcd a p = 1 ∧ squareRootModPrime a p = .ok r ∧ ¬ r * r ≡ a [ZMOD p] := by
  have hp1 : 1 < p := by omega
  have : NeZero p := ⟨by omega⟩
  obtain ⟨u, hu1, hu2⟩ := exists_bad p h3 hc
  have key : ∀ w : (ZMod p)ˣ, w ^ ((p - 1) / 2) ≠ 1 → jacobiSym ((w : ZMod p).val : Int) p ≠ -1 →
      ∃ a r : Int, 0 < a ∧ a < p ∧ Int.gcd a p = 1 ∧ squareRootModPrime a p = .ok r ∧ ¬ r * r ≡ a [ZMOD p] := by
    intro w hw hj
    have hco := ZMod.val_coe_unit_coprime w
    have hlt := ZMod.val_lt (w : ZMod p)
    have hpos : 0 < (w : ZMod p).val := by
      rcases Nat.eq_zero_or_pos (w : ZMod p).val with h | h
      · rw [h, Nat.coprime_zero_left] at hco; omega
      · exact h
    obtain ⟨r, h1, -, -, -, h5⟩ := C146_three ((w : ZMod p).val : Int) p (by omega) (by omega) (by omega) (by
      rw [Int.toNat_natCast]; exact hj)
    refine ⟨_, r, by omega, by omega, by rw [Int.gcd_natCast_natCast]; exact hco, h1, fun h => hw ?_⟩
    have h6 := h5.mp h
    rw [← ZMod.intCast_eq_intCast_iff] at h6
    push_cast at h6
    rw [ZMod.natCast_zmod_val] at h6
    have e : (((p : Int) + 1) / 2).toNat = (p - 1) / 2 + 1 := by omega
    rw [e, pow_succ] at h6
    have h7 : w ^ ((p - 1) / 2) * w = w := Units.ext (by push_cast; exact h6)
    exact mul_eq_right.mp h7
  by_cases hj : jacobiSym ((u : ZMod p).val : Int) p = -1
  · refine key (-u) ?_ ?_
    · rw [Odd.neg_pow (by rw [Nat.odd_iff]; omega)]
      intro h
      exact hu2 (by rw [← h, neg_neg])
    · have h4 : (((-u : (ZMod p)ˣ) : ZMod p).val : Int) ≡ -((u : ZMod p).val : Int) [ZMOD p] := by
        rw [← ZMod.intCast_eq_intCast_iff]
        push_cast
        rw [ZMod.natCast_zmod_val, ZMod.natCast_zmod_val]
      rw [jacobiSym.mod_left' h4, jacobiSym.neg _ (by rw [Nat.odd_iff]; omega), hj, ZMod.χ₄_nat_three_mod_four h3]
      norm_num
  · exact key u hu1 hj
example := C146_wrong 15 (by decide) (by norm_num)

/-! ### `modular_sqrt` -/

/-- C146: for a modulus that is 3 modulo 4, prime or not, `modular_sqrt` returns 0 or a true root. -/
theorem C146_modular_sqrt (a : Int) (p : Nat) (h3 : p % 4 = 3) :
    modularSqrt a p = some (.ok 0) ∨ ∃ r, modularSqrt a p = some (.ok r) ∧ r * r ≡ a [ZMOD p] := by
  have hl : legendreSymbol a p = .ok (if a ^ ((p - 1) / 2) % p = (p : Int) - 1 then -1 else a ^ ((p - 1) / 2) % p) := by
    rw [legendreSymbol, pyPow_pos a (by omega) (by omega)]
    have : (((p : Int) - 1) / 2).toNat = (p - 1) / 2 := by omega
    rw [this]; rfl
  rw [modularSqrt, hl]
  simp only
  by_cases h1 : (if a ^ ((p - 1) / 2) % p = (p : Int) - 1 then -1 else a ^ ((p - 1) / 2) % p) = 1
  · rw [if_neg (by rw [not_not]; exact h1)]
    by_cases h0 : a = 0
    · rw [if_pos h0]; left; rfl
    · rw [if_neg h0, if_neg (by omega), if_pos (by omega), pyPow_pos a (by omega) (by omega)]
      right
      refine ⟨_, rfl, ?_⟩
      have h2 : a ^ ((p - 1) / 2) ≡ 1 [ZMOD p] := by
        split at h1
        · omega
        · rw [Int.ModEq, h1, Int.emod_eq_of_lt (by norm_num) (by omega)]
      refine ((Int.mod_modEq _ _).mul (Int.mod_modEq _ _)).trans ?_
      rw [← pow_add]
      have e : (((p : Int) + 1) / 4).toNat + (((p : Int) + 1) / 4).toNat = (p - 1) / 2 + 1 := by omega
      rw [e, pow_succ]
      simpa using h2.mul_right a
  · rw [if_pos h1]; left; rfl
example := C146_modular_sqrt 4 15 (by decide)

private theorem findNonResidue_none (p : Int) (h : ∀ n : Int, ∃ l, legendreSymbol n p = .ok l ∧ l ≠ -1) :
    ∀ n, findNonResidue p n = none := by
  have key : ∀ n r, findNonResidue p n = some r → False := by
    apply findNonResidue.partial_correctness p (motive := fun _ _ => False)
    intro f ih n r hr
    obtain ⟨l, h1, h2⟩ := h n
    rw [h1] at hr
    simp only [if_pos h2] at hr
    exact ih (n + 1) r hr
  intro n
  cases hn : findNonResidue p n with
  | none => rfl
  | some r => exact (key n r hn).elim

/-- C146: for an odd modulus that is 1 modulo 4 and for which no power `n^((p-1)/2)` is -1, the search for a non-residue
never ends: `modular_sqrt` does not return for any non-zero `a` with `a^((p-1)/2) = 1`. -/
theorem C146_diverges (p : Nat) (h1 : p % 4 = 1) (hp : 1 < p)
    (hn : ∀ n : Int, ¬ n ^ ((p - 1) / 2) ≡ -1 [ZMOD p]) (a : Int) (h0 : a ≠ 0) (ha : a ^ ((p - 1) / 2) ≡ 1 [ZMOD p]) :
    modularSqrt a p = none := by
  have hl : ∀ a : Int, legendreSymbol a p =
      .ok (if a ^ ((p - 1) / 2) % p = (p : Int) - 1 then -1 else a ^ ((p - 1) / 2) % p) := by
    intro a
    rw [legendreSymbol, pyPow_pos a (by omega) (by omega)]
    have : (((p : Int) - 1) / 2).toNat = (p - 1) / 2 := by omega
    rw [this]; rfl
  have hne : ∀ a : Int, a ^ ((p - 1) / 2) % p ≠ (p : Int) - 1 := by
    intro a h
    apply hn a
    have h2 := Int.mod_modEq (a ^ ((p - 1) / 2)) p
    rw [h] at h2
    refine h2.symm.trans ?_
    rw [Int.modEq_iff_dvd]
    exact ⟨-1, by ring⟩
  have ha' : a ^ ((p - 1) / 2) % p = 1 := by
    rw [ha, Int.emod_eq_of_lt (by norm_num) (by omega)]
  rw [modularSqrt, hl, if_neg (hne a), ha']
  simp only
  rw [if_neg (by norm_num), if_neg h0, if_neg (by omega), if_neg (by omega), findNonResidue_none]
  intro n
  refine ⟨_, hl n, ?_⟩
  rw [if_neg (hne n)]
  have := Int.emod_nonneg (n ^ ((p - 1) / 2)) (by omega : (p : Int) ≠ 0)
  omega
/-- The hypotheses hold for 9 and the unit 8: fourth powers modulo 9 are squares and -1 is not. -/
example := C146_diverges 9 (by decide) (by decide)
  (fun n h => by
    have h := (ZMod.intCast_eq_intCast_iff _ _ 9).mpr h
    push_cast at h
    exact absurd h ((by decide : ∀ x : ZMod 9, x ^ ((9 - 1) / 2) ≠ -1) n))
  8 (by decide) (by decide)

private instance : Fact (Nat.Prime 11) := ⟨by norm_num⟩

/-- C146: 561 is such a modulus: `modular_sqrt(1, 561)` does not return, though 1 is a root. -/
theorem C146_561 : modularSqrt 1 561 = none := by
  refine C146_diverges 561 (by norm_num) (by norm_num) ?_ 1 (by norm_num) (by simp)
  intro n h
  have h11 : n ^ ((561 - 1) / 2) ≡ -1 [ZMOD 11] := h.of_dvd (by norm_num)
  have e : n ^ ((561 - 1) / 2) = (n ^ 10) ^ 28 := by rw [← pow_mul]
  rw [e] at h11
  have h2 := (ZMod.intCast_eq_intCast_iff _ _ 11).mpr h11
  push_cast at h2
  by_cases h0 : (n : ZMod 11) = 0
  · rw [h0] at h2; revert h2; decide
  · have h3 : (n : ZMod 11) ^ 10 = 1 := ZMod.pow_card_sub_one_eq_one h0
    rw [h3, one_pow] at h2; revert h2; decide

/-! ### Concrete cases -/

example : squareRootModPrime 2 15 = .ok 1 ∧ squareRootModPrime 4 15 = .ok 1 ∧ squareRootModPrime 1 15 = .ok 1 := by
  decide +kernel
example : squareRootModPrime 7 15 = .error .squareRoot := by decide +kernel
example : squareRootModPrime 20 21 = .ok 10 := by decide +kernel
example : squareRootModPrime 4 21 = .error .runtime := by decide +kernel

end Cryptopy
