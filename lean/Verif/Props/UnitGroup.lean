import Mathlib.GroupTheory.Exponent
import Verif.Props.IsPrime
import Verif.Props.PrimeTable

/-!
C145: how `order_mod`, `carmichael` and `phi` fit together, and what a composite number accepted by `is_prime` does to
them.
-/

namespace Cryptopy
open Model

private theorem order_le {m : Nat} (hm : 2 ≤ m) {x : Int} (hx : 0 < x) (hg : Int.gcd x m = 1) :
    ∃ u : (ZMod m)ˣ, (u : ZMod m) = (x : ZMod m) := by
  have : NeZero m := ⟨by omega⟩
  have hu : IsUnit (x : ZMod m) := by
    obtain ⟨n, rfl⟩ : ∃ n : Nat, x = n := ⟨x.toNat, by omega⟩
    rw [Int.cast_natCast, ZMod.isUnit_iff_coprime]
    exact hg
  obtain ⟨u, hu⟩ := hu
  exact ⟨u, hu⟩

private theorem carmichael_eq (log2 : Int → Int) (n : Nat) (hn : 1 ≤ n) (l : List (Int × Nat))
    (hl : factorization log2 n = some l) (hc : ∀ f ∈ l, f.1.toNat.Prime) :
    carmichael log2 n = some (.ok (ArithmeticFunction.carmichael n : Int)) := by
  obtain ⟨c, h1, h2⟩ := C62_carmichael log2 n hn l hl hc
  rw [h1, h2.unique (carmichael_isLeast (by omega))]

section
variable (log2 : Int → Int) (n : Nat) (l : List (Int × Nat)) (hl : factorization log2 n = some l)
  (hc : ∀ f ∈ l, f.1.toNat.Prime)
include hl hc

/-- C145: when the factorization is complete, for `n ≥ 3` every value `order_mod(x, n)` divides `carmichael(n)`, which
divides `phi(n)`, the case of C63 where `order_mod` returns 2 for 1 included. -/
theorem C145_divides (hn : 3 ≤ n) :
    ∃ c t : Nat, carmichael log2 n = some (.ok (c : Int)) ∧ phi log2 n = some (t : Int) ∧ c ∣ t ∧
      ∀ x : Int, 0 < x → Int.gcd x n = 1 → ∃ k : Nat, orderMod x n = some (.ok (k : Int)) ∧ k ∣ c := by
  have : NeZero n := ⟨by omega⟩
  have hphi := C61_phi log2 n (by omega) l hl hc
  rw [Int.toNat_natCast] at hphi
  refine ⟨_, _, carmichael_eq log2 n (by omega) l hl hc, hphi, ?_, ?_⟩
  · rw [ArithmeticFunction.carmichael_eq_exponent (by omega), ← ZMod.card_units_eq_totient]
    exact Group.exponent_dvd_card
  · intro x hx hg
    obtain ⟨k, h1, h2, h3⟩ := C63_order_mod n (by omega) x hx hg
    refine ⟨k, h1, ?_⟩
    rw [ArithmeticFunction.carmichael_eq_exponent (by omega)]
    by_cases h : x ≡ 1 [ZMOD n] ∧ x ≠ 1
    · rw [h3 h]
      have h4 : orderOf (-1 : (ZMod n)ˣ) = 2 := by
        refine orderOf_eq_prime (by simp) fun h => ?_
        have h5 := congrArg (fun u : (ZMod n)ˣ => (u : ZMod n)) h
        simp only [Units.val_neg, Units.val_one] at h5
        have h6 : ((2 : Nat) : ZMod n) = 0 := by
          push_cast
          linear_combination -h5
        rw [ZMod.natCast_eq_zero_iff] at h6
        have := Nat.le_of_dvd (by norm_num) h6
        omega
      rw [← h4]
      exact Monoid.order_dvd_exponent _
    · obtain ⟨⟨h4, h5⟩, h6⟩ := h2 h
      obtain ⟨u, hu⟩ := order_le (by omega) hx hg
      have hpow : ∀ i : Nat, u ^ i = 1 ↔ x ^ i ≡ 1 [ZMOD n] := by
        intro i
        rw [← ZMod.intCast_eq_intCast_iff, Units.ext_iff]
        push_cast
        rw [hu]
      have h7 : orderOf u = k :=
        le_antisymm (orderOf_le_of_pow_eq_one h4 ((hpow k).mpr h5))
          (h6 ⟨orderOf_pos u, (hpow _).mp (pow_orderOf_eq_one u)⟩)
      rw [← h7]
      exact Monoid.order_dvd_exponent _

/-- C145: and `carmichael(n)` is the value of `order_mod(x, n)` for some `x` between 1 and `n - 1`. -/
theorem C145_attained (hn : 2 ≤ n) :
    ∃ x : Nat, 0 < x ∧ x < n ∧ ∃ c : Nat, carmichael log2 n = some (.ok (c : Int)) ∧ orderMod x n = some (.ok (c : Int)) := by
  have : NeZero n := ⟨by omega⟩
  obtain ⟨u, hu⟩ := Monoid.exists_orderOf_eq_exponent (G := (ZMod n)ˣ) Monoid.ExponentExists.of_finite
  have hval : (((u : ZMod n).val : Nat) : ZMod n) = (u : ZMod n) := ZMod.natCast_zmod_val _
  have hco := ZMod.val_coe_unit_coprime u
  have hlt := ZMod.val_lt (u : ZMod n)
  have hpos : 0 < (u : ZMod n).val := by
    rcases Nat.eq_zero_or_pos (u : ZMod n).val with h | h
    · rw [h, Nat.coprime_zero_left] at hco; omega
    · exact h
  refine ⟨(u : ZMod n).val, hpos, hlt, _, carmichael_eq log2 n (by omega) l hl hc, ?_⟩
  obtain ⟨k, h1, h2, -⟩ := C63_order_mod n hn ((u : ZMod n).val : Nat) (by omega) (by
    rw [Int.gcd_natCast_natCast]; exact hco)
  rw [h1, ArithmeticFunction.carmichael_eq_exponent (by omega), ← hu]
  obtain ⟨⟨h4, h5⟩, h6⟩ := h2 (by
    rintro ⟨h7, h8⟩
    have h9 : (u : ZMod n).val ≡ 1 [MOD n] := by rw [← Int.natCast_modEq_iff]; push_cast; exact h7
    rw [Nat.ModEq, Nat.mod_eq_of_lt hlt, Nat.mod_eq_of_lt (by omega)] at h9
    rw [h9] at h8
    exact h8 rfl)
  have hpow : ∀ i : Nat, u ^ i = 1 ↔ (((u : ZMod n).val : Nat) : Int) ^ i ≡ 1 [ZMOD n] := by
    intro i
    rw [← ZMod.intCast_eq_intCast_iff, Units.ext_iff]
    push_cast
    rw [hval]
  have h7 : orderOf u = k :=
    le_antisymm (orderOf_le_of_pow_eq_one h4 ((hpow k).mpr h5))
      (h6 ⟨orderOf_pos u, (hpow _).mp (pow_orderOf_eq_one u)⟩)
  rw [h7]

end

/-- C145: `n = 2` is different: `order_mod(3, 2)` is 2 and `carmichael(2)` is 1. -/
theorem C145_two (log2 : Int → Int) : orderMod 3 2 = some (.ok 2) ∧ carmichael log2 2 = some (.ok 1) := by
  constructor
  · obtain ⟨k, h1, -, h3⟩ := C63_order_mod 2 (by norm_num) 3 (by norm_num) (by decide)
    rw [h3 (by decide)] at h1
    exact h1
  · obtain ⟨l, h1, h2⟩ := C60_complete_small log2 (2 : Nat) (by norm_num)
    have := carmichael_eq log2 2 (by norm_num) l h1 h2
    have e : ArithmeticFunction.carmichael 2 = 1 := by
      rw [ArithmeticFunction.carmichael_eq_exponent (by norm_num)]
      exact Monoid.exp_eq_one_iff.mpr (by infer_instance)
    rw [e] at this
    exact this

/-! ### Composite numbers accepted by `is_prime` -/

private theorem factorSmall_rough (n : Int) (ds : List Int) : (∀ d ∈ ds, ¬ d ∣ n) → ∀ r, factorSmall ds n r = (n, r) := by
  induction ds with
  | nil => intro _ r; rfl
  | cons d ds ih =>
    intro h r
    rw [factorSmall]
    split
    · rfl
    · rw [if_neg, ih (fun e he => h e (List.mem_cons_of_mem _ he))]
      intro h1
      exact h d List.mem_cons_self (Int.dvd_of_fmod_eq_zero h1)

/-- C145: if `is_prime` accepts a composite `n` without a factor up to 1229, then `factorization(n)` is `[(n, 1)]`, and
`phi` and `carmichael` both return `n - 1`, which is more than Euler's and more than Carmichael's function. -/
theorem C145_accepted (log2 : Int → Int) (n : Nat) (hn : 1 < n) (hr : ∀ q : Nat, q.Prime → q ≤ 1229 → ¬ q ∣ n)
    (hp : isPrime log2 n = true) (hc : ¬ n.Prime) :
    factorization log2 n = some [((n : Int), 1)] ∧ phi log2 n = some ((n : Int) - 1) ∧
      carmichael log2 n = some (.ok ((n : Int) - 1)) ∧ n.totient < n - 1 ∧
      ∃ x : Nat, 0 < x ∧ x < n - 1 ∧ ∀ a : Nat, Nat.Coprime a n → a ^ x ≡ 1 [MOD n] := by
  have hbig : 1229 < n := by
    by_contra h
    exact hr _ (Nat.minFac_prime (by omega)) (le_trans (Nat.minFac_le (by omega)) (by omega)) (Nat.minFac_dvd n)
  have hf : factorization log2 n = some [((n : Int), 1)] := by
    rw [factorization, if_neg (by omega), factorSmall_rough n smallprimes]
    · simp only
      rw [if_pos (show (n : Int) > lastSmallprime by rw [lastSmallprime]; omega), if_pos hp]; rfl
    · intro d hd h
      obtain ⟨h1, h2, h3⟩ := (Props.C93_smallprimes d).mp hd
      obtain ⟨q, rfl⟩ : ∃ q : Nat, d = q := ⟨d.toNat, by omega⟩
      exact hr q h2 (by omega) (by exact_mod_cast h)
  have ht : n.totient < n - 1 := by
    have h1 := Nat.totient_lt n hn
    rcases Nat.lt_or_ge n.totient (n - 1) with h | h
    · exact h
    · exact absurd ((Nat.totient_eq_iff_prime (by omega)).mp (by omega)) hc
  refine ⟨hf, ?_, ?_, ht, n.totient, Nat.totient_pos.mpr (by omega), ht, fun a ha => Nat.ModEq.pow_totient ha⟩
  · rw [phi, if_neg (by omega), hf]
    simp [phiOfFactors]
  · rw [carmichael, hf]
    change some (Except.ok (carmichaelOfPpower ((n : Int), 1))) = _
    rw [carmichaelOfPpower, if_neg (by omega)]
    simp
/-- With two rounds of the test, as for numbers of more than 1300 bits, 11541307 = 1699 * 6793 is accepted. -/
example := C145_accepted (fun _ => 2000) 11541307 (by decide)
  (fun q hq h hd => by
    rcases (Nat.Prime.dvd_mul hq).mp (show q ∣ 1699 * 6793 from hd) with h1 | h1
    · have := (Nat.prime_dvd_prime_iff_eq hq (by norm_num)).mp h1; omega
    · have := (Nat.prime_dvd_prime_iff_eq hq (by norm_num)).mp h1; omega)
  (by decide +kernel) (by norm_num)

/-- C145: there is such a number. -/
theorem C145_exists : ∃ n : Nat, 1 < n ∧ (∀ q : Nat, q.Prime → q ≤ 1229 → ¬ q ∣ n) ∧ ¬ n.Prime ∧
    ∀ log2 : Int → Int, isPrime log2 n = true := by
  refine ⟨liar, by decide +kernel, ?_, liar_composite, liar_accepted⟩
  intro q hq hq' hd
  have h : (smallprimes.all fun d => decide ((liar : Int) % d ≠ 0)) = true := by decide +kernel
  have hm := (Props.C93_smallprimes (q : Int)).mpr ⟨by omega, by simpa using hq, by omega⟩
  have := List.all_eq_true.mp h _ hm
  rw [decide_eq_true_iff] at this
  exact this (Int.emod_eq_zero_of_dvd (by exact_mod_cast hd))

/-- The hypotheses of the first theorems: `factorization(561)` is complete. -/
example : ∃ l, factorization (fun _ => 0) (561 : Nat) = some l ∧ ∀ f ∈ l, f.1.toNat.Prime :=
  C60_complete_small _ _ (by decide)

end Cryptopy
