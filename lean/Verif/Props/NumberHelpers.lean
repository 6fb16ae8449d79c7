import Verif.Model.Text
import Verif.Lemmas.Factor

/-!
C158: what the auxiliary functions of `ecc/numbertheory.py` and `fmath/galoisfield.py` return for all integers.
-/

namespace Cryptopy
open Model

/-! ### modular_exp -/

/-- C158: `modular_exp` raises for a negative exponent and for the modulus zero, and only then; the result is congruent to
the power and has the sign of the modulus. -/
theorem C158_modular_exp (b e m : Int) :
    (e < 0 → modularExp b e m = .error .negativeExponent) ∧
    (0 ≤ e → m = 0 → modularExp b e m = .error .value) ∧
    (0 ≤ e → m ≠ 0 → ∃ r, modularExp b e m = .ok r ∧ m ∣ b ^ e.toNat - r ∧ (0 < m → 0 ≤ r ∧ r < m) ∧
      (m < 0 → m < r ∧ r ≤ 0)) := by
  refine ⟨fun h => by rw [modularExp, if_pos h], fun h h' => by
    rw [modularExp, if_neg (by omega), pyPow, if_neg (by omega), if_pos h'], fun h h' => ?_⟩
  refine ⟨(b ^ e.toNat).fmod m, by rw [modularExp, if_neg (by omega), pyPow, if_neg (by omega), if_neg h'], ?_, ?_, ?_⟩
  · exact ⟨(b ^ e.toNat).fdiv m, by have := Int.fmod_add_mul_fdiv (b ^ e.toNat) m; linarith⟩
  · exact fun h => ⟨Int.fmod_nonneg_of_pos _ h, Int.fmod_lt_of_pos _ h⟩
  · intro h
    have h2 := Int.fmod_lt_of_pos (-(b ^ e.toNat)) (b := -m) (by omega)
    have h3 := Int.fmod_nonneg_of_pos (-(b ^ e.toNat)) (b := -m) (by omega)
    rw [Int.neg_fmod_neg] at h2 h3
    omega
example : modularExp 3 4 (-7) = .ok (-3) ∧ modularExp (-3) 3 7 = .ok 1 ∧ modularExp 5 0 1 = .ok 0 ∧
    modularExp 2 (-1) 7 = .error .negativeExponent ∧ modularExp 2 1 0 = .error .value := by decide +kernel

/-! ### gcd and lcm with signs -/

/-- C158: `gcd2` of integers of any sign: the greatest common divisor with the sign of the first argument, or the second
argument if the first is zero; `lcm2` is the least common multiple with the sign of the second argument. -/
theorem C158_signs (a b : Int) :
    (a ≠ 0 → gcd2 a b = a.sign * Int.gcd a b) ∧ gcd2 0 b = b ∧
    (a ≠ 0 ∨ b ≠ 0 → lcm2 a b = .ok (b.sign * Int.lcm a b)) := by
  have h0 : ∀ b, gcd2 0 b = b := fun b => by rw [gcd2, dif_neg (by simp)]
  have h1 : ∀ a b : Int, a ≠ 0 → gcd2 a b = a.sign * Int.gcd a b := by
    intro a b ha
    have hn := gcd2_natAbs a b
    rcases Int.lt_or_gt_of_ne ha with h | h
    · have := gcd2_neg a b h
      rw [Int.sign_eq_neg_one_of_neg h]
      omega
    · have := gcd2_pos a b h
      rw [Int.sign_eq_one_of_pos h]
      omega
  refine ⟨h1 a b, h0 b, fun h => ?_⟩
  rw [lcm2]
  by_cases ha : a = 0
  · subst ha
    have hb : b ≠ 0 := by simpa using h
    simp only [h0]
    rw [if_neg hb]
    simp
  · simp only [h1 a b ha]
    have hg : (Int.gcd a b : Int) ≠ 0 := by
      have := Int.gcd_pos_of_ne_zero_left b ha
      omega
    have hs : a.sign ≠ 0 := by rwa [ne_eq, Int.sign_eq_zero_iff_zero]
    rw [if_neg (mul_ne_zero hs hg)]
    congr 1
    have hl : (Int.gcd a b : Int) * Int.lcm a b = (a.natAbs : Int) * b.natAbs := by
      have := Int.gcd_mul_lcm a b
      exact_mod_cast this
    have key : a * b = a.sign * (Int.gcd a b : Int) * (b.sign * Int.lcm a b) := by
      calc a * b = (a.sign * a.natAbs) * (b.sign * b.natAbs) := by rw [Int.sign_mul_natAbs, Int.sign_mul_natAbs]
        _ = a.sign * b.sign * ((a.natAbs : Int) * b.natAbs) := by ring
        _ = _ := by rw [← hl]; ring
    rw [key]
    exact Int.mul_fdiv_cancel_left _ (mul_ne_zero hs hg)
example : lcm2 (-4) 6 = .ok 12 ∧ lcm2 4 (-6) = .ok (-12) :=
  ⟨(C158_signs (-4) 6).2.2 (Or.inl (by decide)), (C158_signs 4 (-6)).2.2 (Or.inl (by decide))⟩

/-! ### The two inverse_mod functions -/

private theorem egcd_eq (a b : Int) : (egcd a b).2.1 * a + (egcd a b).2.2 * b = (egcd a b).1 ∧
    (egcd a b).1 = gcd2 a b := by
  induction a, b using egcd.induct with
  | case1 b =>
    rw [egcd, dif_pos rfl, gcd2, dif_neg (by simp)]
    exact ⟨by ring, rfl⟩
  | case2 a b h ih =>
    rw [egcd, dif_neg h]
    obtain ⟨h1, h2⟩ := ih
    have h3 := Int.fmod_add_mul_fdiv b a
    constructor
    · simp only
      rw [← h1]
      linear_combination (-(egcd (b.fmod a) a).2.1) * h3
    · rw [gcd2, dif_pos h]; exact h2

/-- C158: `egcd(a, b)` of any integers is `(g, x, y)` with `x*a + y*b == g`; `g` is the greatest common divisor with the sign
of `a`, or `b` itself if `a` is zero. -/
theorem C158_egcd (a b : Int) :
    (egcd a b).2.1 * a + (egcd a b).2.2 * b = (egcd a b).1 ∧
    (a ≠ 0 → (egcd a b).1 = a.sign * Int.gcd a b) ∧ (a = 0 → (egcd a b).1 = b) := by
  obtain ⟨h1, h2⟩ := egcd_eq a b
  refine ⟨h1, fun h => by rw [h2, (C158_signs a b).1 h], ?_⟩
  rintro rfl
  rw [h2, (C158_signs 0 b).2.1]
example : (egcd (-12) 18).1 = -6 := (C158_egcd (-12) 18).2.1 (by decide)

private theorem gcd2_eq_one (a m : Int) : gcd2 a m = 1 ↔ Int.gcd a m = 1 ∧ (0 < a ∨ a = 0 ∧ m = 1) := by
  have hn := gcd2_natAbs a m
  rcases lt_trichotomy a 0 with h | h | h
  · have := gcd2_neg a m h
    omega
  · subst h
    rw [(C158_signs 0 m).2.1]
    constructor
    · rintro rfl; simp
    · rintro ⟨-, h | h⟩
      · omega
      · exact h.2
  · have := gcd2_pos a m h
    omega

/-- C158: `inverse_mod(a, m)` of `fmath/galoisfield.py` returns exactly if `m` is not zero, `a` and `m` have no common
divisor and `a` is positive (or `a` is 0 and `m` is 1); the result then is an inverse and has the sign of `m`.  For other
arguments it raises, ZeroDivisionError for `m` zero and `a` one. -/
theorem C158_gf_inverse (a m : Int) :
    (m ≠ 0 → Int.gcd a m = 1 → (0 < a ∨ a = 0 ∧ m = 1) → ∃ r, gfInverseMod a m = .ok r ∧ m ∣ a * r - 1 ∧
      (0 < m → 0 ≤ r ∧ r < m) ∧ (m < 0 → m < r ∧ r ≤ 0)) ∧
    (¬ (Int.gcd a m = 1 ∧ (0 < a ∨ a = 0 ∧ m = 1)) → gfInverseMod a m = .error .exception) ∧
    gfInverseMod 1 0 = .error .zeroDivision := by
  obtain ⟨h1, h2⟩ := egcd_eq a m
  refine ⟨fun hm hg hs => ?_, fun h => ?_, ?_⟩
  · have h3 := (gcd2_eq_one a m).mpr ⟨hg, hs⟩
    refine ⟨(egcd a m).2.1.fmod m, ?_, ?_, ?_, ?_⟩
    · rw [gfInverseMod]
      rw [if_neg (by rw [h2, h3]; simp), if_neg hm]
    · have h4 := Int.fmod_add_mul_fdiv (egcd a m).2.1 m
      refine ⟨-(egcd a m).2.2 - a * (egcd a m).2.1.fdiv m, ?_⟩
      rw [h2, h3] at h1
      linear_combination a * h4 + h1
    · exact fun h => ⟨Int.fmod_nonneg_of_pos _ h, Int.fmod_lt_of_pos _ h⟩
    · intro h
      have h2 := Int.fmod_lt_of_pos (-((egcd a m).2.1)) (b := -m) (by omega)
      have h3 := Int.fmod_nonneg_of_pos (-((egcd a m).2.1)) (b := -m) (by omega)
      rw [Int.neg_fmod_neg] at h2 h3
      omega
  · rw [gfInverseMod]
    rw [if_pos]
    rw [h2, ne_eq, gcd2_eq_one]
    exact h
  · have h5 := (egcd_eq 1 0).2
    have h6 : gcd2 1 0 = 1 := (gcd2_eq_one 1 0).mpr ⟨rfl, Or.inl (by decide)⟩
    rw [gfInverseMod]
    rw [if_neg (by rw [h5, h6]; simp), if_pos rfl]
example : gfInverseMod (-3) 7 = .error .exception := (C158_gf_inverse (-3) 7).2.1 (by decide)
example : ∃ r, gfInverseMod 3 (-7) = .ok r ∧ (-7 : Int) ∣ 3 * r - 1 ∧ ((0 : Int) < -7 → 0 ≤ r ∧ r < -7) ∧
    ((-7 : Int) < 0 → -7 < r ∧ r ≤ 0) := (C158_gf_inverse 3 (-7)).1 (by decide) (by decide) (by decide)

private theorem loop_fst (c d uc vc ud vd : Int) : (inverseModLoop c d uc vc ud vd).1 = gcd2 c d := by
  induction c, d, uc, vc, ud, vd using inverseModLoop.induct with
  | case1 c d uc vc ud vd h q ih => rw [inverseModLoop, dif_pos h, ih, gcd2.eq_1 c d, dif_pos h]
  | case2 c d uc vc ud vd h => rw [inverseModLoop, dif_neg h, gcd2, dif_neg h]

/-- C158: `inverse_mod` of `ecc/numbertheory.py` fails its assertion for every negative modulus. -/
theorem C158_negative_modulus (a m : Int) (hm : m < 0) : inverseMod a m = .error .assertion := by
  rw [inverseMod, if_pos (by omega), if_neg (by omega), inverseModCore]
  rw [if_pos]
  rw [loop_fst]
  have h3 := Int.fmod_nonneg_of_pos (-a) (b := -m) (by omega)
  rw [Int.neg_fmod_neg] at h3
  rcases Int.lt_or_eq_of_le (show a.fmod m ≤ 0 by omega) with h | h
  · have := gcd2_neg _ m h
    omega
  · rw [h, (C158_signs 0 m).2.1]
    omega
example := C158_negative_modulus 3 (-7) (by decide)

/-- C158: the two functions named `inverse_mod` for a modulus above 1: for `a >= 0` both return the same number or both
raise; for negative `a` the one of `galoisfield.py` always raises, also if there is an inverse. -/
theorem C158_two_inverses (a m : Int) (hm : 1 < m) :
    (0 ≤ a → ∀ r, inverseMod a m = .ok r ↔ gfInverseMod a m = .ok r) ∧
    (a < 0 → gfInverseMod a m = .error .exception) := by
  refine ⟨fun ha r => ?_, fun h => (C158_gf_inverse a m).2.1 (by omega)⟩
  have hcore : (Int.gcd a m ≠ 1 → inverseMod a m = .error .assertion) ∧
      (Int.gcd a m = 1 → ∃ r, inverseMod a m = .ok r ∧ 1 ≤ r ∧ r ≤ m ∧ (1 < m → r < m) ∧ m ∣ a * r - 1) := by
    rw [inverseMod]
    by_cases h : a < 0 ∨ m ≤ a
    · rw [if_pos h, if_neg (by omega)]
      have h5 := inverseModCore_spec (a.fmod m) m (by omega) (Int.fmod_nonneg_of_pos _ (by omega))
        (Int.fmod_lt_of_pos _ (by omega))
      have hgg : Int.gcd (a.fmod m) m = Int.gcd a m := by
        rw [Int.fmod_eq_emod_of_nonneg _ (by omega)]
        exact Int.gcd_emod a m
      rw [hgg] at h5
      refine ⟨h5.1, fun hg => ?_⟩
      obtain ⟨r, h1, h2, h3, h4, h6⟩ := h5.2 hg
      refine ⟨r, h1, h2, h3, h4, ?_⟩
      have h7 := Int.fmod_add_mul_fdiv a m
      rw [show a * r - 1 = (a.fmod m * r - 1) + m * (a.fdiv m * r) by linear_combination (-r) * h7]
      exact dvd_add h6 (dvd_mul_right _ _)
    · rw [if_neg h]
      exact inverseModCore_spec a m (by omega) (by omega) (by omega)
  by_cases hg : Int.gcd a m = 1
  · have ha' : 0 < a := by
      rcases Int.lt_or_eq_of_le ha with h | h
      · exact h
      · rw [← h, Int.gcd_zero_left] at hg
        omega
    obtain ⟨r1, e1, b1, -, b2, d1⟩ := hcore.2 hg
    obtain ⟨r2, e2, d2, b3, -⟩ := (C158_gf_inverse a m).1 (by omega) hg (Or.inl ha')
    have b2 := b2 hm
    have b3 := b3 (by omega)
    have hd : m ∣ r1 - r2 := by
      have h8 : m ∣ a * (r1 - r2) := by
        rw [show a * (r1 - r2) = (a * r1 - 1) - (a * r2 - 1) by ring]
        exact dvd_sub d1 d2
      exact (Int.isCoprime_iff_gcd_eq_one.mpr hg).symm.dvd_of_dvd_mul_left h8
    have heq : r1 = r2 := by
      obtain ⟨k, hk⟩ := hd
      have : k = 0 := by
        by_contra hk0
        rcases Int.lt_or_gt_of_ne hk0 with h | h <;> nlinarith
      subst this
      omega
    rw [e1, e2, heq]
  · rw [hcore.1 hg, (C158_gf_inverse a m).2.1 (fun h => hg h.1)]
    simp
example : ∀ r, inverseMod 10 7 = .ok r ↔ gfInverseMod 10 7 = .ok r := (C158_two_inverses 10 7 (by decide)).1 (by decide)

/-! ### The Carmichael function of a list of prime powers -/

/-- The least common multiple of the powers in a list of pairs. -/
def powersLcm (l : List (Nat × Nat)) : Nat := (l.map fun f => f.1 ^ f.2).foldr Nat.lcm 1

/-- The least exponent that gives 1 modulo `n` for all numbers without common divisor with `n`. -/
def IsCarmichael (n c : Nat) : Prop := IsLeast {x : Nat | 0 < x ∧ ∀ a : Nat, Nat.Coprime a n → a ^ x ≡ 1 [MOD n]} c

/-- A list of pairs as Python integers. -/
def pairsOf (l : List (Nat × Nat)) : List (Int × Nat) := l.map fun f => ((f.1 : Int), f.2)

private theorem powersLcm_ne {l : List (Nat × Nat)} (h : ∀ f ∈ l, f.1.Prime ∧ 1 ≤ f.2) : powersLcm l ≠ 0 := by
  induction l with
  | nil => simp [powersLcm]
  | cons f l ih =>
    rw [powersLcm, List.map_cons, List.foldr_cons]
    exact Nat.lcm_ne_zero (pow_ne_zero _ (h f (by simp)).1.ne_zero) (ih fun g hg => h g (by simp [hg]))

private theorem car_fold (l : List (Nat × Nat)) : ∀ m : Nat, m ≠ 0 → (∀ f ∈ l, f.1.Prime ∧ 1 ≤ f.2) →
    (pairsOf l).foldlM (fun result g => lcmArgs [result, carmichaelOfPpower g])
      (ArithmeticFunction.carmichael m : Int) = .ok (ArithmeticFunction.carmichael (Nat.lcm m (powersLcm l)) : Int) := by
  induction l with
  | nil => intro m _ _; simp [powersLcm, pairsOf]; rfl
  | cons f l ih =>
    intro m hm h
    have hf := h f (by simp)
    have hne : f.1 ^ f.2 ≠ 0 := pow_ne_zero _ hf.1.ne_zero
    have hstep : lcmArgs [(ArithmeticFunction.carmichael m : Int), carmichaelOfPpower ((f.1 : Int), f.2)]
        = .ok (ArithmeticFunction.carmichael (Nat.lcm m (f.1 ^ f.2)) : Int) := by
      rw [carmichaelOfPpower_eq (by simpa using hf.1) hf.2, Int.toNat_natCast, lcmArgs, List.foldlM_cons,
        lcm2_pos _ _ (by exact_mod_cast carmichael_pos hm) (by exact_mod_cast carmichael_pos hne),
        ArithmeticFunction.carmichael_lcm]
      rfl
    rw [pairsOf, List.map_cons, List.foldlM_cons, hstep]
    have := ih (Nat.lcm m (f.1 ^ f.2)) (Nat.lcm_ne_zero hm hne) fun g hg => h g (by simp [hg])
    rw [Nat.lcm_assoc] at this
    exact this

/-- C158: `carmichael_of_factorized` of a list of pairs of a prime and a positive exponent, in any order and also with
repeated primes, is the Carmichael function of the least common multiple of the powers; for different primes that is their
product.  For one pair `carmichael_of_ppower` is the Carmichael function of the power. -/
theorem C158_carmichael (l : List (Nat × Nat)) (h : ∀ f ∈ l, f.1.Prime ∧ 1 ≤ f.2) :
    (∃ c : Nat, carmichaelOfFactorized (pairsOf l) = .ok c ∧ IsCarmichael (powersLcm l) c) ∧
    ((l.map Prod.fst).Nodup → powersLcm l = (l.map fun f => f.1 ^ f.2).prod) ∧
    (∀ p a, (p, a) ∈ l → ∃ c : Nat, carmichaelOfPpower ((p : Int), a) = c ∧ IsCarmichael (p ^ a) c) := by
  refine ⟨⟨ArithmeticFunction.carmichael (powersLcm l), ?_, carmichael_isLeast (powersLcm_ne h)⟩, ?_, ?_⟩
  · cases l with
    | nil =>
      have h1 : ArithmeticFunction.carmichael (powersLcm []) = 1 := by
        rw [show powersLcm [] = 2 ^ 0 from rfl, ArithmeticFunction.carmichael_two_pow_of_le_two (by omega)]
        norm_num
      rw [h1]
      rfl
    | cons f l =>
      have hf := h f (by simp)
      rw [pairsOf, List.map_cons, carmichaelOfFactorized, carmichaelOfPpower_eq (by simpa using hf.1) hf.2, Int.toNat_natCast]
      exact car_fold l _ (pow_ne_zero _ hf.1.ne_zero) fun g hg => h g (by simp [hg])
  · intro hn
    induction l with
    | nil => rfl
    | cons f l ih =>
      have hf := h f (by simp)
      rw [List.map_cons, List.nodup_cons] at hn
      have h2 : ∀ g ∈ l, g.1.Prime ∧ 1 ≤ g.2 := fun g hg => h g (by simp [hg])
      have hcop : Nat.Coprime (f.1 ^ f.2) (l.map fun f => f.1 ^ f.2).prod := by
        apply Nat.Coprime.symm
        apply Nat.coprime_list_prod_left_iff.mpr
        intro m hm
        obtain ⟨g, hg, rfl⟩ := List.mem_map.mp hm
        apply Nat.Coprime.pow
        refine (Nat.coprime_primes (h2 g hg).1 hf.1).mpr ?_
        intro he
        exact hn.1 (List.mem_map.mpr ⟨g, hg, he⟩)
      rw [powersLcm, List.map_cons, List.foldr_cons, List.prod_cons]
      change Nat.lcm (f.1 ^ f.2) (powersLcm l) = _
      rw [ih h2 hn.2, hcop.lcm_eq_mul]
  · intro p a hpa
    have hf := h _ hpa
    exact ⟨ArithmeticFunction.carmichael (p ^ a), by rw [carmichaelOfPpower_eq (by simpa using hf.1) hf.2, Int.toNat_natCast],
      carmichael_isLeast (pow_ne_zero _ hf.1.ne_zero)⟩

/-- C158: with repeated primes the value divides the Carmichael function of the product of the powers, for two powers of one
odd prime it is smaller, and in other cases it may happen to be right. -/
theorem C158_repeated :
    (∀ (l : List (Nat × Nat)), (∀ f ∈ l, f.1.Prime ∧ 1 ≤ f.2) →
      ∃ c C : Nat, carmichaelOfFactorized (pairsOf l) = .ok c ∧ IsCarmichael (l.map fun f => f.1 ^ f.2).prod C ∧ c ∣ C) ∧
    (∀ p a b : Nat, p.Prime → p ≠ 2 → 1 ≤ a → 1 ≤ b →
      ∃ c C : Nat, carmichaelOfFactorized (pairsOf [(p, a), (p, b)]) = .ok c ∧ IsCarmichael (p ^ a * p ^ b) C ∧ c < C) ∧
    carmichaelOfFactorized (pairsOf [(3, 1), (3, 1), (7, 1)]) = .ok 6 ∧ IsCarmichael (3 * 3 * 7) 6 := by
  refine ⟨fun l h => ?_, fun p a b hp h2 ha hb => ?_, by decide +kernel, ?_⟩
  · obtain ⟨⟨c, hc, hl⟩, -⟩ := C158_carmichael l h
    have hne : (l.map fun f => f.1 ^ f.2).prod ≠ 0 := by
      refine List.prod_ne_zero ?_
      intro h0
      obtain ⟨f, hf, h0⟩ := List.mem_map.mp h0
      exact pow_ne_zero _ (h f hf).1.ne_zero h0
    refine ⟨c, ArithmeticFunction.carmichael _, hc, carmichael_isLeast hne, ?_⟩
    rw [hl.unique (carmichael_isLeast (powersLcm_ne h))]
    apply ArithmeticFunction.carmichael_dvd
    rw [powersLcm]
    generalize (l.map fun f => f.1 ^ f.2) = ls
    induction ls with
    | nil => exact dvd_rfl
    | cons x ls ih => exact Nat.lcm_dvd (Dvd.intro _ rfl) (ih.trans (Dvd.intro_left _ rfl))
  · have h : ∀ f ∈ [(p, a), (p, b)], f.1.Prime ∧ 1 ≤ f.2 := by simp [hp, ha, hb]
    obtain ⟨⟨c, hc, hl⟩, -⟩ := C158_carmichael _ h
    have hpos : 0 < p ^ a * p ^ b := by have := hp.pos; positivity
    refine ⟨c, _, hc, carmichael_isLeast hpos.ne', ?_⟩
    rw [hl.unique (carmichael_isLeast (powersLcm_ne h))]
    have hm : powersLcm [(p, a), (p, b)] = p ^ max a b := by
      change Nat.lcm (p ^ a) (Nat.lcm (p ^ b) 1) = _
      rw [Nat.lcm_one_right]
      rcases le_total a b with hab | hab
      · rw [max_eq_right hab, Nat.lcm_eq_right (pow_dvd_pow p hab)]
      · rw [max_eq_left hab, Nat.lcm_eq_left (pow_dvd_pow p hab)]
    rw [hm, ← pow_add, ArithmeticFunction.carmichael_pow_of_prime_ne_two _ hp h2,
      ArithmeticFunction.carmichael_pow_of_prime_ne_two _ hp h2, Nat.totient_prime_pow hp (by omega),
      Nat.totient_prime_pow hp (by omega)]
    exact Nat.mul_lt_mul_of_pos_right (Nat.pow_lt_pow_right hp.one_lt (by omega)) (by have := hp.two_le; omega)
  · refine ⟨⟨by decide, fun a ha => ?_⟩, fun x hx => ?_⟩
    · rw [show 3 * 3 * 7 = 63 from rfl] at *
      have h : ∀ r < 63, Nat.Coprime r 63 → r ^ 6 % 63 = 1 % 63 := by decide
      have := h (a % 63) (Nat.mod_lt _ (by decide)) (by rw [Nat.Coprime, ← Nat.gcd_rec, Nat.gcd_comm]; exact ha)
      rw [Nat.ModEq, Nat.pow_mod]
      exact this
    · by_contra hlt
      have h := hx.2 2 (by decide)
      have h0 := hx.1
      have : ∀ x < 6, 0 < x → ¬ 2 ^ x % 63 = 1 % 63 := by decide
      exact this x (by omega) h0 h
example : ∃ c C : Nat, carmichaelOfFactorized (pairsOf [(5, 2), (5, 1)]) = .ok c ∧ IsCarmichael (5 ^ 2 * 5 ^ 1) C ∧ c < C :=
  C158_repeated.2.1 5 2 1 (by decide) (by decide) (by decide) (by decide)

/-- Lists that meet the hypothesis: one with different primes, and one with a repeated prime, for which the value is 2 and
not the value 6 that belongs to 9. -/
example : (∀ f ∈ [(5, 1), (2, 4)], f.1.Prime ∧ 1 ≤ f.2) ∧ powersLcm [(5, 1), (2, 4)] = 80 := by decide
example : powersLcm [(3, 1), (3, 1)] = 3 ∧ carmichaelOfPpower (3, 2) = 6 := by decide
example : carmichaelOfFactorized (pairsOf []) = .ok 1 := rfl

end Cryptopy
