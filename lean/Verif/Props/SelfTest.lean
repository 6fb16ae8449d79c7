import Verif.Model.SelfTest
import Verif.Props.IsPrime

/-!
C153: what the self-test of `numbertheory.py` reports, whatever random numbers it draws.
-/

namespace Cryptopy
open Model

private theorem mem_intRange {lo hi x : Int} : x ∈ intRange lo hi ↔ lo ≤ x ∧ x < hi := by
  simp only [intRange, List.mem_map, List.mem_range]
  constructor
  · rintro ⟨i, h1, rfl⟩; omega
  · rintro ⟨h1, h2⟩; exact ⟨(x - lo).toNat, by omega, by omega⟩

/-- A loop in which every step succeeds and leaves the state alone. -/
private theorem foldlM_const {α β : Type} (f : β → α → Py β) (l : List α) (b : β) (h : ∀ x ∈ l, f b x = .ok b) :
    l.foldlM f b = .ok b := by
  induction l with
  | nil => rfl
  | cons x l ih =>
    rw [List.foldlM_cons, h x (by simp)]
    exact ih fun y hy => h y (by simp [hy])

/-- A loop that collects values and leaves the count alone. -/
private theorem foldlM_collect (f : Nat × List Int → Int → Py (Nat × List Int)) (g : Int → Int) (l : List Int) (n : Nat)
    (h : ∀ x ∈ l, ∀ s, f (n, s) x = .ok (n, s ++ [g x])) (s : List Int) :
    l.foldlM f (n, s) = .ok (n, s ++ l.map g) := by
  induction l generalizing s with
  | nil => simp [List.foldlM]; rfl
  | cons x l ih =>
    rw [List.foldlM_cons, h x (by simp)]
    change l.foldlM f (n, s ++ [g x]) = _
    rw [ih (fun y hy => h y (by simp [hy]))]
    simp

private theorem fmod_eq (a : Int) (p : Nat) : a.fmod p = a % p := Int.fmod_eq_emod_of_nonneg _ (by omega)

/-- C153: the test of `square_root_mod_prime` finds no error for any prime, not only for those of the table. -/
theorem C153_square_roots (p : Nat) (hp : p.Prime) (tally : Nat) : sqrtTest tally p = .ok tally := by
  have h2 := hp.two_le
  have hroot : ∀ x ∈ intRange 0 (1 + (p : Int) / 2), ∀ s, sqrtRoot p (tally, s) x =
      .ok (tally, s ++ [(x * x).fmod p]) := by
    intro x hx s
    have h0 := Int.emod_nonneg (x * x) (b := (p : Int)) (by omega)
    have h1 := Int.emod_lt_of_pos (x * x) (b := (p : Int)) (by omega)
    obtain ⟨r, h3, -, -, h4⟩ := (C57_square_root p hp ((x * x) % p) h0 h1).1 ⟨x, (Int.mod_modEq _ _).symm⟩
    rw [sqrtRoot, fmod_eq]
    simp only [h3, fmod_eq]
    rw [if_neg (by rw [ne_eq, not_not]; exact h4.trans (Int.mod_modEq _ _))]
  rw [sqrtTest, foldlM_collect _ _ _ _ hroot]
  simp only [List.nil_append]
  refine foldlM_const _ _ _ fun x hx => ?_
  obtain ⟨h0, h1⟩ := mem_intRange.mp hx
  rw [sqrtNonsquare]
  split
  · next hns =>
    rw [(C57_square_root p hp x h0 h1).2]
    rintro ⟨y, hy⟩
    apply hns
    -- one of the two roots is at most half of the modulus
    have hb := Int.emod_nonneg y (b := (p : Int)) (by omega)
    have hb' := Int.emod_lt_of_pos y (b := (p : Int)) (by omega)
    have hx' : x % p = x := Int.emod_eq_of_lt h0 h1
    rw [List.mem_map]
    by_cases hh : y % p ≤ (p : Int) / 2
    · refine ⟨y % p, mem_intRange.mpr ⟨hb, by omega⟩, ?_⟩
      rw [fmod_eq, ← hx']
      exact ((Int.mod_modEq y p).mul (Int.mod_modEq y p)).trans hy
    · refine ⟨p - y % p, mem_intRange.mpr ⟨by omega, by omega⟩, ?_⟩
      rw [fmod_eq, ← hx']
      have h5 : (p : Int) - y % p ≡ -y [ZMOD p] := by
        have : (p : Int) - y % p ≡ 0 - y [ZMOD p] := Int.ModEq.sub (by simp [Int.ModEq]) (Int.mod_modEq _ _)
        simpa using this
      have := h5.mul h5
      rw [neg_mul_neg] at this
      exact this.trans hy
  · rfl
example := C153_square_roots 2 Nat.prime_two 0

private theorem jacobiProduct_eq (a : Int) (f : List (Int × Nat)) (h : ∀ i ∈ f, 3 ≤ i.1 ∧ i.1 % 2 = 1) (c : Int) :
    f.foldlM (jacobiFactor a) c = .ok (c * jacobiSym a (f.map fun i : Int × Nat => i.1 ^ i.2).prod.toNat) := by
  induction f generalizing c with
  | nil => simp [List.foldlM]; rfl
  | cons x f ih =>
    obtain ⟨h1, h2⟩ := h x (by simp)
    rw [List.foldlM_cons, jacobiFactor, C56_jacobi a x.1 h1 h2]
    change List.foldlM _ (c * jacobiSym a x.1.toNat ^ x.2) f = _
    rw [ih (fun i hi => h i (by simp [hi]))]
    simp only [List.map_cons, List.prod_cons]
    have hp : 0 < x.1 ^ x.2 := Int.pow_pos (by omega)
    have hq : 0 < (f.map fun i : Int × Nat => i.1 ^ i.2).prod := by
      apply List.prod_pos
      intro y hy
      obtain ⟨i, hi, rfl⟩ := List.mem_map.mp hy
      have := h i (by simp [hi])
      exact Int.pow_pos (by omega)
    have hne : (x.1 ^ x.2).toNat ≠ 0 := by omega
    have hne' : ((f.map fun i : Int × Nat => i.1 ^ i.2).prod).toNat ≠ 0 := by omega
    rw [Int.toNat_mul hp.le hq.le, jacobiSym.mul_right' _ hne hne', Int.toNat_pow_of_nonneg (by omega), jacobiSym.pow_right,
      mul_assoc]

/-- C153: the test of `jacobi` finds no error for any odd modulus up to 1229. -/
theorem C153_jacobi (log2 : Int → Int) (m : Int) (h3 : 3 ≤ m) (hm : m ≤ 1229) (hodd : m % 2 = 1) (tally : Nat) :
    jacobiTest log2 tally m = some (.ok tally) := by
  have hmt : ((m.toNat : Nat) : Int) = m := by omega
  rw [jacobiTest]
  split
  · next hp =>
    have hprime := (C65_exact_small log2 m hm).mp hp
    have : Fact m.toNat.Prime := ⟨hprime⟩
    have hz : ∀ x : Int, 1 ≤ x → x < m → (x : ZMod m.toNat) ≠ 0 := by
      intro x h0 h1 h
      rw [ZMod.intCast_zmod_eq_zero_iff_dvd, hmt] at h
      exact absurd (Int.le_of_dvd (by omega) h) (by omega)
    congr 1
    have hroot : ∀ x ∈ intRange 1 m, ∀ s, jacobiRoot m (tally, s) x = .ok (tally, s ++ [(x * x).fmod m]) := by
      intro x hx s
      obtain ⟨h0, h1⟩ := mem_intRange.mp hx
      rw [jacobiRoot, C56_jacobi _ _ h3 hodd]
      simp only
      rw [if_neg]
      rw [ne_eq, not_not, ← sq, ← jacobiSym.legendreSym.to_jacobiSym]
      exact legendreSym.sq_one' _ (hz x h0 h1)
    rw [foldlM_collect _ _ _ _ hroot]
    simp only [List.nil_append]
    refine foldlM_const _ _ _ fun x hx => ?_
    obtain ⟨h0, h1⟩ := mem_intRange.mp hx
    rw [jacobiNonsquare]
    split
    · next hns =>
      rw [C56_jacobi _ _ h3 hodd]
      simp only
      rw [if_neg]
      rw [ne_eq, not_not, ← jacobiSym.legendreSym.to_jacobiSym, legendreSym.eq_neg_one_iff]
      rintro ⟨y, hy⟩
      apply hns
      rw [List.mem_map]
      have hy0 : y ≠ 0 := by
        rintro rfl
        exact hz x h0 h1 (by simpa using hy)
      have hv : 0 < y.val := Nat.pos_of_ne_zero fun h => hy0 ((ZMod.val_eq_zero y).mp h)
      have hv' := ZMod.val_lt y
      refine ⟨y.val, mem_intRange.mpr ⟨by omega, by omega⟩, ?_⟩
      rw [Int.fmod_eq_emod_of_nonneg _ (by omega)]
      have : ((y.val : Int) * y.val) % (m.toNat : Int) = x % (m.toNat : Int) := by
        rw [← ZMod.intCast_eq_intCast_iff']
        push_cast
        rw [ZMod.natCast_zmod_val, hy]
      rw [hmt, Int.emod_eq_of_lt (by omega) h1] at this
      exact this
    · rfl
  · obtain ⟨l, h4, -, h5, h6, -⟩ := C60_factorization log2 m (by omega)
    obtain ⟨l', h7, h8⟩ := C60_complete_small log2 m (by omega)
    rw [h4] at h7 ⊢
    obtain rfl := Option.some.inj h7
    simp only
    congr 1
    refine foldlM_const _ _ _ fun a _ => ?_
    have hl : ∀ i ∈ l, 3 ≤ i.1 ∧ i.1 % 2 = 1 := by
      intro i hi
      have hpr := (h8 i hi).two_le
      have hd : i.1 ∣ m := by
        rw [← h6]
        exact (dvd_pow_self i.1 (by have := h5 i hi; omega)).trans
          (List.dvd_prod (List.mem_map.mpr ⟨i, hi, rfl⟩))
      have : i.1 % 2 = 1 := by
        obtain ⟨k, rfl⟩ := hd
        rcases Int.emod_two_eq i.1 with h | h
        · rw [Int.mul_emod, h] at hodd; simp at hodd
        · exact h
      omega
    rw [jacobiComposite, jacobiProduct, jacobiProduct_eq a l hl, h6, C56_jacobi _ _ h3 hodd]
    simp
example := C153_jacobi (fun _ => 0) 45 (by decide) (by decide) (by decide) 0

/-- C153: the test of `inverse_mod` counts the pairs without a common factor and finds no error. -/
theorem C153_inverse (m a : Int) (hm : 2 ≤ m) (ha : 1 ≤ a) (s : Nat × Nat) :
    inverseTest m s a = .ok (s.1 + (if Int.gcd a m = 1 then 1 else 0), s.2) := by
  rw [inverseTest]
  have hg : gcdArgs [a, m] = .ok (gcd2 a m) := rfl
  rw [hg, C55_gcd2 a m (by omega) (by omega)]
  simp only
  by_cases h : Int.gcd a m = 1
  · obtain ⟨r, h1, h2, -, h3, h4⟩ := (C54_inverse_mod a m (by omega)).2 h
    have h3 := h3 (by omega)
    rw [if_pos (by omega), if_pos h, h1]
    simp only
    rw [if_neg]
    rw [Int.fmod_eq_emod_of_nonneg _ (by omega)]
    have : (a * r) % m = 1 := by
      rw [(Int.modEq_iff_dvd.mpr h4 : (1 : Int) ≡ a * r [ZMOD m]).symm]
      exact Int.emod_eq_of_lt (by omega) (by omega)
    rintro (h | h | h)
    · omega
    · omega
    · exact h this
  · rw [if_neg (by omega), if_neg h]; rfl
example := C153_inverse 20 7 (by decide) (by decide) (3, 0)

private theorem foldlM_count (f : Nat × Nat → Nat → Py (Nat × Nat)) (w : Nat → Nat) (n : Nat)
    (h : ∀ i < n, ∀ s, f s i = .ok (s.1 + w i, s.2)) (s : Nat × Nat) :
    (List.range n).foldlM f s = .ok (s.1 + ∑ i ∈ Finset.range n, w i, s.2) := by
  induction n with
  | zero => simp; rfl
  | succ n ih =>
    rw [List.range_succ, List.foldlM_append, ih fun i hi => h i (by omega)]
    change List.foldlM f _ [n] = _
    rw [List.foldlM_cons, h n (by omega), Finset.sum_range_succ, ← add_assoc]
    rfl

/-- The number of the pairs drawn for the last test that have no common factor. -/
def coprimeDraws (ms : Nat → Int) (as : Nat → Nat → Int) : Nat :=
  ((Finset.range 100 ×ˢ Finset.range 100).filter fun ij => Int.gcd (as ij.1 ij.2) (ms ij.1) = 1).card

private theorem inverseTests_eq (ms : Nat → Int) (as : Nat → Nat → Int) (hm : ∀ i < 100, 2 ≤ ms i)
    (ha : ∀ i < 100, ∀ j < 100, 1 ≤ as i j) (s : Nat × Nat) :
    inverseTests ms as s = .ok (s.1 + coprimeDraws ms as, s.2) := by
  rw [inverseTests, coprimeDraws, Finset.card_filter, Finset.sum_product]
  refine foldlM_count _ _ _ (fun i hi t => ?_) s
  exact foldlM_count _ _ _ (fun j hj u => C153_inverse _ _ (hm i hi) (ha i hi j hj) u) t

private theorem jacobiTests_ok (log2 : Int → Int) (l : List Int) (h : ∀ m ∈ l, 3 ≤ m ∧ m ≤ 1229 ∧ m % 2 = 1) (tally : Nat) :
    jacobiTests log2 l tally = some (.ok tally) := by
  induction l with
  | nil => rfl
  | cons m l ih =>
    obtain ⟨h1, h2, h3⟩ := h m (by simp)
    rw [jacobiTests, C153_jacobi log2 m h1 h2 h3]
    exact ih fun x hx => h x (by simp [hx])

private theorem nextPrimeTests_ok (log2 : Int → Int) (hb : ∀ n < 179 ^ 4, log2 n < 99) (l : List (Int × Int))
    (h : ∀ ab ∈ l, ab.1 < 513312840 ∧ ∀ p : Nat, IsLeast {q : Nat | q.Prime ∧ ab.1 < q} p → (p : Int) = ab.2) :
    nextPrimeTests log2 l = some (.ok ()) := by
  induction l with
  | nil => rfl
  | cons ab l ih =>
    obtain ⟨h1, h2⟩ := h ab (by simp)
    obtain ⟨p, h3, h4⟩ := C144_next log2 ab.1 h1 hb
    rw [nextPrimeTests, h3]
    simp only
    rw [if_pos (h2 p h4)]
    exact ih fun x hx => h x (by simp [hx])

private theorem least_of {a b : Int} {a' b' : Nat} (ha : a = a') (hb : b = b') (hab : a' < b') (hp : b'.Prime)
    (hn : ∀ q, a' < q → q < b' → ¬ q.Prime) (p : Nat) (h : IsLeast {q : Nat | q.Prime ∧ a < q} p) : (p : Int) = b := by
  obtain ⟨⟨h1, h2⟩, h3⟩ := h
  have h4 := h3 (show b' ∈ {q : Nat | q.Prime ∧ a < q} from ⟨hp, by omega⟩)
  by_contra hne
  exact hn p (by omega) (by omega) h1

private theorem bigprimes_ok : ∀ ab ∈ bigprimes.zip bigprimes.tail,
    ab.1 < 513312840 ∧ ∀ p : Nat, IsLeast {q : Nat | q.Prime ∧ ab.1 < q} p → (p : Int) = ab.2 := by
  have key : ∀ (a b : Int) (a' b' : Nat), a = a' → b = b' → a' < b' → b' < 513312840 → b'.Prime →
      (∀ q, a' < q → q < b' → ¬ q.Prime) →
      (a, b).1 < 513312840 ∧ ∀ p : Nat, IsLeast {q : Nat | q.Prime ∧ (a, b).1 < q} p → (p : Int) = (a, b).2 :=
    fun a b a' b' h1 h2 h3 h4 h5 h6 => ⟨by simp only; omega, least_of h1 h2 h3 h5 h6⟩
  rw [bigprimes]
  simp only [List.tail_cons, List.zip_cons_cons, List.zip_nil_right, List.forall_mem_cons]
  refine ⟨key _ _ 999671 999683 (by norm_num) (by norm_num) (by norm_num) (by norm_num) (by norm_num) ?_,
    key _ _ 999683 999721 (by norm_num) (by norm_num) (by norm_num) (by norm_num) (by norm_num) ?_,
    key _ _ 999721 999727 (by norm_num) (by norm_num) (by norm_num) (by norm_num) (by norm_num) ?_,
    key _ _ 999727 999749 (by norm_num) (by norm_num) (by norm_num) (by norm_num) (by norm_num) ?_,
    key _ _ 999749 999763 (by norm_num) (by norm_num) (by norm_num) (by norm_num) (by norm_num) ?_,
    key _ _ 999763 999769 (by norm_num) (by norm_num) (by norm_num) (by norm_num) (by norm_num) ?_,
    key _ _ 999769 999773 (by norm_num) (by norm_num) (by norm_num) (by norm_num) (by norm_num) ?_,
    key _ _ 999773 999809 (by norm_num) (by norm_num) (by norm_num) (by norm_num) (by norm_num) ?_,
    key _ _ 999809 999853 (by norm_num) (by norm_num) (by norm_num) (by norm_num) (by norm_num) ?_,
    key _ _ 999853 999863 (by norm_num) (by norm_num) (by norm_num) (by norm_num) (by norm_num) ?_,
    key _ _ 999863 999883 (by norm_num) (by norm_num) (by norm_num) (by norm_num) (by norm_num) ?_,
    key _ _ 999883 999907 (by norm_num) (by norm_num) (by norm_num) (by norm_num) (by norm_num) ?_,
    key _ _ 999907 999917 (by norm_num) (by norm_num) (by norm_num) (by norm_num) (by norm_num) ?_,
    key _ _ 999917 999931 (by norm_num) (by norm_num) (by norm_num) (by norm_num) (by norm_num) ?_,
    key _ _ 999931 999953 (by norm_num) (by norm_num) (by norm_num) (by norm_num) (by norm_num) ?_,
    key _ _ 999953 999959 (by norm_num) (by norm_num) (by norm_num) (by norm_num) (by norm_num) ?_,
    key _ _ 999959 999961 (by norm_num) (by norm_num) (by norm_num) (by norm_num) (by norm_num) ?_,
    key _ _ 999961 999979 (by norm_num) (by norm_num) (by norm_num) (by norm_num) (by norm_num) ?_,
    key _ _ 999979 999983 (by norm_num) (by norm_num) (by norm_num) (by norm_num) (by norm_num) ?_, by simp⟩
  all_goals
    intro q h1 h2
    interval_cases q <;> norm_num

private theorem andThen_ok {α β : Type} (a : α) (f : α → Option (Py β)) : andThen (some (.ok a)) f = f a := rfl

/-- C153: for all random numbers in the ranges asked for the script finds no error, and prints the number of pairs without a
common factor; it stops at its last assertion exactly if at most 1000 were drawn. -/
theorem C153_self_test (log2 : Int → Int) (hb : ∀ n < 179 ^ 4, log2 n < 99) (ms : Nat → Int) (as : Nat → Nat → Int)
    (hm : ∀ i < 100, 20 ≤ ms i ∧ ms i ≤ 10000) (ha : ∀ i < 100, ∀ j < 100, 1 ≤ as i j ∧ as i j ≤ ms i - 1) :
    selfTest log2 ms as = some (if 1000 < coprimeDraws ms as then .ok (coprimeDraws ms as, 0) else .error .assertion) := by
  have hg : gcdTests = .ok () := by decide +kernel
  have hs : smallprimes.foldlM sqrtTest 0 = .ok 0 := by
    refine foldlM_const _ _ _ fun p hp => ?_
    obtain ⟨h1, h2, -⟩ := smallprimes_primes p hp
    have := C153_square_roots p.toNat h1 0
    rwa [Int.toNat_of_nonneg h2] at this
  have hn := nextPrimeTests_ok log2 hb _ bigprimes_ok
  have hj := jacobiTests_ok log2 ((List.range 199).map fun i : Nat => 3 + 2 * (i : Int)) (by
    intro m hm
    obtain ⟨i, hi, rfl⟩ := List.mem_map.mp hm
    rw [List.mem_range] at hi
    omega)
  have hi := inverseTests_eq ms as (fun i hi => by have := hm i hi; omega) fun i hi j hj => (ha i hi j hj).1
  rw [selfTest, hg, andThen_ok, hn, andThen_ok, hs, andThen_ok, hj, andThen_ok, hi, andThen_ok, zero_add]

/-- C153: the result depends on the draws: there are draws in range with which the script succeeds, and others with which it
stops at `assert n_tests > 1000`. -/
theorem C153_both (log2 : Int → Int) (hb : ∀ n < 179 ^ 4, log2 n < 99) :
    selfTest log2 (fun _ => 20) (fun _ _ => 1) = some (.ok (10000, 0)) ∧
    selfTest log2 (fun _ => 20) (fun _ _ => 2) = some (.error .assertion) := by
  constructor
  · rw [C153_self_test log2 hb _ _ (fun _ _ => by norm_num) (fun _ _ _ _ => by norm_num)]
    have : coprimeDraws (fun _ => 20) (fun _ _ => 1) = 10000 := by simp [coprimeDraws]
    rw [this]; rfl
  · rw [C153_self_test log2 hb _ _ (fun _ _ => by norm_num) (fun _ _ _ _ => by norm_num)]
    have : coprimeDraws (fun _ => 20) (fun _ _ => 2) = 0 := by simp [coprimeDraws]; decide
    rw [this]; rfl
example := C153_both (fun _ => 1) (fun _ _ => by norm_num)

end Cryptopy
