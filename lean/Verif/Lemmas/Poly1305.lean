import Verif.Lemmas.ChaCha
import Verif.Lemmas.Prime1305
import Mathlib.Algebra.Polynomial.Roots
import Mathlib.Algebra.BigOperators.Intervals
import Mathlib.Tactic.LinearCombination
import Mathlib.Algebra.Order.BigOperators.Group.Finset

/-!
Lemmas on Poly1305: little-endian conversions, clamping, the polynomial hash and its collisions.
-/

namespace Cryptopy
open Model (leBytesToNum numToLeBytes poly1305Loop poly1305Mac)
open Spec (leValue leBytes clampOctets polyHash polyCoeff polyBlocks P1305 beValue)

theorem leValue_append (a b : Bytes) : leValue (a ++ b) = leValue a + 256 ^ a.length * leValue b := by
  induction a with
  | nil => simp [leValue]
  | cons c a ih => simp only [List.cons_append, leValue, ih, List.length_cons, pow_succ]; ring

theorem beValue_reverse (b : Bytes) : beValue b.reverse = leValue b := by
  induction b with
  | nil => rfl
  | cons c b ih =>
    rw [List.reverse_cons, beValue_append, ih]
    simp [beValue, leValue]; ring

theorem leBytesToNum_eq (b : Bytes) :
    leBytesToNum b = if b = [] then .error .value else .ok (leValue b) := by
  rw [leBytesToNum]
  have := stringToInt_eq b.reverse
  rw [Model.stringToInt, beValue_reverse] at this
  rw [this]

theorem numToLeBytes_eq (k n : Nat) : numToLeBytes k n = leBytes k n := by
  induction k generalizing n with
  | zero => rfl
  | succ k ih =>
    rw [numToLeBytes, List.range_succ_eq_map, List.map_cons, List.map_map, leBytes, ← ih, numToLeBytes]
    have m : ∀ n, 0xff &&& n = n % 256 := fun n => by
      rw [Nat.and_comm]; exact Nat.and_two_pow_sub_one_eq_mod n 8
    congr 1
    · rw [m]; simp
    · apply List.map_congr_left
      intro i _
      simp only [Function.comp]
      rw [show 8 * i.succ = 8 + 8 * i by simp; omega, Nat.shiftRight_add, Nat.shiftRight_eq_div_pow n 8]

theorem leValue_leBytes (k n : Nat) : leValue (leBytes k n) = n % 256 ^ k := by
  induction k generalizing n with
  | zero => simp [leBytes, leValue, Nat.mod_one]
  | succ k ih =>
    rw [leBytes, leValue, ih, pow_succ, Nat.mul_comm (256 ^ k), Nat.mod_mul]
    congr 1
    simp

theorem leBytes_leValue (b : Bytes) : leBytes b.length (leValue b) = b := by
  induction b with
  | nil => rfl
  | cons c b ih =>
    have := c.toNat_lt
    rw [List.length_cons, leBytes, leValue]
    have h1 : (c.toNat + 256 * leValue b) % 256 = c.toNat := by omega
    have h2 : (c.toNat + 256 * leValue b) / 256 = leValue b := by omega
    rw [h1, h2, ih]
    simp

theorem leBytes_mod (k n : Nat) : leBytes k (n % 256 ^ k) = leBytes k n := by
  have := leBytes_leValue (leBytes k n)
  rwa [length_leBytes, leValue_leBytes] at this

theorem leValue_inj {a b : Bytes} (hl : a.length = b.length) (h : leValue a = leValue b) : a = b := by
  rw [← leBytes_leValue a, ← leBytes_leValue b, hl, h]

theorem leValue_and (a b : Bytes) :
    leValue a &&& leValue b = leValue (List.zipWith (· &&& ·) a b) := by
  induction a generalizing b with
  | nil => simp [leValue]
  | cons c a ih =>
    cases b with
    | nil => simp [leValue]
    | cons d b =>
      simp only [leValue, List.zipWith_cons_cons]
      rw [← ih]
      apply Nat.eq_of_testBit_eq
      intro i
      have hc := c.toNat_lt
      have hd := d.toNat_lt
      have hcd : (c &&& d).toNat < 2 ^ 8 := (c &&& d).toNat_lt
      have e : ∀ (x y : Nat), x < 2 ^ 8 → (x + 256 * y).testBit i =
          if i < 8 then x.testBit i else y.testBit (i - 8) := by
        intro x y hx
        rw [Nat.add_comm, show (256 : Nat) = 2 ^ 8 by norm_num, Nat.testBit_two_pow_mul_add _ hx]
      rw [Nat.testBit_and, e _ _ hc, e _ _ hd, e _ _ hcd, UInt8.toNat_and]
      split <;> simp [Nat.testBit_and]

/-- The clamp mask as octets. -/
def clampMask : Bytes :=
  [255, 255, 255, 15, 252, 255, 255, 15, 252, 255, 255, 15, 252, 255, 255, 15]

theorem clamp_eq (b : Bytes) (h : b.length = 16) : Model.clamp (leValue b) = leValue (clampOctets b) := by
  have hm : 0x0ffffffc0ffffffc0ffffffc0fffffff = leValue clampMask := by decide
  rw [Model.clamp, hm, leValue_and]
  congr 1
  apply List.ext_getElem
  · simp [clampOctets, clampMask, h]
  · intro i h1 h2
    have hi : i < 16 := by simpa [clampOctets, h] using h2
    simp only [List.getElem_zipWith, clampOctets, List.getElem_mapIdx]
    have hid : ∀ x : UInt8, x &&& 255 = x := fun x => by
      apply UInt8.toNat_inj.mp
      rw [UInt8.toNat_and]
      have := x.toNat_lt
      exact (Nat.and_two_pow_sub_one_eq_mod _ 8).trans (Nat.mod_eq_of_lt this)
    generalize b[i] = x
    interval_cases i <;> simp [clampMask, hid]

/-! ### The polynomial hash -/

/-- Partial sums of the hash. -/
def hashUpTo (m : Bytes) (r k : Nat) : Nat :=
  (∑ i ∈ Finset.range k, polyCoeff m i * r ^ (k - i)) % P1305

theorem hashUpTo_succ (m : Bytes) (r k : Nat) :
    hashUpTo m r (k + 1) = (r * (hashUpTo m r k + polyCoeff m k)) % P1305 := by
  rw [hashUpTo, hashUpTo, Finset.sum_range_succ, Nat.mul_mod, Nat.mod_add_mod, ← Nat.mul_mod]
  congr 1
  rw [Nat.mul_add, Finset.mul_sum]
  congr 1
  · apply Finset.sum_congr rfl
    intro i hi
    have := Finset.mem_range.mp hi
    rw [show k + 1 - i = (k - i) + 1 by omega, pow_succ]
    ring
  · rw [show k + 1 - k = 1 by omega]; ring

theorem leValue_mark (b : Bytes) : leValue (b ++ [1]) = leValue b + 2 ^ (8 * b.length) := by
  rw [leValue_append, pow_mul]; simp [leValue]

theorem poly1305Loop_eq (m : Bytes) (r k i : Nat) (h : (i + k) * 16 ≤ m.length) :
    poly1305Loop m r P1305 i k (hashUpTo m r i) = .ok (hashUpTo m r (i + k)) := by
  induction k generalizing i with
  | zero => rfl
  | succ k ih =>
    rw [poly1305Loop, leBytesToNum_eq, if_neg (by simp), leValue_mark]
    simp only
    have hb : (m.take ((i + 1) * 16)).drop (i * 16) = (m.drop (16 * i)).take 16 := by
      rw [List.drop_take, show (i + 1) * 16 - i * 16 = 16 by omega, Nat.mul_comm]
    rw [hb]
    have := hashUpTo_succ m r i
    rw [polyCoeff] at this
    rw [← this, ih (i + 1) (by omega)]
    rw [show i + 1 + k = i + (k + 1) by omega]

theorem poly1305Mac_eq (m key : Bytes) (h : 17 ≤ key.length) :
    poly1305Mac m key = .ok (leBytes 16 (polyHash m (Model.clamp (leValue (key.take 16))) +
      leValue ((key.take 32).drop 16))) := by
  rw [poly1305Mac, leBytesToNum_eq, if_neg (by
    intro h0
    have := congrArg List.length h0
    simp only [List.length_take, List.length_nil] at this
    omega)]
  simp only
  rw [leBytesToNum_eq, if_neg (by
    intro h0
    have := congrArg List.length h0
    simp only [List.length_take, List.length_drop, List.length_nil] at this
    omega)]
  simp only
  set r := Model.clamp (leValue (key.take 16))
  have hp : (1 <<< 130) - 5 = P1305 := by decide
  rw [hp]
  have h0 : hashUpTo m r 0 = 0 := by simp [hashUpTo]
  have hl := poly1305Loop_eq m r (m.length / 16) 0 (by omega)
  rw [h0, Nat.zero_add] at hl
  rw [hl]
  simp only [numToLeBytes_eq]
  by_cases hr : m.length % 16 = 0
  · rw [if_neg (by simp [hr])]
    have : polyBlocks m = m.length / 16 := by rw [polyBlocks]; omega
    rw [polyHash, this, hashUpTo]
  · rw [if_pos (by simpa using hr), leBytesToNum_eq, if_neg (by simp), leValue_mark]
    simp only
    have hq : polyBlocks m = m.length / 16 + 1 := by rw [polyBlocks]; omega
    have hs := hashUpTo_succ m r (m.length / 16)
    have hb : (m.drop (16 * (m.length / 16))).take 16 = m.drop (m.length / 16 * 16) := by
      rw [List.take_of_length_le (by simp; omega), Nat.mul_comm]
    rw [polyCoeff] at hs
    simp only [hb] at hs
    rw [← hs, polyHash, hq, hashUpTo]

/-! ### Collisions -/

theorem polyCoeff_pos (m : Bytes) (i : Nat) : 0 < polyCoeff m i := by
  rw [polyCoeff]; positivity

theorem polyCoeff_lt (m : Bytes) (i : Nat) : polyCoeff m i < P1305 := by
  rw [polyCoeff]
  set b := (m.drop (16 * i)).take 16
  have hb : b.length ≤ 16 := by simp [b]
  have h1 := leValue_lt b
  have h2 : (256 : Nat) ^ b.length ≤ 256 ^ 16 := Nat.pow_le_pow_right (by norm_num) hb
  have h3 : (2 : Nat) ^ (8 * b.length) = 256 ^ b.length := by rw [pow_mul]; norm_num
  rw [h3, P1305]
  norm_num at h2 ⊢
  omega

theorem block_of_polyCoeff {m m' : Bytes} {i : Nat} (h : polyCoeff m i = polyCoeff m' i) :
    (m.drop (16 * i)).take 16 = (m'.drop (16 * i)).take 16 := by
  rw [polyCoeff, polyCoeff] at h
  set b := (m.drop (16 * i)).take 16
  set b' := (m'.drop (16 * i)).take 16
  have h1 := leValue_lt b
  have h2 := leValue_lt b'
  have e : ∀ n : Nat, (2 : Nat) ^ (8 * n) = 256 ^ n := fun n => by rw [pow_mul]; norm_num
  rw [e, e] at h
  have hl : b.length = b'.length := by
    rcases lt_trichotomy b.length b'.length with hlt | heq | hgt
    · have := Nat.pow_le_pow_right (n := 256) (by norm_num) hlt
      rw [pow_succ] at this
      omega
    · exact heq
    · have := Nat.pow_le_pow_right (n := 256) (by norm_num) hgt
      rw [pow_succ] at this
      omega
  apply leValue_inj hl
  rw [hl] at h
  omega

theorem eq_of_blocks {m m' : Bytes}
    (h : ∀ i, (m.drop (16 * i)).take 16 = (m'.drop (16 * i)).take 16) : m = m' := by
  apply List.ext_getElem?
  intro j
  have e : ∀ m : Bytes, m[j]? = ((m.drop (16 * (j / 16))).take 16)[j % 16]? := by
    intro m
    rw [List.getElem?_take_of_lt (Nat.mod_lt _ (by norm_num)), List.getElem?_drop, Nat.div_add_mod]
  rw [e m, e m', h]

theorem eq_of_polyCoeff {m m' : Bytes} (hq : polyBlocks m = polyBlocks m')
    (h : ∀ i < polyBlocks m, polyCoeff m i = polyCoeff m' i) : m = m' := by
  apply eq_of_blocks
  intro i
  by_cases hi : i < polyBlocks m
  · exact block_of_polyCoeff (h i hi)
  · have e : ∀ m : Bytes, ¬ i < polyBlocks m → m.drop (16 * i) = [] := by
      intro m hm
      rw [polyBlocks] at hm
      apply List.drop_of_length_le
      omega
    rw [e m hi, e m' (by rwa [← hq])]

open Polynomial

/-- The hash polynomial of a message over the field of `2^130 - 5` elements. -/
noncomputable def hashPoly (m : Bytes) : (ZMod P1305)[X] :=
  ∑ i ∈ Finset.range (polyBlocks m), C (polyCoeff m i : ZMod P1305) * X ^ (polyBlocks m - i)

theorem hashPoly_eval (m : Bytes) (r : Nat) :
    (hashPoly m).eval (r : ZMod P1305) = (polyHash m r : ZMod P1305) := by
  rw [hashPoly, polyHash, ZMod.natCast_mod, eval_finsetSum]
  push_cast
  simp

theorem hashPoly_coeff (m : Bytes) (k : Nat) :
    (hashPoly m).coeff k = if 1 ≤ k ∧ k ≤ polyBlocks m then
      (polyCoeff m (polyBlocks m - k) : ZMod P1305) else 0 := by
  rw [hashPoly, finsetSum_coeff]
  simp only [coeff_C_mul, coeff_X_pow, mul_ite, mul_one, mul_zero]
  split
  · next h =>
    rw [Finset.sum_eq_single (polyBlocks m - k)]
    · rw [if_pos (by omega)]
    · intro i hi hne
      have := Finset.mem_range.mp hi
      rw [if_neg (by omega)]
    · intro hn
      exact absurd (Finset.mem_range.mpr (by omega)) hn
  · next h =>
    apply Finset.sum_eq_zero
    intro i hi
    have := Finset.mem_range.mp hi
    rw [if_neg (by omega)]

instance : Fact P1305.Prime := ⟨by
  have : P1305 = 1361129467683753853853498429727072845819 := by decide
  rw [this]; exact Cert.prime_p1305⟩

theorem natCast_inj_of_lt {a b : Nat} (ha : a < P1305) (hb : b < P1305)
    (h : (a : ZMod P1305) = (b : ZMod P1305)) : a = b := by
  rw [ZMod.natCast_eq_natCast_iff] at h
  exact Nat.ModEq.eq_of_lt_of_lt h ha hb

theorem hashPoly_inj {m m' : Bytes} (h : hashPoly m = hashPoly m') : m = m' := by
  have hc := fun k => congrArg (fun p => coeff p k) h
  simp only [hashPoly_coeff] at hc
  have h0 : ∀ (m : Bytes) i, (polyCoeff m i : ZMod P1305) ≠ 0 := by
    intro m i h0
    have : polyCoeff m i = 0 := natCast_inj_of_lt (polyCoeff_lt m i) (by decide) (by simpa using h0)
    have := polyCoeff_pos m i
    omega
  have key : ∀ m m' : Bytes, (∀ k, (if 1 ≤ k ∧ k ≤ polyBlocks m then
      (polyCoeff m (polyBlocks m - k) : ZMod P1305) else 0) = if 1 ≤ k ∧ k ≤ polyBlocks m' then
      (polyCoeff m' (polyBlocks m' - k) : ZMod P1305) else 0) → polyBlocks m ≤ polyBlocks m' := by
    intro m m' hc
    by_contra hlt
    have := hc (polyBlocks m)
    rw [if_pos (by omega), if_neg (by omega)] at this
    exact h0 _ _ this
  have hq : polyBlocks m = polyBlocks m' :=
    le_antisymm (key m m' hc) (key m' m fun k => (hc k).symm)
  apply eq_of_polyCoeff hq
  intro i hi
  have := hc (polyBlocks m - i)
  rw [if_pos (by omega), if_pos (by omega), ← hq, show polyBlocks m - (polyBlocks m - i) = i by omega]
    at this
  exact natCast_inj_of_lt (polyCoeff_lt _ _) (polyCoeff_lt _ _) this

theorem hashPoly_natDegree_le (m : Bytes) : (hashPoly m).natDegree ≤ polyBlocks m := by
  rw [natDegree_le_iff_coeff_eq_zero]
  intro k hk
  rw [hashPoly_coeff, if_neg (by omega)]

/-- Number of `r` below the prime with a given difference of hashes. -/
theorem card_hash_diff (m m' : Bytes) (hne : m ≠ m') (q : Nat) (h1 : polyBlocks m ≤ q)
    (h2 : polyBlocks m' ≤ q) (d : Int) :
    ((Finset.range P1305).filter fun r => (polyHash m r : Int) - polyHash m' r = d).card ≤ q := by
  classical
  set f : (ZMod P1305)[X] := hashPoly m - hashPoly m' - C (d : ZMod P1305) with hf
  have hf0 : f ≠ 0 := by
    intro h0
    apply hne
    apply hashPoly_inj
    ext k
    by_cases hk : k = 0
    · subst hk; rw [hashPoly_coeff, hashPoly_coeff, if_neg (by omega), if_neg (by omega)]
    · have := congrArg (fun p => coeff p k) h0
      simp only [hf, coeff_sub, coeff_C, if_neg hk, coeff_zero, sub_zero] at this
      exact sub_eq_zero.mp this
  have hdeg : f.natDegree ≤ q := by
    rw [natDegree_le_iff_coeff_eq_zero]
    intro k hk
    rw [hf, coeff_sub, coeff_sub, hashPoly_coeff, hashPoly_coeff, if_neg (by omega),
      if_neg (by omega), coeff_C, if_neg (by omega)]
    simp
  refine le_trans ?_ ((Multiset.toFinset_card_le f.roots).trans ((card_roots' f).trans hdeg))
  apply Finset.card_le_card_of_injOn (fun r : Nat => (r : ZMod P1305))
  · intro r hr
    simp only [Finset.coe_filter, Finset.mem_range, Set.mem_ofPred_eq] at hr
    simp only [Finset.mem_coe, Multiset.mem_toFinset]
    rw [mem_roots hf0, IsRoot.def, hf, eval_sub, eval_sub, hashPoly_eval, hashPoly_eval, eval_C,
      ← hr.2]
    push_cast
    ring
  · intro a ha b hb hab
    simp only [Finset.coe_filter, Finset.mem_range, Set.mem_ofPred_eq] at ha hb
    exact natCast_inj_of_lt ha.1 hb.1 hab

theorem polyHash_lt (m : Bytes) (r : Nat) : polyHash m r < P1305 := Nat.mod_lt _ (by decide)

end Cryptopy
