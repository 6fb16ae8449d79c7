import Verif.Props.Walsh

/-!
A fast evaluation of the distances of a Boolean function to the linear functions.
-/

namespace Cryptopy
open Model Spec Props

/-- The distances of a table to all linear functions, by halving. -/
def dtr : Nat → List Nat → List Nat
  | 0, l => l
  | k + 1, l =>
    let a := dtr k (l.take (2 ^ k))
    let b := dtr k (l.drop (2 ^ k))
    List.zipWith (fun x y => x + y) a b ++ List.zipWith (fun x y => x + (2 ^ k - y)) a b

/-- The parity of the bits with fuel. -/
def parF : Nat → Nat → Nat
  | 0, _ => 0
  | k + 1, x => (x % 2 + parF k (x / 2)) % 2

theorem xor_add {u v : Nat} (hu : u < 2) (hv : v < 2) : u ^^^ v = (u + v) % 2 := by
  have : u = 0 ∨ u = 1 := by omega
  have : v = 0 ∨ v = 1 := by omega
  rcases ‹u = 0 ∨ u = 1› with rfl | rfl <;> rcases ‹v = 0 ∨ v = 1› with rfl | rfl <;> rfl

theorem parF_eq (k : Nat) : ∀ x < 2 ^ k, parF k x = par x := by
  induction k with
  | zero =>
    intro x hx
    have : x = 0 := by simpa using hx
    subst this
    rw [par_zero]; rfl
  | succ k ih =>
    intro x hx
    rw [parF, ih _ (by rw [pow_succ] at hx; omega), par_eq x, xor_add (by omega) (par_lt _)]

theorem two_pow_add_xor {k x : Nat} (hx : x < 2 ^ k) : 2 ^ k + x = 2 ^ k ^^^ x := by
  refine Nat.eq_of_testBit_eq fun i => ?_
  rw [Nat.testBit_xor]
  rcases Nat.lt_trichotomy i k with h | h | h
  · rw [Nat.testBit_two_pow_add_gt h, Nat.testBit_two_pow]
    simp [show ¬ k = i by omega]
  · subst h
    rw [Nat.testBit_two_pow_add_eq, Nat.testBit_two_pow_self, Nat.testBit_lt_two_pow hx]; rfl
  · have h1 : 2 ^ k + x < 2 ^ i := by
      have : 2 ^ (k + 1) ≤ 2 ^ i := Nat.pow_le_pow_right (by omega) h
      rw [pow_succ] at this; omega
    rw [Nat.testBit_lt_two_pow h1, Nat.testBit_two_pow, Nat.testBit_lt_two_pow (by omega)]
    simp [show ¬ k = i by omega]

theorem and_two_pow_zero {k x : Nat} (hx : x < 2 ^ k) : x &&& 2 ^ k = 0 := by
  rw [Nat.and_two_pow, Nat.testBit_lt_two_pow hx]; simp

theorem par_and_high {k w x : Nat} (hw : w < 2 ^ k) (hx : x < 2 ^ k) :
    par (w &&& (2 ^ k + x)) = par (w &&& x) ∧ par ((2 ^ k + w) &&& x) = par (w &&& x) ∧
      par ((2 ^ k + w) &&& (2 ^ k + x)) = 1 ^^^ par (w &&& x) := by
  have h1 : par (w &&& (2 ^ k + x)) = par (w &&& x) := by
    rw [two_pow_add_xor hx, and_xor_left, and_two_pow_zero hw, Nat.zero_xor]
  have h2 : par ((2 ^ k + w) &&& x) = par (w &&& x) := by
    rw [Nat.and_comm, two_pow_add_xor hw, and_xor_left, and_two_pow_zero hx, Nat.zero_xor, Nat.and_comm]
  refine ⟨h1, h2, ?_⟩
  rw [two_pow_add_xor hx, and_xor_left, par_xor, h2, two_pow_add_xor hw, Nat.and_comm (2 ^ k ^^^ w),
    and_xor_left, Nat.and_self, Nat.and_comm _ w, and_two_pow_zero hw, Nat.xor_zero, par_two_pow]

theorem dtr_spec (k : Nat) : ∀ l : List Nat, l.length = 2 ^ k → (∀ v ∈ l, v < 2) →
    (dtr k l).length = 2 ^ k ∧ ∀ w < 2 ^ k, (dtr k l).getD w 0 =
      ∑ x ∈ Finset.range (2 ^ k), (l.getD x 0 ^^^ par (w &&& x)) := by
  induction k with
  | zero =>
    intro l hl hb
    refine ⟨by rw [dtr, hl], fun w hw => ?_⟩
    have : w = 0 := by simpa using hw
    subst this
    rw [dtr, pow_zero, Finset.sum_range_one, Nat.and_zero, par_zero, Nat.xor_zero]
  | succ k ih =>
    intro l hl hb
    have hp : 2 ^ (k + 1) = 2 ^ k + 2 ^ k := by rw [pow_succ]; ring
    obtain ⟨la, ha⟩ := ih (l.take (2 ^ k)) (by rw [List.length_take, hl, hp]; omega)
      fun v hv => hb v (List.mem_of_mem_take hv)
    obtain ⟨lb, hb'⟩ := ih (l.drop (2 ^ k)) (by rw [List.length_drop, hl, hp]; omega)
      fun v hv => hb v (List.mem_of_mem_drop hv)
    have gt : ∀ x < 2 ^ k, (l.take (2 ^ k)).getD x 0 = l.getD x 0 := by
      intro x hx
      rw [List.getD_eq_getElem _ _ (by rw [List.length_take, hl, hp]; omega), List.getElem_take,
        List.getD_eq_getElem _ _ (by omega)]
    have gd : ∀ x < 2 ^ k, (l.drop (2 ^ k)).getD x 0 = l.getD (2 ^ k + x) 0 := by
      intro x hx
      rw [List.getD_eq_getElem _ _ (by rw [List.length_drop, hl, hp]; omega), List.getElem_drop,
        List.getD_eq_getElem _ _ (by omega)]
    have hlen : (dtr (k + 1) l).length = 2 ^ (k + 1) := by
      rw [dtr]
      simp only [List.length_append, List.length_zipWith, la, lb, hp, Nat.min_self]
    refine ⟨hlen, fun w hw => ?_⟩
    rw [List.getD_eq_getElem _ _ (by omega)]
    have hlow : ∀ v < 2 ^ k, (∑ x ∈ Finset.range (2 ^ k), (l.getD x 0 ^^^ par (v &&& x))) =
        (dtr k (l.take (2 ^ k))).getD v 0 := by
      intro v hv
      rw [ha v hv]
      exact Finset.sum_congr rfl fun x hx => by rw [gt x (Finset.mem_range.mp hx)]
    have hhigh : ∀ v < 2 ^ k, (∑ x ∈ Finset.range (2 ^ k), (l.getD (2 ^ k + x) 0 ^^^ par (v &&& x))) =
        (dtr k (l.drop (2 ^ k))).getD v 0 := by
      intro v hv
      rw [hb' v hv]
      exact Finset.sum_congr rfl fun x hx => by rw [gd x (Finset.mem_range.mp hx)]
    rw [hp, Finset.sum_range_add]
    simp only [dtr]
    by_cases hwk : w < 2 ^ k
    · rw [List.getElem_append_left (by simp only [List.length_zipWith, la, lb]; omega), List.getElem_zipWith]
      rw [hlow w hwk]
      have : (∑ x ∈ Finset.range (2 ^ k), (l.getD (2 ^ k + x) 0 ^^^ par (w &&& (2 ^ k + x)))) =
          (dtr k (l.drop (2 ^ k))).getD w 0 := by
        rw [← hhigh w hwk]
        exact Finset.sum_congr rfl fun x hx => by
          rw [(par_and_high hwk (Finset.mem_range.mp hx)).1]
      rw [this, List.getD_eq_getElem _ _ (by omega), List.getD_eq_getElem _ _ (by omega)]
    · obtain ⟨v, rfl⟩ : ∃ v, w = 2 ^ k + v := ⟨w - 2 ^ k, by omega⟩
      have hv : v < 2 ^ k := by omega
      rw [List.getElem_append_right (by simp only [List.length_zipWith, la, lb]; omega), List.getElem_zipWith]
      simp only [List.length_zipWith, la, lb, Nat.min_self, Nat.add_sub_cancel_left]
      have h1 : (∑ x ∈ Finset.range (2 ^ k), (l.getD x 0 ^^^ par ((2 ^ k + v) &&& x))) =
          (dtr k (l.take (2 ^ k))).getD v 0 := by
        rw [← hlow v hv]
        exact Finset.sum_congr rfl fun x hx => by
          rw [(par_and_high hv (Finset.mem_range.mp hx)).2.1]
      have h2 : (∑ x ∈ Finset.range (2 ^ k), (l.getD (2 ^ k + x) 0 ^^^ par ((2 ^ k + v) &&& (2 ^ k + x)))) +
          (dtr k (l.drop (2 ^ k))).getD v 0 = 2 ^ k := by
        rw [← hhigh v hv, ← Finset.sum_add_distrib]
        have : ∀ x ∈ Finset.range (2 ^ k), (l.getD (2 ^ k + x) 0 ^^^ par ((2 ^ k + v) &&& (2 ^ k + x))) +
            (l.getD (2 ^ k + x) 0 ^^^ par (v &&& x)) = 1 := by
          intro x hx
          rw [(par_and_high hv (Finset.mem_range.mp hx)).2.2]
          have c1 := getD_binary hb (2 ^ k + x)
          have c2 := par_lt (v &&& x)
          generalize l.getD (2 ^ k + x) 0 = a at *
          generalize par (v &&& x) = b at *
          have : a = 0 ∨ a = 1 := by omega
          have : b = 0 ∨ b = 1 := by omega
          rcases ‹a = 0 ∨ a = 1› with rfl | rfl <;> rcases ‹b = 0 ∨ b = 1› with rfl | rfl <;> rfl
        rw [Finset.sum_congr rfl this]
        simp
      rw [h1]
      rw [List.getD_eq_getElem _ _ (by omega)] at h2 ⊢
      omega

/-- The distance as a sum. -/
theorem distance_sum (n : Nat) (t : List Nat) (ht : ∀ v ∈ t, v < 2) (w : Nat) :
    distance n (ofTable t) (linear (bits n w)) = ∑ x ∈ Finset.range (2 ^ n), (t.getD x 0 ^^^ par (w &&& x)) := by
  rw [distance, Finset.card_filter]
  refine Finset.sum_congr rfl fun x hx => ?_
  have hb := bip_linear n w x (lt_of_le_of_lt Nat.and_le_right (Finset.mem_range.mp hx))
  rw [bip_eq] at hb
  have c1 := getD_binary ht x
  have c2 := par_lt (w &&& x)
  rw [ofTable]
  generalize t.getD x 0 = a at *
  generalize par (w &&& x) = b at *
  have h1 : a = 0 ∨ a = 1 := by omega
  have h2 : b = 0 ∨ b = 1 := by omega
  rcases h2 with rfl | rfl
  · have hl : linear (bits n w) x = false := by rw [← Bool.not_eq_true, ← hb]; omega
    rcases h1 with rfl | rfl <;> rw [hl] <;> rfl
  · have hl : linear (bits n w) x = true := hb.mp rfl
    rcases h1 with rfl | rfl <;> rw [hl] <;> rfl

/-- The non-linearity by the fast transform. -/
def fastNl (n : Nat) (t : List Nat) : Nat := (dtr n t).foldl (fun m x => min m (min x (2 ^ n - x))) (2 ^ n)

theorem foldl_min_spec (g : Nat → Nat) (l : List Nat) : ∀ m, (∀ v ∈ l, l.foldl (fun m x => min m (g x)) m ≤ g v) ∧
    l.foldl (fun m x => min m (g x)) m ≤ m ∧
    (l.foldl (fun m x => min m (g x)) m = m ∨ ∃ v ∈ l, l.foldl (fun m x => min m (g x)) m = g v) := by
  induction l with
  | nil => intro m; simp
  | cons a l ih =>
    intro m
    obtain ⟨h1, h2, h3⟩ := ih (min m (g a))
    rw [List.foldl_cons]
    refine ⟨?_, le_trans h2 (min_le_left _ _), ?_⟩
    · intro v hv
      rcases List.mem_cons.mp hv with rfl | hv
      · exact le_trans h2 (min_le_right _ _)
      · exact h1 v hv
    · rcases h3 with h3 | ⟨v, hv, h3⟩
      · rcases min_choice m (g a) with h | h
        · left; rw [h3, h]
        · right; exact ⟨a, List.mem_cons_self, by rw [h3, h]⟩
      · right; exact ⟨v, List.mem_cons_of_mem _ hv, h3⟩

theorem fastNl_eq (n : Nat) (t : List Nat) (hl : t.length = 2 ^ n) (ht : ∀ v ∈ t, v < 2) :
    fastNl n t = nonlin n (ofTable t) := by
  obtain ⟨hlen, hd⟩ := dtr_spec n t hl ht
  obtain ⟨h1, h2, h3⟩ := foldl_min_spec (fun x => min x (2 ^ n - x)) (dtr n t) (2 ^ n)
  change (∀ v ∈ dtr n t, fastNl n t ≤ _) at h1
  change fastNl n t ≤ _ at h2
  change (fastNl n t = _ ∨ ∃ v ∈ _, fastNl n t = _) at h3
  have hget : ∀ w < 2 ^ n, (dtr n t).getD w 0 = distance n (ofTable t) (linear (bits n w)) := by
    intro w hw; rw [hd w hw, distance_sum n t ht]
  have hmem : ∀ w < 2 ^ n, distance n (ofTable t) (linear (bits n w)) ∈ dtr n t := by
    intro w hw
    rw [← hget w hw, List.getD_eq_getElem _ _ (by omega)]
    exact List.getElem_mem _
  apply le_antisymm
  · have hne : {d | ∃ S c, d = distance n (ofTable t) (affine S c)}.Nonempty := ⟨_, ∅, false, rfl⟩
    obtain ⟨S, c, hS⟩ := Nat.sInf_mem hne
    have hS : nonlin n (ofTable t) = distance n (ofTable t) (affine S c) := hS
    rw [hS]
    obtain ⟨w, hw, he⟩ := exists_mask n S
    obtain ⟨a1, a2⟩ := distance_affine n (ofTable t) S
    have := h1 _ (hmem w hw)
    rw [← distance_congr (f := ofTable t) he] at this
    cases c <;> omega
  · have hex : ∃ v ∈ dtr n t, fastNl n t = min v (2 ^ n - v) := by
      rcases h3 with h3 | h3
      · refine ⟨_, hmem 0 (by positivity), ?_⟩
        have := h1 _ (hmem 0 (by positivity))
        have := distance_le n (ofTable t) (linear (bits n 0))
        omega
      · exact h3
    obtain ⟨v, hv, he⟩ := hex
    obtain ⟨w, hw, rfl⟩ := List.mem_iff_getElem.mp hv
    rw [hlen] at hw
    rw [← List.getD_eq_getElem _ 0 (by omega), hget w hw] at he
    have b1 : nonlin n (ofTable t) ≤ distance n (ofTable t) (affine (bits n w) false) := Nat.sInf_le ⟨_, _, rfl⟩
    have b2 : nonlin n (ofTable t) ≤ distance n (ofTable t) (affine (bits n w) true) := Nat.sInf_le ⟨_, _, rfl⟩
    obtain ⟨a1, a2⟩ := distance_affine n (ofTable t) (bits n w)
    have := distance_le n (ofTable t) (linear (bits n w))
    rw [he]
    omega

end Cryptopy
