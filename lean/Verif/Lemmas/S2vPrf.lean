import Verif.Lemmas.S2vGame
import Verif.Lemmas.CmacPrf
import Verif.Props.DblField
import Mathlib.Data.Set.Finite.List

/-!
S2V as a random function at places that depend on its values at the headers: used for C163.
-/

namespace Cryptopy.Prf
open Finset Function Spec S2vTags Gf

/-- Blocks in the field. -/
noncomputable def mu : Blk →+ K where
  toFun b := val (BitVec.toNat (w := 128) b)
  map_zero' := val_zero
  map_add' a b := by
    change val (BitVec.toNat (w := 128) (BitVec.xor a b)) = _
    rw [← val_xor]
    rfl

theorem mu_inj {a b : Blk} (h : mu a = mu b) : a = b := val_toNat_inj h

theorem mu_dbl (b : Blk) : mu (dblHom b) = AdjoinRoot.root gf128 * mu b := by
  have := val_iterate 1 b
  rw [pow_one] at this
  exact this

theorem two_K : (2 : K) = 0 := by
  have h : (2 : ZMod 2) = 0 := rfl
  have := congrArg (AdjoinRoot.of gf128) h
  rwa [map_ofNat, map_zero] at this

/-- The coefficient of a power in the chain of S2V. -/
def term (F : Bytes → Blk) : Option Bytes → Blk
  | none => 0
  | some m => F m

/-- The chain of S2V, the last header first. -/
def total (F : Bytes → Blk) : List (Option Bytes) → Blk
  | [] => 0
  | o :: l => term F o + dblHom (total F l)

/-- The header at a power. -/
def hdrAt (l : List (Option Bytes)) (i : ℕ) : Option Bytes := (l[i]?).join

theorem hdrAt_cons_succ (o : Option Bytes) (l : List (Option Bytes)) (i : ℕ) : hdrAt (o :: l) (i + 1) = hdrAt l i := rfl

private theorem shift_pow {A : Type} [CommRing A] (r x : A) (i : ℕ) : r * (r ^ i * x) = r ^ (i + 1) * x := by ring

private theorem shift_sum {A : Type} [CommRing A] (r : A) (g h : ℕ → A) (a : A) (n : ℕ) (hg : ∀ i, g (i + 1) = h i)
    (h0 : g 0 = a) : a + r * ∑ i ∈ range n, r ^ i * h i = ∑ i ∈ range (n + 1), r ^ i * g i := by
  rw [sum_range_succ', mul_sum, pow_zero, one_mul, h0, add_comm]
  congr 1
  refine sum_congr rfl fun i _ => ?_
  rw [shift_pow, hg]

theorem mu_total (F : Bytes → Blk) (l : List (Option Bytes)) (n : ℕ) (h : l.length ≤ n) :
    mu (total F l) = ∑ i ∈ range n, AdjoinRoot.root gf128 ^ i * mu (term F (hdrAt l i)) := by
  induction l generalizing n with
  | nil =>
    rw [total, map_zero, eq_comm]
    refine sum_eq_zero fun i _ => ?_
    rw [show hdrAt [] i = none from rfl, term, map_zero, mul_zero]
  | cons o l ih =>
    obtain ⟨n, rfl⟩ : ∃ k, n = k + 1 := ⟨n - 1, by simp at h; omega⟩
    rw [total, map_add, mu_dbl, ih n (by simpa using h)]
    exact shift_sum _ (fun i => mu (term F (hdrAt (o :: l) i))) _ _ n (fun i => by rw [hdrAt_cons_succ]) rfl

theorem total_add (F G : Bytes → Blk) (l : List (Option Bytes)) : total (F + G) l = total F l + total G l := by
  induction l with
  | nil => exact (add_zero _).symm
  | cons o l ih =>
    rw [total, total, total, ih, map_add]
    cases o with
    | none =>
      change (0 : Blk) + _ = 0 + _ + (0 + _)
      abel
    | some m =>
      change F m + G m + _ = F m + _ + (G m + _)
      abel

theorem total_congr {F G : Bytes → Blk} {l : List (Option Bytes)} (h : ∀ m, some m ∈ l → F m = G m) :
    total F l = total G l := by
  induction l with
  | nil => rfl
  | cons o l ih =>
    rw [total, total, ih fun m hm => h m (List.mem_cons_of_mem _ hm)]
    cases o with
    | none => rfl
    | some m => rw [term, term, h m List.mem_cons_self]

theorem mu_single (m : Bytes) (z : Blk) (l : List (Option Bytes)) (n : ℕ) (h : l.length ≤ n) :
    mu (total (Pi.single m z) l) =
      (∑ i ∈ range n, if hdrAt l i = some m then AdjoinRoot.root gf128 ^ i else 0) * mu z := by
  rw [mu_total _ l n h, sum_mul]
  refine sum_congr rfl fun i _ => ?_
  cases e : hdrAt l i with
  | none => simp [term]
  | some m' =>
    rw [term]
    by_cases hm : m' = m
    · rw [hm, Pi.single_eq_same, if_pos rfl]
    · rw [Pi.single_eq_of_ne hm, if_neg fun h => hm (Option.some.inj h), map_zero, mul_zero, zero_mul]

theorem hdrAt_mem {l : List (Option Bytes)} {i : ℕ} {m : Bytes} (h : hdrAt l i = some m) : some m ∈ l ∧ i < l.length := by
  rw [hdrAt, Option.join_eq_some_iff] at h
  exact ⟨List.mem_of_getElem? h, (List.getElem?_eq_some_iff.mp h).1⟩

/-- Where two lists of headers differ, the chains differ by a multiple of the value at one of the headers. -/
theorem solve {l l' : List (Option Bytes)} (hl : l.length ≤ 128) (hl' : l'.length ≤ 128) {i : ℕ}
    (hi : hdrAt l i ≠ hdrAt l' i) : ∃ m, (some m ∈ l ∨ some m ∈ l') ∧
      ∀ z : Blk, total (Pi.single m z) l + total (Pi.single m z) l' = 0 → z = 0 := by
  have : ∃ m, (hdrAt l i = some m ∧ hdrAt l' i ≠ some m) ∨ (hdrAt l i ≠ some m ∧ hdrAt l' i = some m) := by
    cases e : hdrAt l i with
    | some m => exact ⟨m, Or.inl ⟨rfl, fun h => hi (e.trans h.symm)⟩⟩
    | none =>
      cases e' : hdrAt l' i with
      | none => exact absurd (e.trans e'.symm) hi
      | some m => exact ⟨m, Or.inr ⟨by simp, rfl⟩⟩
  obtain ⟨m, hm⟩ := this
  have him : i < 128 := by
    rcases hm with h | h
    · exact lt_of_lt_of_le (hdrAt_mem h.1).2 hl
    · exact lt_of_lt_of_le (hdrAt_mem h.2).2 hl'
  refine ⟨m, hm.imp (fun h => (hdrAt_mem h.1).1) fun h => (hdrAt_mem h.2).1, fun z hz => ?_⟩
  have h1 := congrArg mu hz
  rw [map_add, map_zero, mu_single m z l 128 hl, mu_single m z l' 128 hl', ← add_mul, ← sum_add_distrib] at h1
  have h2 : ∀ j ∈ range 128, ((if hdrAt l j = some m then AdjoinRoot.root gf128 ^ j else 0) +
      if hdrAt l' j = some m then AdjoinRoot.root gf128 ^ j else 0 : K) =
      if (hdrAt l j = some m ∧ hdrAt l' j ≠ some m) ∨ (hdrAt l j ≠ some m ∧ hdrAt l' j = some m) then
        AdjoinRoot.root gf128 ^ j else 0 := by
    intro j _
    by_cases a : hdrAt l j = some m <;> by_cases b : hdrAt l' j = some m
    · rw [if_pos a, if_pos b, if_neg (by tauto), ← two_mul, two_K, zero_mul]
    · rw [if_pos a, if_neg b, if_pos (by tauto), add_zero]
    · rw [if_neg a, if_pos b, if_pos (by tauto), zero_add]
    · rw [if_neg a, if_neg b, if_neg (by tauto), add_zero]
  rw [sum_congr rfl h2, ← sum_filter] at h1
  have h3 : ∑ j ∈ (range 128).filter fun j => (hdrAt l j = some m ∧ hdrAt l' j ≠ some m) ∨
      (hdrAt l j ≠ some m ∧ hdrAt l' j = some m), AdjoinRoot.root gf128 ^ j ≠ 0 := sum_pow_ne _ ⟨i, mem_filter.mpr ⟨mem_range.mpr him, hm⟩⟩
    (fun j hj => mem_range.mp (mem_of_mem_filter j hj))
  rcases mul_eq_zero.mp h1 with h | h
  · exact absurd h h3
  · exact mu_inj (h.trans (map_zero mu).symm)

/-- A property that fixes one of the values holds for at most one in `card B` functions. -/
theorem card_fixed {A B : Type} [Fintype A] [DecidableEq A] [Fintype B] [Nonempty B] (E : (A → B) → Prop) (x : A)
    (h : ∀ f y y', E (update f x y) → E (update f x y') → y = y') :
    Fintype.card B * cnt E ≤ Fintype.card (A → B) := by
  classical
  let S : (A → B) → B := fun f => if h : ∃ y, E (update f x y) then h.choose else Classical.arbitrary B
  have hS : ∀ f y, S (update f x y) = S f := by
    intro f y
    simp only [S, update_idem]
  have key := card_resample (fun _ : A → B => True) (fun _ => x) S fun f _ y => ⟨trivial, rfl, hS f y⟩
  rw [cnt_true] at key
  rw [← key]
  refine Nat.mul_le_mul_left _ (cnt_mono fun f hf => ⟨trivial, ?_⟩)
  have ex : ∃ y, E (update f x y) := ⟨f x, by rwa [update_eq_self]⟩
  have e : S f = ex.choose := dif_pos ex
  rw [e]
  exact h f _ _ (by rwa [update_eq_self]) ex.choose_spec

/-- A list of headers and a plaintext. -/
abbrev Box := List Bytes × Bytes

/-- The block of zero octets. -/
def zeroBlock : Bytes := List.replicate 16 0

/-- The headers at the powers of the chain for a plaintext. -/
def powers (v : Box) : List (Option Bytes) :=
  if v.2.length < 16 then none :: (zeroBlock :: v.1).reverse.map some else (zeroBlock :: v.1).reverse.map some

/-- What comes before the last block. -/
def front (v : Box) : Bytes := if v.2.length < 16 then [] else v.2.take (v.2.length - 16)

/-- The last block. -/
def back (v : Box) : Bytes := if v.2.length < 16 then pad10 v.2 else v.2.drop (v.2.length - 16)

theorem back_length (v : Box) : (back v).length = 16 := by
  rw [back]
  split
  · next h => exact length_pad10 _ h
  · rw [List.length_drop]
    omega

/-- The message of the last CMAC. -/
def locS (F : Bytes → Blk) (v : Box) : Bytes := front v ++ ofBlk (total F (powers v) + toBlk (back v))

theorem locS_length (F : Bytes → Blk) (v : Box) : (locS F v).length = max 16 v.2.length := by
  rw [locS, List.length_append, length_ofBlk, front]
  split
  · next h =>
    rw [List.length_nil]
    omega
  · rw [List.length_take]
    omega

theorem locS_eq {F : Bytes → Blk} {v v' : Box} (h : locS F v = locS F v') : front v = front v' ∧
    total F (powers v) + toBlk (back v) = total F (powers v') + toBlk (back v') := by
  obtain ⟨h1, h2⟩ := List.append_inj' h (by simp)
  exact ⟨h1, ofBlk_inj h2⟩

theorem mem_powers {v : Box} {m : Bytes} (h : some m ∈ powers v) : m = zeroBlock ∨ m ∈ v.1 := by
  have : some m ∈ (zeroBlock :: v.1).reverse.map some := by
    rw [powers] at h
    split at h
    · simpa using h
    · exact h
  simpa [or_comm] using this

theorem powers_length (v : Box) (h : v.1.length ≤ 126) : (powers v).length ≤ 128 := by
  rw [powers]
  split <;> simp <;> omega

theorem box_ext {v v' : Box} (h1 : powers v = powers v') (h2 : front v = front v') (h3 : back v = back v') : v = v' := by
  have hs : ∀ v : Box, (v.2.length < 16 ↔ (powers v).head? = some none) := by
    intro v
    rw [powers]
    split
    · next h => simp [h]
    · next h =>
      simp only [h, false_iff]
      rw [List.head?_map]
      simp
  have hiff : v.2.length < 16 ↔ v'.2.length < 16 := by rw [hs, hs, h1]
  have hinj : ∀ a b : List Bytes, (zeroBlock :: a).reverse.map some = (zeroBlock :: b).reverse.map some → a = b := by
    intro a b h
    have := List.map_injective_iff.mpr (Option.some_injective Bytes) h
    simpa using this
  refine Prod.ext ?_ ?_
  · rw [powers, powers] at h1
    by_cases h : v.2.length < 16
    · rw [if_pos h, if_pos (hiff.mp h), List.cons.injEq] at h1
      exact hinj _ _ h1.2
    · rw [if_neg h, if_neg fun h' => h (hiff.mpr h')] at h1
      exact hinj _ _ h1
  · rw [back, back] at h3
    rw [front, front] at h2
    by_cases h : v.2.length < 16
    · rw [if_pos h, if_pos (hiff.mp h)] at h3
      exact pad10_inj h3
    · have h' : ¬ v'.2.length < 16 := fun h' => h (hiff.mpr h')
      rw [if_neg h, if_neg h'] at h2 h3
      rw [← List.take_append_drop (v.2.length - 16) v.2, h2, h3, List.take_append_drop]

theorem powers_differ {v v' : Box} (h : powers v ≠ powers v') : ∃ i, hdrAt (powers v) i ≠ hdrAt (powers v') i := by
  by_contra hall
  push Not at hall
  have last : ∀ v : Box, hdrAt (powers v) ((powers v).length - 1) = some zeroBlock ∧ 0 < (powers v).length := by
    intro v
    have e : (powers v).getLast? = some (some zeroBlock) := by
      rw [powers]
      split
      · rw [List.getLast?_cons]
        simp
      · simp
    rw [List.getLast?_eq_getElem?] at e
    constructor
    · rw [hdrAt, e]
      rfl
    · by_contra h0
      rw [show (powers v).length = 0 by omega] at e
      have : powers v = [] := List.length_eq_zero_iff.mp (by omega)
      rw [this] at e
      simp at e
  have len : (powers v).length = (powers v').length := by
    obtain ⟨h1, h2⟩ := last v
    obtain ⟨h3, h4⟩ := last v'
    rw [hall] at h1
    rw [← hall] at h3
    have := (hdrAt_mem h1).2
    have := (hdrAt_mem h3).2
    omega
  refine h (List.ext_getElem len fun i h1 h2 => ?_)
  have := hall i
  rw [hdrAt, hdrAt, List.getElem?_eq_getElem h1, List.getElem?_eq_getElem h2] at this
  exact this

theorem update_add_update (F : Bytes → Blk) (m : Bytes) (y y' : Blk) :
    update F m y + update F m y' = Pi.single m (y + y') := by
  funext k
  by_cases h : k = m
  · subst h
    rw [Pi.add_apply, update_self, update_self, Pi.single_eq_same]
  · rw [Pi.add_apply, update_of_ne h, update_of_ne h, Pi.single_eq_of_ne h]
    exact add_self _

theorem add_eq_zero' {a b : Blk} (h : a + b = 0) : a = b := (add_eq_zero_iff_eq_neg.mp h)

/-- The places of S2V. -/
noncomputable def s2vPlaces (S : Finset Bytes) (Sv : Finset Box) (hn : ∀ v ∈ Sv, v.1.length ≤ 126)
    (hz : zeroBlock ∈ S) (hh : ∀ v ∈ Sv, ∀ m ∈ v.1, m ∈ S) (hl : ∀ F, ∀ v ∈ Sv, locS F v ∈ S) : Places Blk S Sv where
  loc := locS
  z := zeroBlock
  hs v := v.1.toFinset
  local_ F F' v h := by
    rw [locS, locS, total_congr fun m hm => ?_]
    rcases mem_powers hm with rfl | hm
    · exact h _ (mem_insert_self _ _)
    · exact h _ (mem_insert_of_mem (List.mem_toFinset.mpr hm))
  inS := hl
  pair v hv v' hv' hne := by
    by_cases hp : powers v = powers v'
    · rw [cnt_false]
      · simp
      · intro ρ e
        obtain ⟨e1, e2⟩ := locS_eq e
        rw [hp, add_right_inj] at e2
        exact hne (box_ext hp e1 (toBlk_inj (back_length v) (back_length v') e2))
    · obtain ⟨i, hi⟩ := powers_differ hp
      obtain ⟨m, hm, hs⟩ := solve (powers_length v (hn v hv)) (powers_length v' (hn v' hv')) hi
      have hmS : m ∈ S := by
        rcases hm with hm | hm
        · rcases mem_powers hm with rfl | hm
          · exact hz
          · exact hh v hv m hm
        · rcases mem_powers hm with rfl | hm
          · exact hz
          · exact hh v' hv' m hm
      have : Nonempty Blk := ⟨0⟩
      refine card_fixed _ ⟨m, hmS⟩ fun ρ y y' h1 h2 => add_eq_zero' (hs _ ?_)
      rw [ext_update] at h1 h2
      have e1 := (locS_eq h1).2
      have e2 := (locS_eq h2).2
      rw [← update_add_update (ext S ρ) m y y', total_add, total_add]
      have g1 : total (update (ext S ρ) m y) (powers v) + total (update (ext S ρ) m y) (powers v') =
          toBlk (back v) + toBlk (back v') := by
        refine add_eq_zero' ?_
        have : ∀ a b c d : Blk, a + c = b + d → a + b + (c + d) = 0 := by
          intro a b c d h
          rw [show a + b + (c + d) = (a + c) + (b + d) by abel, h, add_self]
        exact this _ _ _ _ e1
      have g2 : total (update (ext S ρ) m y') (powers v) + total (update (ext S ρ) m y') (powers v') =
          toBlk (back v) + toBlk (back v') := by
        refine add_eq_zero' ?_
        have : ∀ a b c d : Blk, a + c = b + d → a + b + (c + d) = 0 := by
          intro a b c d h
          rw [show a + b + (c + d) = (a + c) + (b + d) by abel, h, add_self]
        exact this _ _ _ _ e2
      rw [add_add_add_comm, g1, g2, add_self]
  hit v hv m0 := by
    have hne : powers v ≠ [] := by
      rw [powers]
      split <;> simp
    have hi : ∃ i, hdrAt (powers v) i ≠ hdrAt [] i := by
      have hz' : some zeroBlock ∈ powers v := by
        rw [powers]
        split <;> simp
      obtain ⟨i, hi, e⟩ := List.getElem_of_mem hz'
      refine ⟨i, ?_⟩
      rw [hdrAt, hdrAt, List.getElem?_eq_getElem hi, e]
      simp
    obtain ⟨i, hi⟩ := hi
    obtain ⟨m, hm, hs⟩ := solve (powers_length v (hn v hv)) (by simp) hi
    have hmS : m ∈ S := by
      rcases hm with hm | hm
      · rcases mem_powers hm with rfl | hm
        · exact hz
        · exact hh v hv m hm
      · simp at hm
    have : Nonempty Blk := ⟨0⟩
    refine card_fixed _ ⟨m, hmS⟩ fun ρ y y' h1 h2 => add_eq_zero' (hs _ ?_)
    rw [ext_update] at h1 h2
    have e1 := List.append_inj_right (h1.trans h2.symm) rfl
    have e2 := add_right_cancel (ofBlk_inj e1)
    rw [← update_add_update (ext S ρ) m y y', total_add, total_add, e2, add_self, zero_add]
    exact add_self _

section
variable {R : Type}

/-- Ask for all these, and remember the answers. -/
def askAll (k : Bytes → Blk) : List Bytes → ((Bytes → Blk) → Asker Bytes Blk R) → Asker Bytes Blk R
  | [], cont => cont k
  | h :: t, cont => .ask h fun b => askAll (update k h b) t cont

/-- Somebody who asks for S2V as somebody who asks for CMAC. -/
def comp (k : Bytes → Blk) : Asker Box Blk R → Asker Bytes Blk R
  | .done r => .done r
  | .ask v next => askAll k v.1 fun k' => .ask (locS k' v) fun b => comp k (next b)

theorem askAll_run (F k : Bytes → Blk) (l : List Bytes) (cont : (Bytes → Blk) → Asker Bytes Blk R) :
    ∃ k' : Bytes → Blk, (∀ m, m ∈ l ∨ k m = F m → k' m = F m) ∧ (askAll k l cont).run F = (cont k').run F := by
  induction l generalizing k with
  | nil => exact ⟨k, fun m h => h.elim (fun h => absurd h List.not_mem_nil) id, rfl⟩
  | cons h t ih =>
    obtain ⟨k', h1, h2⟩ := ih (update k h (F h))
    refine ⟨k', fun m hm => h1 m ?_, h2⟩
    by_cases e : m = h
    · right
      rw [e, update_self]
    · rcases hm with hm | hm
      · exact Or.inl ((List.mem_cons.mp hm).resolve_left e)
      · right
        rw [update_of_ne e, hm]

theorem locS_congr {F F' : Bytes → Blk} {v : Box} (hz : F zeroBlock = F' zeroBlock) (h : ∀ m ∈ v.1, F m = F' m) :
    locS F v = locS F' v := by
  rw [locS, locS, total_congr fun m hm => ?_]
  rcases mem_powers hm with rfl | hm
  · exact hz
  · exact h m hm

theorem comp_run (F k : Bytes → Blk) (hk : k zeroBlock = F zeroBlock) (A : Asker Box Blk R) :
    (comp k A).run F = A.run fun v => F (locS F v) := by
  induction A with
  | done r => rfl
  | ask v next ih =>
    obtain ⟨k', h1, h2⟩ := askAll_run F k v.1 fun k' => .ask (locS k' v) fun b => comp k (next b)
    rw [comp, h2]
    have e : locS k' v = locS F v := locS_congr (h1 _ (Or.inr hk)) fun m hm => h1 m (Or.inl hm)
    change Asker.run F (comp k (next (F (locS k' v)))) = _
    rw [ih, e]
    rfl

/-- The number of blocks of a message. -/
def blocks (M : Bytes) : ℕ := (place [] M).w.length + 1

/-- The number of blocks of headers and a plaintext. -/
def boxBlocks (v : Box) : ℕ := (v.1.map blocks).sum + blocks v.2

theorem askAll_cost (k : Bytes → Blk) (l : List Bytes) (cont : (Bytes → Blk) → Asker Bytes Blk R) (c : ℕ)
    (h : (l.map blocks).sum ≤ c) (hc : ∀ k', (cont k').CostLe blocks (fun _ => 0) (c - (l.map blocks).sum)) :
    (askAll k l cont).CostLe blocks (fun _ => 0) c := by
  induction l generalizing k c with
  | nil =>
    have := hc k
    rwa [List.map_nil, List.sum_nil, Nat.sub_zero] at this
  | cons a t ih =>
    rw [List.map_cons, List.sum_cons] at h hc
    refine ⟨by omega, fun b => ih _ _ (by omega) fun k' => ?_⟩
    rw [Nat.sub_sub]
    exact hc k'

theorem blocks_locS (F : Bytes → Blk) (v : Box) : blocks (locS F v) = blocks v.2 := by
  rw [blocks, blocks, place_length, place_length, locS_length]
  simp only [List.length_nil]
  omega

theorem comp_cost (k : Bytes → Blk) (A : Asker Box Blk R) (c : ℕ) (hc : A.CostLe boxBlocks (fun _ => 0) c) :
    (comp k A).CostLe blocks (fun _ => 0) c := by
  induction A generalizing c with
  | done r => exact hc
  | ask v next ih =>
    obtain ⟨h1, h2⟩ := hc
    rw [boxBlocks] at h1 h2
    refine askAll_cost _ _ _ _ (by omega) fun k' => ⟨?_, fun b => ?_⟩
    · rw [blocks_locS]
      omega
    · rw [blocks_locS, Nat.sub_sub]
      exact ih b _ (h2 b)

theorem askAll_within {P : Bytes → Prop} (k : Bytes → Blk) (l : List Bytes) (cont : (Bytes → Blk) → Asker Bytes Blk R)
    (h : ∀ m ∈ l, P m) (hc : ∀ k', (cont k').Within P) : (askAll k l cont).Within P := by
  induction l generalizing k with
  | nil => exact hc k
  | cons a t ih =>
    exact ⟨h a List.mem_cons_self, fun b => ih _ fun m hm => h m (List.mem_cons_of_mem _ hm)⟩

theorem comp_within {P : Bytes → Prop} {Q : Box → Prop} (hQ : ∀ v, Q v → (∀ m ∈ v.1, P m) ∧ ∀ F, P (locS F v))
    (k : Bytes → Blk) (A : Asker Box Blk R) (hA : A.Within Q) : (comp k A).Within P := by
  induction A with
  | done r => trivial
  | ask v next ih =>
    exact askAll_within _ _ _ (hQ v hA.1).1 fun k' => ⟨(hQ v hA.1).2 k', fun b => ih b (hA.2 b)⟩

theorem hs_le (l : List Bytes) : l.toFinset.card ≤ (l.map blocks).sum := by
  refine (List.toFinset_card_le l).trans ?_
  induction l with
  | nil => exact Nat.zero_le _
  | cons a t ih =>
    rw [List.length_cons, List.map_cons, List.sum_cons, blocks]
    omega

theorem costLe_weaken {M T R : Type} {cost cost' : M → ℕ} (h : ∀ m, cost' m ≤ cost m) {D : Asker M T R} {c c' : ℕ}
    (hcc : c ≤ c') (hc : D.CostLe cost (fun _ => 0) c) : D.CostLe cost' (fun _ => 0) c' := by
  induction D generalizing c c' with
  | done r => exact Nat.zero_le _
  | ask m next ih =>
    have := h m
    exact ⟨(h m).trans (hc.1.trans hcc), fun t => ih t (by omega) (hc.2 t)⟩

private instance : Finite UInt8 := Finite.of_injective (fun x : UInt8 => (⟨x.toNat, x.toNat_lt⟩ : Fin 256)) fun _ _ h =>
  UInt8.toNat_inj.mp (congrArg Fin.val h)

/-- Octet strings up to a length. -/
noncomputable def upTo (L : ℕ) : Finset Bytes := (List.finite_length_le UInt8 L).toFinset

theorem mem_upTo {L : ℕ} {s : Bytes} : s ∈ upTo L ↔ s.length ≤ L := by
  rw [upTo, Set.Finite.mem_toFinset]
  rfl

/-- CMAC as a function to blocks. -/
def cmacBlk (f : Blk → Blk) (M : Bytes) : Blk := f (arg cmacMasks f (place [] M))

/-- Whoever asks for S2V: what they do with it they do almost as often with a random function. -/
theorem card_s2v (acc : R → Prop) (A : Asker Box Blk R) (c : ℕ) (hc : A.CostLe boxBlocks (fun _ => 0) c)
    (Sv : Finset Box) (hn : ∀ v ∈ Sv, v.1.length ≤ 126) (hw : A.Within (· ∈ Sv)) :
    Fintype.card Blk * cnt (fun f : Blk → Blk => acc (A.run fun v => cmacBlk f (locS (cmacBlk f) v))) *
        Fintype.card (Sv → Blk) ≤
      Fintype.card Blk * cnt (fun σ : Sv → Blk => acc (A.run (ext Sv σ))) * Fintype.card (Blk → Blk) +
        (c + 1) ^ 2 * Fintype.card (Blk → Blk) * Fintype.card (Sv → Blk) := by
  obtain ⟨L, hL⟩ : ∃ L, ∀ v ∈ Sv, (∀ m ∈ v.1, m.length ≤ L) ∧ v.2.length ≤ L := by
    refine ⟨∑ v ∈ Sv, ((v.1.map List.length).sum + v.2.length), fun v hv => ?_⟩
    have := single_le_sum (f := fun v : Box => (v.1.map List.length).sum + v.2.length) (fun _ _ => Nat.zero_le _) hv
    refine ⟨fun m hm => ?_, by omega⟩
    have := List.le_sum_of_mem (List.mem_map_of_mem (f := List.length) hm)
    omega
  set S := upTo (max 16 L) with hS
  have hz : zeroBlock ∈ S := mem_upTo.mpr (le_max_left _ _)
  have hh : ∀ v ∈ Sv, ∀ m ∈ v.1, m ∈ S := fun v hv m hm => mem_upTo.mpr (((hL v hv).1 m hm).trans (le_max_right _ _))
  have hl : ∀ F, ∀ v ∈ Sv, locS F v ∈ S := fun F v hv => mem_upTo.mpr (by
    have := (hL v hv).2
    rw [locS_length]
    omega)
  let D : Asker Bytes Blk R := .ask zeroBlock fun b => comp (update 0 zeroBlock b) A
  have hrun : ∀ F : Bytes → Blk, D.run F = A.run fun v => F (locS F v) := fun F =>
    comp_run F _ (by rw [update_self]) A
  have hDc : D.CostLe blocks (fun _ => 0) (c + 1) := by
    have e : blocks zeroBlock = 1 := by
      rw [blocks, place_length]
      rfl
    refine ⟨by rw [e]; omega, fun b => ?_⟩
    rw [e, Nat.add_sub_cancel]
    exact comp_cost _ A c hc
  have hDw : D.Within (· ∈ S) := ⟨hz, fun b => comp_within (fun v hv => ⟨hh v hv, fun F => hl F v hv⟩) _ A hw⟩
  have h1 := card_run_start cmacMasks (place []) (place_t []) place_injective S acc D (c + 1) hDc hDw
  have h2 := card_ask_start (s2vPlaces S Sv hn hz hh hl) acc A c (costLe_weaken (fun v => by
    have := hs_le v.1
    change v.1.toFinset.card + 1 ≤ boxBlocks v
    rw [boxBlocks, blocks.eq_def v.2]
    omega) le_rfl hc) hw
  have e1 : cnt (fun f : Blk → Blk => acc (D.run fun M => f (arg cmacMasks f (place [] M)))) =
      cnt fun f : Blk → Blk => acc (A.run fun v => cmacBlk f (locS (cmacBlk f) v)) := cnt_congr fun f => by
    have := hrun (cmacBlk f)
    change acc (D.run (cmacBlk f)) ↔ _
    rw [this]
  have e2 : cnt (fun ρ : S → Blk => acc (D.run (ext S ρ))) = cnt fun ρ : S → Blk => acc (A.run fun v =>
      ext S ρ ((s2vPlaces S Sv hn hz hh hl).loc (ext S ρ) v)) := cnt_congr fun ρ => by
    rw [hrun]
    rfl
  rw [e1, e2] at h1
  have hpos : 0 < Fintype.card (S → Blk) := Fintype.card_pos_iff.mpr ⟨fun _ => 0⟩
  have hsq : (c + 1 + 1).choose 2 + (c + 1).choose 2 = (c + 1) ^ 2 := by
    rw [choose_step (c + 1)]
    have := Nat.choose_two_right (c + 1)
    have h2 : (c + 1).choose 2 * 2 = (c + 1) * c := by
      rw [this, Nat.add_sub_cancel, Nat.div_mul_cancel]
      rw [mul_comm]
      exact (Nat.even_mul_succ_self c).two_dvd
    nlinarith
  refine Nat.le_of_mul_le_mul_right ?_ hpos
  have h3 := Nat.mul_le_mul_right (Fintype.card (Sv → Blk)) h1
  have h4 := Nat.mul_le_mul_right (Fintype.card (Blk → Blk)) h2
  rw [← hsq]
  generalize Fintype.card (Sv → Blk) = n1 at *
  generalize Fintype.card (S → Blk) = n2 at *
  generalize Fintype.card (Blk → Blk) = n3 at *
  generalize Fintype.card Blk = n4 at *
  linarith

end

private theorem dbl_bits (b : BitVec 128) : toBits (ofBits (dblBits (toBits (ofBits b)))) = dblBits b := by
  rw [toBits_ofBits, toBits_ofBits]

theorem dbl_bytes (b : Blk) : toBlk (ofBits (dblBits (toBits (ofBlk b)))) = dblHom b := dbl_bits b

/-- S2V is the function at the place. -/
theorem s2v_locS (F : Bytes → Blk) (ads : List Bytes) (pt : Bytes) :
    Spec.s2v (fun M => ofBlk (F M)) (ads ++ [pt]) = ofBlk (F (locS F (ads, pt))) := by
  have chain : ∀ (l : List (Option Bytes)) (ads : List Bytes),
      s2vChain (fun M => ofBlk (F M)) (ofBlk (total F l)) ads = ofBlk (total F (ads.reverse.map some ++ l)) := by
    intro l ads
    induction ads generalizing l with
    | nil => rfl
    | cons a ads ih =>
      rw [s2vChain]
      have e : xorBytes (ofBits (dblBits (toBits (ofBlk (total F l))))) (ofBlk (F a)) =
          ofBlk (total F (some a :: l)) := by
        refine toBlk_inj (by simp [length_xorBytes]) (by simp) ?_
        rw [toBlk_xor (by simp) (by simp), dbl_bytes, toBlk_ofBlk, toBlk_ofBlk, total, term, add_comm]
      rw [e, ih]
      simp
  have e0 : ofBlk (F (List.replicate 16 0)) = ofBlk (total F [some zeroBlock]) := by
    rw [total, total, term, map_zero, add_zero, zeroBlock]
  rw [s2v_concat, e0, chain]
  have e1 : ads.reverse.map some ++ [some zeroBlock] = (zeroBlock :: ads).reverse.map some := by simp
  rw [e1]
  congr 2
  rw [locS, front, back, powers]
  by_cases h : pt.length < 16
  · rw [if_neg (by omega)]
    simp only [h, if_true]
    refine toBlk_inj (by simp [length_xorBytes, length_pad10 _ h]) (by simp) ?_
    rw [toBlk_xor (by simp) (length_pad10 _ h), dbl_bytes, List.nil_append, toBlk_ofBlk, total, term, zero_add]
  · rw [if_pos (by omega)]
    simp only [h, if_false]
    rw [xorend, length_ofBlk]
    congr 1
    have hd : (pt.drop (pt.length - 16)).length = 16 := by
      rw [List.length_drop]
      omega
    refine toBlk_inj (by simp [length_xorBytes, hd]) (by simp) ?_
    rw [toBlk_xor hd (by simp), toBlk_ofBlk, toBlk_ofBlk, add_comm]

end Cryptopy.Prf
