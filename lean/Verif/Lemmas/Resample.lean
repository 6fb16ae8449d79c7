import Mathlib.Data.Fintype.BigOperators
import Mathlib.SetTheory.Cardinal.Finite
import Mathlib.Algebra.Group.Hom.Basic
import Mathlib.Logic.Function.Basic
import Mathlib.Tactic.Ring
import Mathlib.Tactic.Abel
import Mathlib.Tactic.Linarith
import Mathlib.Algebra.BigOperators.Group.Finset.Basic

/-!
Counting functions by changing one value: used for C161.
-/

namespace Cryptopy.Prf
open Finset Function

variable {A B : Type*} [DecidableEq A] [Fintype B] [DecidableEq B]

/-- How many functions (or other objects of a finite type) have a property. -/
noncomputable def cnt {X : Type*} (P : X → Prop) : ℕ := Nat.card {x // P x}

open Classical in
theorem cnt_eq {X : Type*} [Fintype X] (P : X → Prop) : cnt P = (univ.filter P).card := by
  rw [cnt, Nat.card_eq_fintype_card, Fintype.card_subtype]

theorem cnt_mono {X : Type*} [Fintype X] {P Q : X → Prop} (h : ∀ x, P x → Q x) : cnt P ≤ cnt Q := by
  classical
  rw [cnt_eq, cnt_eq]
  exact card_le_card fun x hx => mem_filter.mpr ⟨mem_univ x, h x (mem_filter.mp hx).2⟩

theorem cnt_congr {X : Type*} {P Q : X → Prop} (h : ∀ x, P x ↔ Q x) : cnt P = cnt Q :=
  congrArg cnt (funext fun x => propext (h x))

theorem cnt_true (X : Type*) [Fintype X] : cnt (fun _ : X => True) = Fintype.card X := by
  classical
  rw [cnt_eq, filter_true, card_univ]

theorem cnt_le {X : Type*} [Fintype X] (P : X → Prop) : cnt P ≤ Fintype.card X := by
  rw [← cnt_true X]
  exact cnt_mono fun _ _ => trivial

theorem cnt_false {X : Type*} [Fintype X] {P : X → Prop} (h : ∀ x, ¬ P x) : cnt P = 0 := by
  classical
  rw [cnt_eq, filter_false_of_mem fun x _ => h x, card_empty]

theorem cnt_or {X : Type*} [Fintype X] (P Q : X → Prop) : cnt (fun x => P x ∨ Q x) ≤ cnt P + cnt Q := by
  classical
  rw [cnt_eq, cnt_eq, cnt_eq]
  refine le_trans (card_le_card fun x hx => ?_) (card_union_le _ _)
  simpa using hx

theorem cnt_exists {X ι : Type*} [Fintype X] (G : Finset ι) (P : ι → X → Prop) :
    cnt (fun x => ∃ i ∈ G, P i x) ≤ ∑ i ∈ G, cnt (P i) := by
  classical
  induction G using Finset.induction_on with
  | empty => simp [cnt_false]
  | insert i G hi ih =>
    rw [sum_insert hi]
    refine (cnt_mono (Q := fun x => P i x ∨ ∃ i ∈ G, P i x) fun x => ?_).trans ((cnt_or _ _).trans (by omega))
    rintro ⟨j, hj, h⟩
    exact (mem_insert.mp hj).elim (fun e => Or.inl (e ▸ h)) fun hj => Or.inr ⟨j, hj, h⟩

/-- Splitting by a value. -/
theorem cnt_split {X ι : Type*} [Fintype X] [Fintype ι] (P : X → Prop) (v : X → ι) :
    cnt P = ∑ i, cnt fun x => P x ∧ v x = i := by
  classical
  simp only [cnt_eq]
  rw [card_eq_sum_card_fiberwise (f := v) (t := univ) fun x _ => mem_coe.mpr (mem_univ _)]
  exact sum_congr rfl fun i _ => congrArg card (by ext x; simp)

omit [DecidableEq B] in
/-- If a property of functions does not change when the value at the place `loc f` is changed, and neither do the place
and the wanted value, then one in `card B` of the functions with the property has the wanted value there. -/
theorem card_resample (P : (A → B) → Prop) (loc : (A → B) → A) (S : (A → B) → B)
    (h : ∀ f, P f → ∀ y, P (update f (loc f) y) ∧ loc (update f (loc f) y) = loc f ∧ S (update f (loc f) y) = S f) :
    Fintype.card B * cnt (fun f => P f ∧ f (loc f) = S f) = cnt P := by
  rw [cnt, cnt, ← Nat.card_eq_fintype_card, ← Nat.card_prod]
  refine Nat.card_congr ⟨fun x => ⟨update x.2.1 (loc x.2.1) x.1, (h x.2.1 x.2.2.1 x.1).1⟩,
    fun g => (g.1 (loc g.1), ⟨update g.1 (loc g.1) (S g.1), (h g.1 g.2 _).1, ?_⟩), ?_, ?_⟩
  · obtain ⟨h1, h2, h3⟩ := h g.1 g.2 (S g.1)
    rw [h2, h3, update_self]
  · rintro ⟨y, f, hf, hx⟩
    obtain ⟨h1, h2, h3⟩ := h f hf y
    simp only [h2, h3, update_self, update_idem, Prod.mk.injEq, true_and, Subtype.mk.injEq]
    rw [← hx, update_eq_self]
  · rintro ⟨g, hg⟩
    obtain ⟨h1, h2, h3⟩ := h g hg (S g)
    simp only [h2, update_idem, update_eq_self]

/-- A place where a chained function is evaluated: the blocks before, the last one first; the block itself; and which
subkey is added, if any. -/
structure Pt (B : Type*) where
  /-- the blocks before, the last one first -/
  w : List B
  /-- the block -/
  b : B
  /-- the subkey -/
  t : Option Bool
  deriving DecidableEq

/-- The subkeys, as multiples of the value at zero, and what is asked of them. -/
structure Masks (B : Type*) [AddCommGroup B] where
  /-- the multiplication -/
  m : Option Bool → B →+ B
  none_eq : m none = 0
  diff : ∀ t t', t ≠ t' → Injective fun x => m t x - m t' x
  step : ∀ t t', Injective fun x => x + m t x - m t' x

variable [AddCommGroup B]

/-- The chained value after some blocks, the last one first. -/
def chain (f : B → B) : List B → B
  | [] => 0
  | b :: w => f (b + chain f w)

/-- The argument of the function at a place. -/
def arg (K : Masks B) (f : B → B) (p : Pt B) : B := p.b + chain f p.w + K.m p.t (f 0)

/-- The function is evaluated at `a` before it is evaluated at `p`. -/
def Anc (a p : Pt B) : Prop := a.t = none ∧ ((a.b :: a.w) <:+ p.w ∨ p.t ≠ none ∧ a = ⟨[], 0, none⟩)

/-- A set that has with every place those before. -/
def Closed (G : Set (Pt B)) : Prop := ∀ p ∈ G, ∀ a, Anc a p → a ∈ G

variable (K : Masks B)

omit [DecidableEq B] [Fintype B] in
theorem arg_root (f : B → B) : arg K f ⟨[], 0, none⟩ = 0 := by simp [arg, chain, K.none_eq]

omit [DecidableEq B] [Fintype B] in
theorem arg_tree (f : B → B) (w : List B) (b : B) : f (arg K f ⟨w, b, none⟩) = chain f (b :: w) := by
  simp [arg, chain, K.none_eq]

omit [Fintype B] in
theorem chain_update (f : B → B) (x y : B) (w : List B)
    (h : ∀ b v, (b :: v) <:+ w → arg K f ⟨v, b, none⟩ ≠ x) : chain (update f x y) w = chain f w := by
  induction w with
  | nil => rfl
  | cons b w ih =>
    rw [chain, ih fun c v hv => h c v (hv.trans (List.suffix_cons b w)), chain]
    have := h b w (List.suffix_refl _)
    rw [arg, K.none_eq] at this
    exact update_of_ne (by simpa using this) _ _

omit [Fintype B] in
theorem arg_update (f : B → B) (x y : B) (p : Pt B) (h : ∀ a, Anc a p → arg K f a ≠ x) :
    arg K (update f x y) p = arg K f p := by
  obtain ⟨w, b, t⟩ := p
  rw [arg, arg, chain_update K f x y w fun c v hv => h _ ⟨rfl, Or.inl hv⟩]
  cases t with
  | none => simp [K.none_eq]
  | some t =>
    have := h ⟨[], 0, none⟩ ⟨rfl, Or.inr ⟨by simp, rfl⟩⟩
    rw [arg_root] at this
    rw [update_of_ne (by simpa using this)]

omit [Fintype B] in
/-- Changing the value at a place before which nothing else in question comes changes no argument. -/
theorem arg_resample {G : Set (Pt B)} {f : B → B} (hf : Set.InjOn (arg K f) G) {z q : Pt B} (hz : z ∈ G)
    (hq : ∀ a, Anc a q → a ∈ G ∧ a ≠ z) (y : B) : arg K (update f (arg K f z) y) q = arg K f q :=
  arg_update K f _ y q fun a ha e => (hq a ha).2 (hf (hq a ha).1 hz e)

omit [Fintype B] in
theorem injOn_resample {G : Set (Pt B)} (hG : Closed G) {f : B → B} (hf : Set.InjOn (arg K f) G) {z : Pt B} (hz : z ∈ G)
    (hm : ∀ q ∈ G, ¬ Anc z q) (y : B) : Set.InjOn (arg K (update f (arg K f z) y)) G := by
  have e : ∀ q ∈ G, arg K (update f (arg K f z) y) q = arg K f q := fun q hq =>
    arg_resample K hf hz (fun a ha => ⟨hG q hq a ha, fun e => hm q hq (e ▸ ha)⟩) y
  intro p hp q hq h
  rw [e p hp, e q hq] at h
  exact hf hp hq h

omit [DecidableEq B] [Fintype B] in
theorem anc_trans {a p q : Pt B} (h : Anc a p) (h' : Anc p q) : Anc a q := by
  obtain ⟨ha, h⟩ := h
  obtain ⟨hp, h'⟩ := h'
  refine ⟨ha, ?_⟩
  rcases h with h | h
  · rcases h' with h' | h'
    · exact Or.inl (h.trans ((List.suffix_cons _ _).trans h'))
    · rw [h'.2] at h
      simp at h
  · exact absurd hp h.1

theorem card_zero (c : B) : Fintype.card B * cnt (fun f : B → B => f 0 = c) = Fintype.card (B → B) := by
  have := card_resample (fun _ : B → B => True) (fun _ => 0) (fun _ => c) fun f _ y => ⟨trivial, rfl, rfl⟩
  rw [cnt_true] at this
  rw [← this]
  congr 1
  exact cnt_congr fun f => ⟨fun h => ⟨trivial, h⟩, fun h => h.2⟩

theorem card_zero_le (g : B → B) (hg : Injective g) (c : B) (E : (B → B) → Prop) (hE : ∀ f, E f → g (f 0) = c) :
    Fintype.card B * cnt E ≤ Fintype.card (B → B) := by
  by_cases h : ∃ x, g x = c
  · obtain ⟨x, hx⟩ := h
    rw [← card_zero x]
    exact Nat.mul_le_mul_left _ (cnt_mono fun f hf => hg ((hE f hf).trans hx.symm))
  · rw [cnt_false fun f hf => h ⟨_, hE f hf⟩]
    simp

/-- The case that some value before the second place is not used for the first. -/
theorem card_long (p p' : Pt B) (v : List B) (c : B) (hw : p'.w = c :: v) (hs : ¬ (c :: v) <:+ p.w)
    (h0 : c :: v ≠ [0]) :
    Fintype.card B * cnt (fun f : B → B =>
      Set.InjOn (arg K f) {a | Anc a p ∨ Anc a p'} ∧ arg K f p = arg K f p') ≤ Fintype.card (B → B) := by
  set H : Set (Pt B) := {a | Anc a p ∨ Anc a p'} with hH
  set q : Pt B := ⟨v, c, none⟩ with hq
  have hqH : q ∈ H := Or.inr ⟨rfl, Or.inl (by rw [hw])⟩
  have hcl : Closed H := fun h hh a ha => hh.imp (anc_trans ha) (anc_trans ha)
  have hroot : q ≠ ⟨[], 0, none⟩ := fun e => h0 (by
    rw [hq, Pt.mk.injEq] at e
    rw [e.1, e.2.1])
  have hqp : ¬ Anc q p := fun h => h.2.elim hs fun h => hroot h.2
  have hm : ∀ h ∈ H, ¬ Anc q h := by
    intro h hh ha
    rcases hh with hh | hh
    · exact hqp (anc_trans ha hh)
    · have h1 : (c :: v) <:+ h.w := ha.2.elim id fun h => absurd h.2 hroot
      have h2 := h1.length_le
      rcases hh.2 with h3 | h3
      · have h4 := h3.length_le
        rw [hw] at h4
        simp only [List.length_cons] at h2 h4
        omega
      · rw [h3.2] at h1
        simp at h1
  have key := card_resample (fun f : B → B => Set.InjOn (arg K f) H) (fun f => arg K f q)
    (fun f => arg K f p - p'.b - K.m p'.t (f 0)) (by
      intro f hf y
      refine ⟨injOn_resample K hcl hf hqH hm y,
        arg_resample K hf hqH (fun a ha => ⟨hcl q hqH a ha, fun e => hm q hqH (e ▸ ha)⟩) y, ?_⟩
      rw [arg_resample K hf hqH (fun a ha => ⟨Or.inl ha, fun e => hqp (e ▸ ha)⟩) y]
      congr 1
      cases ht : p'.t with
      | none => simp [K.none_eq]
      | some t =>
        have hr : (⟨[], 0, none⟩ : Pt B) ∈ H := Or.inr ⟨rfl, Or.inr ⟨by simp [ht], rfl⟩⟩
        have : (0 : B) ≠ arg K f q := fun e => hroot (hf hqH hr (by rw [arg_root, ← e]))
        rw [update_of_ne this])
  refine le_trans (Nat.mul_le_mul_left _ (cnt_mono (Q := fun f => _ ∧ _) fun f hf => ⟨hf.1, ?_⟩)) (key.le.trans (cnt_le _))
  rw [hf.2, hq, arg_tree K f, arg, hw]
  abel

omit [Fintype B] [DecidableEq B] in
theorem card_swap (p p' : Pt B) :
    cnt (fun f : B → B => Set.InjOn (arg K f) {a | Anc a p ∨ Anc a p'} ∧ arg K f p = arg K f p') =
      cnt fun f : B → B => Set.InjOn (arg K f) {a | Anc a p' ∨ Anc a p} ∧ arg K f p' = arg K f p := by
  refine cnt_congr fun f => ?_
  rw [show {a | Anc a p ∨ Anc a p'} = {a | Anc a p' ∨ Anc a p} from Set.ext fun a => or_comm, eq_comm]

theorem card_pair_aux (p p' : Pt B) (hw : p.w ≠ p'.w) (hl : p.w.length ≤ p'.w.length) :
    Fintype.card B * cnt (fun f : B → B =>
      Set.InjOn (arg K f) {a | Anc a p ∨ Anc a p'} ∧ arg K f p = arg K f p') ≤ Fintype.card (B → B) := by
  match h' : p'.w with
  | [] =>
    rw [h'] at hl hw
    exact absurd (List.length_eq_zero_iff.mp (Nat.le_zero.mp hl)) hw
  | c :: v =>
    by_cases h0 : c :: v = [0]
    · rw [List.cons.injEq] at h0
      obtain ⟨rfl, rfl⟩ := h0
      rw [h'] at hl hw
      match h : p.w with
      | [] =>
        refine card_zero_le _ (K.step p'.t p.t) (p.b - p'.b) _ fun f hf => ?_
        have e := hf.2
        rw [arg, arg, h', h, chain, chain, chain] at e
        rw [add_zero, add_zero] at e
        rw [sub_eq_sub_iff_add_eq_add, e]
        abel
      | [d] =>
        rw [card_swap]
        have hd : d ≠ 0 := fun e => hw (by rw [h, e])
        refine card_long K p' p [] d h ?_ (by simpa using hd)
        rw [h']
        intro e
        have := e.eq_of_length rfl
        simp at this
        exact hd this
      | d :: d' :: l =>
        rw [h] at hl
        simp at hl
    · refine card_long K p p' v c h' ?_ h0
      intro e
      rw [h'] at hl hw
      exact hw (e.eq_of_length (Nat.le_antisymm e.length_le hl)).symm

/-- Two different places rarely have the same argument while those before have different ones. -/
theorem card_pair (p p' : Pt B) (hne : p ≠ p') :
    Fintype.card B * cnt (fun f : B → B =>
      Set.InjOn (arg K f) {a | Anc a p ∨ Anc a p'} ∧ arg K f p = arg K f p') ≤ Fintype.card (B → B) := by
  by_cases hw : p.w = p'.w
  · by_cases ht : p.t = p'.t
    · have hb : p.b ≠ p'.b := fun e => hne (by cases p; cases p'; simp_all)
      rw [cnt_false]
      · simp
      · rintro f ⟨-, h⟩
        rw [arg, arg, hw, ht] at h
        exact hb (by simpa using h)
    · refine card_zero_le _ (K.diff _ _ ht) (p'.b - p.b) _ fun f hf => ?_
      have h := hf.2
      rw [arg, arg, hw] at h
      rw [sub_eq_sub_iff_add_eq_add]
      have h2 : p.b + K.m p.t (f 0) + chain f p'.w = p'.b + K.m p'.t (f 0) + chain f p'.w := by
        rw [add_right_comm, h, add_right_comm]
      rw [add_comm, add_right_cancel h2]
  · rcases le_total p.w.length p'.w.length with hl | hl
    · exact card_pair_aux K p p' hw hl
    · rw [card_swap]
      exact card_pair_aux K p' p (Ne.symm hw) hl

end Cryptopy.Prf
