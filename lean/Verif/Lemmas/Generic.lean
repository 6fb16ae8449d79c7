import Verif.Model.Generic
import Mathlib.Algebra.Group.Hom.Defs
import Mathlib.Algebra.Module.NatInt
import Mathlib.Data.Finset.Powerset
import Mathlib.Data.List.Forall2
import Mathlib.Data.Option.Basic
import Mathlib.Data.Set.Card
import Mathlib.Algebra.Order.BigOperators.Group.Finset

/-!
Programs that use points only through their operators, carried out on two kinds of points at once.
-/

namespace Cryptopy.Model

variable {α β : Type}

/-- Both missing, or both there and related. -/
def OptRel (Rel : α → β → Prop) : Option α → Option β → Prop
  | none, none => True
  | some a, some b => Rel a b
  | _, _ => False

/-- The operators of two kinds of points behave alike on related points, as long as the points of the first kind are good. -/
structure Alike (m : PointOps α) (m' : PointOps β) (Good : α → Prop) (Rel : α → β → Prop) : Prop where
  add : ∀ a b a' b', Good a → Good b → Rel a a' → Rel b b' → OptRel Rel (m.add a b) (m'.add a' b')
  sub : ∀ a b a' b', Good a → Good b → Rel a a' → Rel b b' → OptRel Rel (m.sub a b) (m'.sub a' b')
  neg : ∀ a a', Good a → Rel a a' → OptRel Rel (m.neg a) (m'.neg a')
  double : ∀ a a', Good a → Rel a a' → OptRel Rel (m.double a) (m'.double a')
  mul : ∀ k a a', Good a → Rel a a' → OptRel Rel (m.mul k a) (m'.mul k a')
  same : ∀ a b a' b', Good a → Good b → Rel a a' → Rel b b' → m.same a b = m'.same a' b'

theorem runPoints_prefix (m : PointOps α) (A : List (Option Nat) → PointCmd) (q : Nat) :
    ∀ l, l <+: runPoints m A q l := by
  induction q with
  | zero => intro l; exact List.prefix_refl l
  | succ q ih => intro l; exact (List.prefix_append l _).trans (ih _)

theorem runPoints_length (m : PointOps α) (A : List (Option Nat) → PointCmd) (q : Nat) :
    ∀ l, (runPoints m A q l).length = l.length + q := by
  induction q with
  | zero => intro l; rfl
  | succ q ih => intro l; rw [runPoints, ih, List.length_append, List.length_singleton]; omega

variable {m : PointOps α} {m' : PointOps β} {Good : α → Prop} {Rel : α → β → Prop}

theorem rel_getD {l : List (Option α)} {l' : List (Option β)} (hl : List.Forall₂ (OptRel Rel) l l') (i : Nat) :
    OptRel Rel (l.getD i none) (l'.getD i none) := by
  induction hl generalizing i with
  | nil => trivial
  | cons h _ ih =>
    cases i with
    | zero => exact h
    | succ i => simpa using ih i

private theorem getD_good {l : List (Option α)} (hg : ∀ a, some a ∈ l → Good a) {i : Nat} {a : α}
    (h : l.getD i none = some a) : Good a := by
  apply hg
  by_cases hi : i < l.length
  · rw [List.getD_eq_getElem?_getD, List.getElem?_eq_getElem hi] at h
    exact h ▸ List.getElem_mem hi
  · rw [List.getD_eq_getElem?_getD, List.getElem?_eq_none (by omega)] at h
    cases h

private theorem bind_rel {γ δ : Type} {R : α → β → Prop} {S : γ → δ → Prop} {o : Option α} {o' : Option β}
    {f : α → Option γ} {f' : β → Option δ} (h : OptRel R o o')
    (hf : ∀ a a', o = some a → R a a' → OptRel S (f a) (f' a')) : OptRel S (o.bind f) (o'.bind f') := by
  cases o <;> cases o'
  · trivial
  · exact h.elim
  · exact h.elim
  · exact hf _ _ rfl h

theorem exec_rel (s : Alike m m' Good Rel) {l : List (Option α)} {l' : List (Option β)}
    (hl : List.Forall₂ (OptRel Rel) l l') (hg : ∀ a, some a ∈ l → Good a) (c : PointCmd) :
    OptRel Rel (c.exec m l) (c.exec m' l') := by
  cases c with
  | add i j =>
    exact bind_rel (rel_getD hl i) fun a a' ha r => bind_rel (rel_getD hl j) fun b b' hb r' =>
      s.add _ _ _ _ (getD_good hg ha) (getD_good hg hb) r r'
  | sub i j =>
    exact bind_rel (rel_getD hl i) fun a a' ha r => bind_rel (rel_getD hl j) fun b b' hb r' =>
      s.sub _ _ _ _ (getD_good hg ha) (getD_good hg hb) r r'
  | neg i => exact bind_rel (rel_getD hl i) fun a a' ha r => s.neg _ _ (getD_good hg ha) r
  | double i => exact bind_rel (rel_getD hl i) fun a a' ha r => s.double _ _ (getD_good hg ha) r
  | mul k i => exact bind_rel (rel_getD hl i) fun a a' ha r => s.mul _ _ _ (getD_good hg ha) r

private theorem findIdx_rel (s : Alike m m' Good Rel) {l : List (Option α)} {l' : List (Option β)}
    (hl : List.Forall₂ (OptRel Rel) l l') (hg : ∀ a, some a ∈ l → Good a) {a : α} {a' : β} (ha : Good a) (r : Rel a a') :
    (l.findIdx fun b => match b with | some b => m.same b a | none => false) =
      l'.findIdx fun b => match b with | some b => m'.same b a' | none => false := by
  induction hl with
  | nil => rfl
  | @cons o o' t t' h _ ih =>
    have ih := ih fun a ha => hg a (by simp [ha])
    rw [List.findIdx_cons, List.findIdx_cons, ih]
    congr 1
    cases o <;> cases o'
    · rfl
    · exact h.elim
    · exact h.elim
    · exact s.same _ _ _ _ (hg _ (by simp)) ha h r

theorem view_rel (s : Alike m m' Good Rel) {l : List (Option α)} {l' : List (Option β)}
    (hl : List.Forall₂ (OptRel Rel) l l') (hg : ∀ a, some a ∈ l → Good a) : pointView m l = pointView m' l' := by
  have key : ∀ {t : List (Option α)} {t' : List (Option β)}, List.Forall₂ (OptRel Rel) t t' → (∀ a, some a ∈ t → Good a) →
      (t.map fun o => o.map fun a => l.findIdx fun b => match b with | some b => m.same b a | none => false) =
      t'.map fun o => o.map fun a => l'.findIdx fun b => match b with | some b => m'.same b a | none => false := by
    intro t t' ht
    induction ht with
    | nil => intro _; rfl
    | @cons o o' t t' h _ ih =>
      intro hg'
      rw [List.map_cons, List.map_cons, ih fun a ha => hg' a (by simp [ha])]
      congr 1
      cases o <;> cases o'
      · rfl
      · exact h.elim
      · exact h.elim
      · exact congrArg some (findIdx_rel s hl hg (hg' _ (by simp)) h)
  exact key hl hg

/-- A program does the same with both kinds of points. -/
theorem run_rel (s : Alike m m' Good Rel) (A : List (Option Nat) → PointCmd) (q : Nat) :
    ∀ (l : List (Option α)) (l' : List (Option β)), List.Forall₂ (OptRel Rel) l l' →
      (∀ a, some a ∈ runPoints m A q l → Good a) →
      List.Forall₂ (OptRel Rel) (runPoints m A q l) (runPoints m' A q l') ∧
        pointView m (runPoints m A q l) = pointView m' (runPoints m' A q l') := by
  induction q with
  | zero => intro l l' hl hg; exact ⟨hl, view_rel s hl hg⟩
  | succ q ih =>
    intro l l' hl hg
    have hg' : ∀ a, some a ∈ l → Good a := fun a ha => hg a ((runPoints_prefix m A (q + 1) l).subset ha)
    refine ih _ _ (List.rel_append hl (List.Forall₂.cons ?_ .nil)) hg
    rw [view_rel s hl hg']
    exact exec_rel s hl hg' _

/-- Three kinds of points. -/
theorem Alike.trans {γ : Type} {m'' : PointOps γ} {Rel' : β → γ → Prop} (s : Alike m m' Good Rel)
    (t : Alike m' m'' (fun _ => True) Rel') : Alike m m'' Good (fun a c => ∃ b, Rel a b ∧ Rel' b c) := by
  have hc : ∀ {o : Option α} {o' : Option β} {o'' : Option γ}, OptRel Rel o o' → OptRel Rel' o' o'' →
      OptRel (fun a c => ∃ b, Rel a b ∧ Rel' b c) o o'' := by
    intro o o' o'' h h'
    cases o <;> cases o' <;> cases o'' <;> first | trivial | exact h.elim | exact h'.elim | exact ⟨_, h, h'⟩
  refine ⟨?_, ?_, ?_, ?_, ?_, ?_⟩
  · rintro a b c d ha hb ⟨x, h1, h2⟩ ⟨y, h3, h4⟩
    exact hc (s.add _ _ _ _ ha hb h1 h3) (t.add _ _ _ _ trivial trivial h2 h4)
  · rintro a b c d ha hb ⟨x, h1, h2⟩ ⟨y, h3, h4⟩
    exact hc (s.sub _ _ _ _ ha hb h1 h3) (t.sub _ _ _ _ trivial trivial h2 h4)
  · rintro a c ha ⟨x, h1, h2⟩
    exact hc (s.neg _ _ ha h1) (t.neg _ _ trivial h2)
  · rintro a c ha ⟨x, h1, h2⟩
    exact hc (s.double _ _ ha h1) (t.double _ _ trivial h2)
  · rintro k a c ha ⟨x, h1, h2⟩
    exact hc (s.mul _ _ _ ha h1) (t.mul _ _ _ trivial h2)
  · rintro a b c d ha hb ⟨x, h1, h2⟩ ⟨y, h3, h4⟩
    exact (s.same _ _ _ _ ha hb h1 h3).trans (t.same _ _ _ _ trivial trivial h2 h4)

/-! ### Points of an abstract group -/

open Classical in
/-- Elements of a group with a mark for points whose y-coordinate has been left negative by `negate`. -/
noncomputable def marked (G : Type) [AddCommGroup G] (n : Nat) : PointOps (G × Bool) where
  add a b := some (if b.1 = 0 then a else if a.1 = 0 then b else (a.1 + b.1, false))
  sub a b := if b.1 = 0 then none else some (if a.1 = 0 then (-b.1, !b.2) else (a.1 - b.1, false))
  neg a := if a.1 = 0 then none else some (-a.1, !a.2)
  double a := if a.1 = 0 then none else some (a.1 + a.1, false)
  mul k a := some (if (n : Int) ∣ k ∨ a.1 = 0 then (0, false) else if (n : Int) ∣ k - 1 then a else (k • a.1, false))
  same a b := decide (a = b)

/-- A homomorphism that is injective on the elements that occur does not change what a program sees. -/
theorem marked_alike {F G : Type} [AddCommGroup F] [AddCommGroup G] (n : Nat) (ev : F →+ G) (S : Set F) (h0 : (0 : F) ∈ S)
    (hS : ∀ f ∈ S, ∀ g ∈ S, ev f = ev g → f = g) :
    Alike (marked F n) (marked G n) (fun a => a.1 ∈ S) (fun a b => b = (ev a.1, a.2)) := by
  have hz : ∀ f ∈ S, (ev f = 0 ↔ f = 0) := fun f hf =>
    ⟨fun h => hS f hf 0 h0 (by rw [h, map_zero]), fun h => by rw [h, map_zero]⟩
  refine ⟨?_, ?_, ?_, ?_, ?_, ?_⟩
  · rintro a b a' b' ha hb rfl rfl
    by_cases h1 : b.1 = 0 <;> by_cases h2 : a.1 = 0 <;> simp [marked, OptRel, h1, h2, hz _ ha, hz _ hb]
  · rintro a b a' b' ha hb rfl rfl
    by_cases h1 : b.1 = 0 <;> by_cases h2 : a.1 = 0 <;> simp [marked, OptRel, h1, h2, hz _ ha, hz _ hb]
  · rintro a a' ha rfl
    by_cases h2 : a.1 = 0 <;> simp [marked, OptRel, h2, hz _ ha]
  · rintro a a' ha rfl
    by_cases h2 : a.1 = 0 <;> simp [marked, OptRel, h2, hz _ ha]
  · rintro k a a' ha rfl
    by_cases h2 : a.1 = 0
    · simp [marked, OptRel, h2]
    · by_cases h1 : (n : Int) ∣ k
      · simp [marked, OptRel, h1]
      · by_cases h3 : (n : Int) ∣ k - 1 <;> simp [marked, OptRel, h1, h2, h3, hz _ ha]
  · rintro a b a' b' ha hb rfl rfl
    simp only [marked, Prod.mk.injEq, decide_eq_decide]
    constructor
    · rintro rfl; exact ⟨rfl, rfl⟩
    · rintro ⟨h1, h2⟩; exact Prod.ext (hS _ ha _ hb h1) h2

open Classical in
/-- The elements that occur in a list of points. -/
noncomputable def elems {F : Type} (l : List (Option (F × Bool))) : Finset F :=
  (l.filterMap fun o => o.map Prod.fst).toFinset

theorem mem_elems {F : Type} {l : List (Option (F × Bool))} {a : F × Bool} (h : some a ∈ l) : a.1 ∈ elems l := by
  classical
  rw [elems, List.mem_toFinset, List.mem_filterMap]
  exact ⟨_, h, rfl⟩

theorem card_elems {F : Type} (l : List (Option (F × Bool))) : (elems l).card ≤ l.length := by
  classical
  rw [elems]
  exact (List.toFinset_card_le _).trans (List.length_filterMap_le _ _)

/-- A finite set on which maps, indexed by a finite type, are rarely not injective: if for any two elements the maps that
do not tell them apart are at most `b`, all but `(number of pairs) * b` of the maps are injective. -/
theorem collisions {F G X : Type} [Fintype X] (S : Finset F) (ev : X → F → G) (b : Nat)
    (hb : ∀ f g : F, f ≠ g → {x | ev x f = ev x g}.ncard ≤ b) :
    {x | ¬ ∀ f ∈ S, ∀ g ∈ S, ev x f = ev x g → f = g}.ncard ≤ S.card.choose 2 * b := by
  classical
  have hsub : {x | ¬ ∀ f ∈ S, ∀ g ∈ S, ev x f = ev x g → f = g} ⊆
      ↑((S.powersetCard 2).biUnion fun T => Finset.univ.filter fun x => ∃ f ∈ T, ∃ g ∈ T, f ≠ g ∧ ev x f = ev x g) := by
    intro x hx
    simp only [Set.mem_ofPred_eq, not_forall] at hx
    obtain ⟨f, hf, g, hg, he, hne⟩ := hx
    simp only [Finset.coe_biUnion, Set.mem_iUnion, Finset.mem_coe, Finset.mem_filter, Finset.mem_univ, true_and,
      Finset.mem_powersetCard]
    refine ⟨{f, g}, ⟨?_, Finset.card_pair hne⟩, f, by simp, g, by simp, hne, he⟩
    intro y hy
    rcases Finset.mem_insert.mp hy with rfl | hy
    · exact hf
    · rw [Finset.mem_singleton.mp hy]; exact hg
  refine (Set.ncard_le_ncard hsub (Finset.finite_toSet _)).trans ?_
  rw [Set.ncard_coe_finset]
  refine (Finset.card_biUnion_le_card_mul _ _ b ?_).trans ?_
  · intro T hT
    obtain ⟨-, hT⟩ := Finset.mem_powersetCard.mp hT
    obtain ⟨f, g, hne, rfl⟩ := Finset.card_eq_two.mp hT
    refine le_trans ?_ (hb f g hne)
    rw [← Set.ncard_coe_finset]
    refine Set.ncard_le_ncard ?_ (Set.toFinite _)
    intro x hx
    simp only [Finset.coe_filter, Finset.mem_univ, true_and, Set.mem_ofPred_eq, Finset.mem_insert, Finset.mem_singleton] at hx
    obtain ⟨u, hu, v, hv, hne', he⟩ := hx
    rcases hu with rfl | rfl <;> rcases hv with rfl | rfl
    · exact absurd rfl hne'
    · exact he
    · exact he.symm
    · exact absurd rfl hne'
  · rw [Finset.card_powersetCard]

end Cryptopy.Model
