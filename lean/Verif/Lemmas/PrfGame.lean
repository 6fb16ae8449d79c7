import Verif.Lemmas.Resample
import Verif.Spec.Asker
import Mathlib.Data.Nat.Choose.Basic
import Mathlib.Algebra.BigOperators.Ring.Finset
import Mathlib.Algebra.Order.BigOperators.Group.Finset
import Mathlib.Algebra.Module.NatInt

/-!
A chained function with subkeys can not be told from a random function on messages: used for C161.
-/

namespace Cryptopy.Prf
open Finset Function Spec

variable {B : Type} [Fintype B] [DecidableEq B] [AddCommGroup B] (K : Masks B) {M R : Type} [DecidableEq M]
  (enc : M → Pt B)

/-- The tags of different messages are independent as long as no two arguments agree. -/
theorem card_tags {G : Set (Pt B)} (hG : Closed G) (ht : ∀ m, (enc m).t ≠ none) (hi : Injective enc) (τ : M → B)
    (E : (B → B) → Prop) (hE : ∀ f, E f → Set.InjOn (arg K f) G) (Z : Finset M) (hZ : ∀ m ∈ Z, enc m ∈ G)
    (inv : ∀ f, E f → ∀ m ∈ Z, ∀ y, E (update f (arg K f (enc m)) y)) :
    Fintype.card B ^ Z.card * cnt (fun f => E f ∧ ∀ m ∈ Z, f (arg K f (enc m)) = τ m) = cnt E := by
  induction Z using Finset.induction_on with
  | empty => simp
  | insert m Z hm ih =>
    have ih := ih (fun m hm => hZ m (mem_insert_of_mem hm)) (fun f hf m hm y => inv f hf m (mem_insert_of_mem hm) y)
    have key := card_resample (fun f => E f ∧ ∀ m ∈ Z, f (arg K f (enc m)) = τ m) (fun f => arg K f (enc m))
      (fun _ => τ m) (by
        rintro f ⟨hfE, hfZ⟩ y
        have hmG := hZ m (mem_insert_self m Z)
        have e : ∀ q ∈ G, arg K (update f (arg K f (enc m)) y) q = arg K f q := fun q hq =>
          arg_resample K (hE f hfE) hmG (fun a ha => ⟨hG q hq a ha, fun e => ht m (e ▸ ha.1)⟩) y
        refine ⟨⟨inv f hfE m (mem_insert_self m Z) y, fun m' hm' => ?_⟩, e _ hmG, rfl⟩
        have hm'G := hZ m' (mem_insert_of_mem hm')
        rw [e _ hm'G, update_of_ne, hfZ m' hm']
        intro h
        have := hi (hE f hfE hm'G hmG h)
        exact hm (this ▸ hm'))
    rw [card_insert_of_notMem hm, pow_succ, mul_assoc, ← ih, ← key]
    congr 2
    refine cnt_congr fun f => ?_
    simp only [forall_mem_insert]
    tauto

variable (τ : M → B)

/-- The arguments at the places in `G` differ, the messages in `Z` have these tags and `A` holds. -/
def Good (G : Finset (Pt B)) (Z : Finset M) (A : (B → B) → Prop) (f : B → B) : Prop :=
  Set.InjOn (arg K f) G ∧ (∀ m ∈ Z, f (arg K f (enc m)) = τ m) ∧ A f

/-- What is asked of `G` and `Z` while messages are asked for. -/
structure State (G : Finset (Pt B)) (Z : Finset M) : Prop where
  closed : Closed (G : Set (Pt B))
  root : ⟨[], 0, none⟩ ∈ G
  final : ∀ m, enc m ∈ G ↔ m ∈ Z

theorem card_hit {G : Finset (Pt B)} {Z : Finset M} (hS : State enc G Z) (ht : ∀ m, (enc m).t ≠ none) (hi : Injective enc)
    (p p' : Pt B) (hp : ∀ a, Anc a p → a ∈ G) (hp' : p' ∈ G) (hne : p ≠ p') :
    Fintype.card B ^ (Z.card + 1) * cnt (Good K enc τ G Z fun f => arg K f p = arg K f p') ≤ Fintype.card (B → B) := by
  have h1 := card_tags K enc hS.closed ht hi τ (fun f : B → B => Set.InjOn (arg K f) G ∧ arg K f p = arg K f p')
    (fun f hf => hf.1) Z (fun m hm => (hS.final m).mpr hm) (by
    rintro f ⟨h1, h2⟩ m hm y
    have hmG : enc m ∈ (G : Set (Pt B)) := (hS.final m).mpr hm
    have e : ∀ q, (∀ a, Anc a q → a ∈ G) → arg K (update f (arg K f (enc m)) y) q = arg K f q := fun q hq =>
      arg_resample K h1 hmG (fun a ha => ⟨hq a ha, fun e => ht m (e ▸ ha.1)⟩) y
    refine ⟨injOn_resample K hS.closed h1 hmG (fun q _ h => ht m h.1) y, ?_⟩
    rw [e p hp, e p' (hS.closed p' hp'), h2])
  have h3 : cnt (Good K enc τ G Z fun f => arg K f p = arg K f p') = cnt fun f =>
      (Set.InjOn (arg K f) G ∧ arg K f p = arg K f p') ∧ ∀ m ∈ Z, f (arg K f (enc m)) = τ m :=
    cnt_congr fun f => by unfold Good; tauto
  rw [h3, pow_succ, mul_comm (Fintype.card B ^ _), mul_assoc, h1]
  refine le_trans (Nat.mul_le_mul_left _ (cnt_mono ?_)) (card_pair K p p' hne)
  rintro f ⟨h1, h2⟩
  exact ⟨h1.mono fun a ha => ha.elim (hp a) (hS.closed p' hp' a), h2⟩

/-- One more place. -/
theorem card_step {G : Finset (Pt B)} {Z : Finset M} (hS : State enc G Z) (ht : ∀ m, (enc m).t ≠ none) (hi : Injective enc)
    (p : Pt B) (hp : ∀ a, Anc a p → a ∈ G) (A : (B → B) → Prop) :
    Fintype.card B ^ (Z.card + 1) * cnt (Good K enc τ G Z A) + G.card.choose 2 * Fintype.card (B → B) ≤
      Fintype.card B ^ (Z.card + 1) * cnt (Good K enc τ (insert p G) Z A) +
        (insert p G).card.choose 2 * Fintype.card (B → B) := by
  by_cases hpG : p ∈ G
  · rw [insert_eq_of_mem hpG]
  · have h1 : cnt (Good K enc τ G Z A) ≤ cnt (Good K enc τ (insert p G) Z A) +
        cnt fun f => ∃ p' ∈ G, Good K enc τ G Z (fun f => arg K f p = arg K f p') f := by
      refine (cnt_mono ?_).trans (cnt_or _ _)
      rintro f ⟨h1, h2, h3⟩
      by_cases h : ∃ p' ∈ G, arg K f p = arg K f p'
      · obtain ⟨p', hp', h⟩ := h
        exact Or.inr ⟨p', hp', h1, h2, h⟩
      · refine Or.inl ⟨?_, h2, h3⟩
        rw [coe_insert, Set.injOn_insert (by simpa using hpG)]
        refine ⟨h1, ?_⟩
        rintro ⟨p', hp', e⟩
        exact h ⟨p', hp', e.symm⟩
    have h2 : Fintype.card B ^ (Z.card + 1) *
        cnt (fun f => ∃ p' ∈ G, Good K enc τ G Z (fun f => arg K f p = arg K f p') f) ≤
          G.card * Fintype.card (B → B) := by
      refine (Nat.mul_le_mul_left _ (cnt_exists _ _)).trans ?_
      rw [mul_sum]
      refine (sum_le_sum fun p' hp' => card_hit K enc τ hS ht hi p p' hp hp' ?_).trans ?_
      · rintro rfl
        exact hpG hp'
      · rw [sum_const, smul_eq_mul]
    rw [card_insert_of_notMem hpG, show (G.card + 1).choose 2 = G.card + G.card.choose 2 by
      rw [Nat.choose_succ_succ' G.card 1, Nat.choose_one_right], add_mul]
    have h3 := Nat.mul_le_mul_left (Fintype.card B ^ (Z.card + 1)) h1
    rw [mul_add] at h3
    omega

/-- The places for some blocks. -/
def addTree (G : Finset (Pt B)) : List B → Finset (Pt B)
  | [] => G
  | b :: w => insert ⟨w, b, none⟩ (addTree G w)

omit [Fintype B] [AddCommGroup B] in
theorem mem_addTree (G : Finset (Pt B)) (w : List B) (p : Pt B) :
    p ∈ addTree G w ↔ p ∈ G ∨ p.t = none ∧ (p.b :: p.w) <:+ w := by
  induction w with
  | nil => simp [addTree]
  | cons b w ih =>
    obtain ⟨pw, pb, pt⟩ := p
    rw [addTree, mem_insert, ih, List.suffix_cons_iff, Pt.mk.injEq, List.cons.injEq]
    tauto

omit [Fintype B] [AddCommGroup B] in
theorem card_addTree (G : Finset (Pt B)) (w : List B) : (addTree G w).card ≤ G.card + w.length := by
  induction w with
  | nil => simp [addTree]
  | cons b w ih =>
    have := card_insert_le (⟨w, b, none⟩ : Pt B) (addTree G w)
    rw [addTree, List.length_cons]
    omega

omit [Fintype B] [DecidableEq M] in
theorem state_addTree {G : Finset (Pt B)} {Z : Finset M} (hS : State enc G Z) (ht : ∀ m, (enc m).t ≠ none) (w : List B) :
    State enc (addTree G w) Z where
  closed := by
    intro p hp a ha
    rw [mem_coe, mem_addTree] at hp ⊢
    rcases hp with hp | ⟨h1, h2⟩
    · exact Or.inl (hS.closed p hp a ha)
    · refine Or.inr ⟨ha.1, ha.2.elim (fun h => h.trans ((List.suffix_cons _ _).trans h2)) fun h => absurd h1 h.1⟩
  root := (mem_addTree _ _ _).mpr (Or.inl hS.root)
  final := by
    intro m
    rw [mem_addTree, hS.final]
    exact ⟨fun h => h.elim id fun h => absurd h.1 (ht m), Or.inl⟩

theorem card_addTree_good {G : Finset (Pt B)} {Z : Finset M} (hS : State enc G Z) (ht : ∀ m, (enc m).t ≠ none)
    (hi : Injective enc) (w : List B) (A : (B → B) → Prop) :
    Fintype.card B ^ (Z.card + 1) * cnt (Good K enc τ G Z A) + G.card.choose 2 * Fintype.card (B → B) ≤
      Fintype.card B ^ (Z.card + 1) * cnt (Good K enc τ (addTree G w) Z A) +
        (addTree G w).card.choose 2 * Fintype.card (B → B) := by
  induction w with
  | nil => exact le_rfl
  | cons b w ih =>
    refine ih.trans (card_step K enc τ (state_addTree enc hS ht w) ht hi ⟨w, b, none⟩ ?_ A)
    intro a ha
    exact (mem_addTree _ _ _).mpr (Or.inr ⟨ha.1, ha.2.elim id fun h => absurd rfl h.1⟩)

/-- The places for a message. -/
def addMsg (G : Finset (Pt B)) (m : M) : Finset (Pt B) := insert (enc m) (addTree G (enc m).w)

omit [Fintype B] [AddCommGroup B] [DecidableEq M] in
theorem card_addMsg (G : Finset (Pt B)) (m : M) : (addMsg enc G m).card ≤ G.card + ((enc m).w.length + 1) := by
  have h1 := card_insert_le (enc m) (addTree G (enc m).w)
  have h2 := card_addTree G (enc m).w
  rw [addMsg]
  omega

omit [Fintype B] [DecidableEq M] in
theorem anc_addTree {G : Finset (Pt B)} {Z : Finset M} (hS : State enc G Z) (m : M) (a : Pt B) (ha : Anc a (enc m)) :
    a ∈ addTree G (enc m).w := by
  rw [mem_addTree]
  rcases ha.2 with h | h
  · exact Or.inr ⟨ha.1, h⟩
  · rw [h.2]
    exact Or.inl hS.root

omit [Fintype B] in
theorem state_addMsg {G : Finset (Pt B)} {Z : Finset M} (hS : State enc G Z) (ht : ∀ m, (enc m).t ≠ none)
    (hi : Injective enc) (m : M) : State enc (addMsg enc G m) (insert m Z) where
  closed := by
    intro p hp a ha
    rw [mem_coe, addMsg, mem_insert] at hp ⊢
    rcases hp with rfl | hp
    · exact Or.inr (anc_addTree enc hS m a ha)
    · exact Or.inr ((state_addTree enc hS ht _).closed p hp a ha)
  root := mem_insert_of_mem (state_addTree enc hS ht _).root
  final := by
    intro m'
    rw [addMsg, mem_insert, mem_insert, (state_addTree enc hS ht _).final, hi.eq_iff]

theorem card_addMsg_good {G : Finset (Pt B)} {Z : Finset M} (hS : State enc G Z) (ht : ∀ m, (enc m).t ≠ none)
    (hi : Injective enc) (m : M) (A : (B → B) → Prop) :
    Fintype.card B ^ (Z.card + 1) * cnt (Good K enc τ G Z A) + G.card.choose 2 * Fintype.card (B → B) ≤
      Fintype.card B ^ (Z.card + 1) * cnt (Good K enc τ (addMsg enc G m) Z A) +
        (addMsg enc G m).card.choose 2 * Fintype.card (B → B) :=
  (card_addTree_good K enc τ hS ht hi (enc m).w A).trans
    (card_step K enc τ (state_addTree enc hS ht _) ht hi (enc m) (anc_addTree enc hS m) A)

/-- The functions on a finite set of messages, extended by zero. -/
def ext (S : Finset M) (ρ : S → B) (m : M) : B := if h : m ∈ S then ρ ⟨m, h⟩ else 0

omit [DecidableEq B] in
theorem card_ext (S Z : Finset M) (hZ : Z ⊆ S) :
    Fintype.card B ^ Z.card * cnt (fun ρ : S → B => ∀ m ∈ Z, ext S ρ m = τ m) = Fintype.card (S → B) := by
  classical
  induction Z using Finset.induction_on with
  | empty => simp [cnt_true]
  | insert m Z hm ih =>
    have hmS := hZ (mem_insert_self m Z)
    have key := card_resample (fun ρ : S → B => ∀ m ∈ Z, ext S ρ m = τ m) (fun _ => ⟨m, hmS⟩) (fun _ => τ m) (by
      intro ρ hρ y
      refine ⟨fun m' hm' => ?_, rfl, rfl⟩
      have hm'S := hZ (mem_insert_of_mem hm')
      have := hρ m' hm'
      rw [ext, dif_pos hm'S] at this ⊢
      rw [update_of_ne, this]
      intro e
      exact hm ((Subtype.mk.inj e) ▸ hm'))
    rw [card_insert_of_notMem hm, pow_succ, mul_assoc, ← ih fun m hm => hZ (mem_insert_of_mem hm), ← key]
    congr 2
    refine cnt_congr fun ρ => ?_
    rw [forall_mem_insert, ext, dif_pos hmS]
    exact and_comm

omit [Fintype B] [DecidableEq B] [AddCommGroup B] [DecidableEq M] in
theorem run_ask (g : M → B) (m : M) (next : B → Asker M B R) :
    Asker.run g (.ask m next) = (next (g m)).run g := rfl

/-- Whoever asks for tags: what they do with the chained function they do almost as often with a random function. -/
theorem card_run (ht : ∀ m, (enc m).t ≠ none) (hi : Injective enc) (S : Finset M) (acc : R → Prop) (D : Asker M B R)
    (G : Finset (Pt B)) (Z : Finset M) (hS : State enc G Z) (hZ : Z ⊆ S) (c : ℕ)
    (hc : D.CostLe (fun m => (enc m).w.length + 1) (fun _ => 0) c) (hw : D.Within (· ∈ S)) :
    Fintype.card B ^ (Z.card + 1) * cnt (Good K enc τ G Z fun f => acc (D.run fun m => f (arg K f (enc m)))) *
        Fintype.card (S → B) + G.card.choose 2 * Fintype.card (B → B) * Fintype.card (S → B) ≤
      Fintype.card B ^ (Z.card + 1) * cnt (fun ρ : S → B => (∀ m ∈ Z, ext S ρ m = τ m) ∧ acc (D.run (ext S ρ))) *
        Fintype.card (B → B) + (G.card + c).choose 2 * Fintype.card (B → B) * Fintype.card (S → B) := by
  induction D generalizing G Z τ c with
  | done r =>
    have hmono : G.card.choose 2 ≤ (G.card + c).choose 2 := Nat.choose_le_choose 2 (Nat.le_add_right _ _)
    refine Nat.add_le_add ?_ (Nat.mul_le_mul_right _ (Nat.mul_le_mul_right _ hmono))
    by_cases hr : acc r
    · have h1 := card_tags K enc hS.closed ht hi τ (fun f : B → B => Set.InjOn (arg K f) G) (fun f hf => hf) Z
        (fun m hm => (hS.final m).mpr hm)
        (fun f hf m hm y => injOn_resample K hS.closed hf ((hS.final m).mpr hm) (fun q _ h => ht m h.1) y)
      have h2 := card_ext τ S Z hZ
      have e1 : cnt (Good K enc τ G Z fun f => acc (Asker.run (fun m => f (arg K f (enc m))) (.done r))) =
          cnt fun f => Set.InjOn (arg K f) G ∧ ∀ m ∈ Z, f (arg K f (enc m)) = τ m :=
        cnt_congr fun f => ⟨fun h => ⟨h.1, h.2.1⟩, fun h => ⟨h.1, h.2, hr⟩⟩
      have e2 : cnt (fun ρ : S → B => (∀ m ∈ Z, ext S ρ m = τ m) ∧ acc (Asker.run (ext S ρ) (.done r))) =
          cnt fun ρ : S → B => ∀ m ∈ Z, ext S ρ m = τ m := cnt_congr fun ρ => ⟨fun h => h.1, fun h => ⟨h, hr⟩⟩
      rw [e1, e2, pow_succ, mul_comm (_ ^ _), mul_assoc (Fintype.card B), h1,
        mul_assoc (Fintype.card B) _ (cnt fun ρ : S → B => ∀ m ∈ Z, ext S ρ m = τ m), h2, mul_assoc, mul_assoc,
        mul_comm (Fintype.card (S → B))]
      exact Nat.mul_le_mul_left _ (Nat.mul_le_mul_right _ (cnt_le _))
    · rw [cnt_false fun f h => hr h.2.2]
      simp
  | ask m next ih =>
    obtain ⟨hc1, hc2⟩ := hc
    obtain ⟨hw1, hw2⟩ := hw
    by_cases hm : m ∈ Z
    · -- the tag is known
      have h := ih (τ m) τ G Z hS hZ _ (hc2 (τ m)) (hw2 (τ m))
      have e1 : cnt (Good K enc τ G Z fun f => acc (Asker.run (fun m => f (arg K f (enc m))) (.ask m next))) =
          cnt (Good K enc τ G Z fun f => acc ((next (τ m)).run fun m => f (arg K f (enc m)))) := by
        refine cnt_congr fun f => and_congr_right fun _ => and_congr_right fun h => ?_
        beta_reduce
        rw [run_ask, h m hm]
      have e2 : cnt (fun ρ : S → B => (∀ m ∈ Z, ext S ρ m = τ m) ∧ acc (Asker.run (ext S ρ) (.ask m next))) =
          cnt fun ρ : S → B => (∀ m ∈ Z, ext S ρ m = τ m) ∧ acc ((next (τ m)).run (ext S ρ)) := by
        refine cnt_congr fun ρ => and_congr_right fun h => ?_
        rw [run_ask, h m hm]
      rw [e1, e2]
      refine h.trans (Nat.add_le_add_left (Nat.mul_le_mul_right _ (Nat.mul_le_mul_right _ ?_)) _)
      exact Nat.choose_le_choose 2 (by omega)
    · have h1 := Nat.mul_le_mul_right (Fintype.card (S → B)) (card_addMsg_good K enc τ hS ht hi m
        fun f => acc (Asker.run (fun m => f (arg K f (enc m))) (.ask m next)))
      rw [add_mul, add_mul] at h1
      set G' := addMsg enc G m with hG'
      have hcard := card_addMsg enc G m
      rw [← hG'] at hcard
      have upd : ∀ t, ∀ m' ∈ Z, update τ m t m' = τ m' := fun t m' hm' =>
        update_of_ne (fun e : m' = m => hm (e ▸ hm')) _ _
      have h2 : ∀ t, _ := fun t => ih t (update τ m t) G' (insert m Z) (state_addMsg enc hS ht hi m)
        (insert_subset hw1 hZ) _ (hc2 t) (hw2 t)
      rw [card_insert_of_notMem hm] at h2
      have e1 : cnt (Good K enc τ G' Z fun f => acc (Asker.run (fun m => f (arg K f (enc m))) (.ask m next))) =
          ∑ t, cnt (Good K enc (update τ m t) G' (insert m Z)
            fun f => acc ((next t).run fun m => f (arg K f (enc m)))) := by
        rw [cnt_split _ fun f => f (arg K f (enc m))]
        refine sum_congr rfl fun t _ => cnt_congr fun f => ?_
        unfold Good
        beta_reduce
        rw [run_ask, forall_mem_insert, update_self]
        constructor
        · rintro ⟨⟨h1, h2, h3⟩, rfl⟩
          exact ⟨h1, ⟨rfl, fun m' hm' => by rw [upd _ m' hm', h2 m' hm']⟩, h3⟩
        · rintro ⟨h1, ⟨rfl, h2⟩, h3⟩
          exact ⟨⟨h1, fun m' hm' => by rw [h2 m' hm', upd _ m' hm'], h3⟩, rfl⟩
      have e2 : cnt (fun ρ : S → B => (∀ m ∈ Z, ext S ρ m = τ m) ∧ acc (Asker.run (ext S ρ) (.ask m next))) =
          ∑ t, cnt fun ρ : S → B => (∀ m' ∈ insert m Z, ext S ρ m' = update τ m t m') ∧ acc ((next t).run (ext S ρ)) := by
        rw [cnt_split _ fun ρ => ext S ρ m]
        refine sum_congr rfl fun t _ => cnt_congr fun ρ => ?_
        rw [run_ask, forall_mem_insert, update_self]
        constructor
        · rintro ⟨⟨h2, h3⟩, rfl⟩
          exact ⟨⟨rfl, fun m' hm' => by rw [upd _ m' hm', h2 m' hm']⟩, h3⟩
        · rintro ⟨⟨rfl, h2⟩, h3⟩
          exact ⟨⟨fun m' hm' => by rw [h2 m' hm', upd _ m' hm'], h3⟩, rfl⟩
      have hN : 0 < Fintype.card B := Fintype.card_pos_iff.mpr ⟨0⟩
      have h3 := sum_le_sum fun t (_ : t ∈ (univ : Finset B)) => h2 t
      simp only [sum_add_distrib, ← sum_mul, ← mul_sum, ← e1, ← e2, sum_const, card_univ, smul_eq_mul] at h3
      have h4 : Fintype.card B ^ (Z.card + 1) *
          cnt (Good K enc τ G' Z fun f => acc (Asker.run (fun m => f (arg K f (enc m))) (.ask m next))) *
          Fintype.card (S → B) + G'.card.choose 2 * Fintype.card (B → B) * Fintype.card (S → B) ≤
          Fintype.card B ^ (Z.card + 1) * cnt (fun ρ : S → B => (∀ m ∈ Z, ext S ρ m = τ m) ∧
            acc (Asker.run (ext S ρ) (.ask m next))) * Fintype.card (B → B) +
          (G'.card + (c - ((enc m).w.length + 1))).choose 2 * Fintype.card (B → B) * Fintype.card (S → B) := by
        refine Nat.le_of_mul_le_mul_left ?_ hN
        rw [pow_succ] at h3
        linarith
      have h5 : (G'.card + (c - ((enc m).w.length + 1))).choose 2 ≤ (G.card + c).choose 2 :=
        Nat.choose_le_choose 2 (by have := hc1; simp only at this; omega)
      have h6 := Nat.mul_le_mul_right (Fintype.card (S → B)) (Nat.mul_le_mul_right (Fintype.card (B → B)) h5)
      omega

/-- The same without tags known before. -/
theorem card_run_start (ht : ∀ m, (enc m).t ≠ none) (hi : Injective enc) (S : Finset M) (acc : R → Prop)
    (D : Asker M B R) (c : ℕ) (hc : D.CostLe (fun m => (enc m).w.length + 1) (fun _ => 0) c) (hw : D.Within (· ∈ S)) :
    Fintype.card B * cnt (fun f : B → B => acc (D.run fun m => f (arg K f (enc m)))) * Fintype.card (S → B) ≤
      Fintype.card B * cnt (fun ρ : S → B => acc (D.run (ext S ρ))) * Fintype.card (B → B) +
        (c + 1).choose 2 * Fintype.card (B → B) * Fintype.card (S → B) := by
  have h := card_run K enc (fun _ => 0) ht hi S acc D {⟨[], 0, none⟩} ∅ ⟨?_, mem_singleton_self _, ?_⟩ (empty_subset S) c hc hw
  · have e1 : cnt (Good K enc (fun _ => 0) {⟨[], 0, none⟩} ∅ fun f => acc (D.run fun m => f (arg K f (enc m)))) =
        cnt fun f : B → B => acc (D.run fun m => f (arg K f (enc m))) :=
      cnt_congr fun f => ⟨fun h => h.2.2, fun h => ⟨by simp, by simp, h⟩⟩
    have e2 : cnt (fun ρ : S → B => (∀ m ∈ (∅ : Finset M), ext S ρ m = 0) ∧ acc (D.run (ext S ρ))) =
        cnt fun ρ : S → B => acc (D.run (ext S ρ)) := cnt_congr fun ρ => by simp
    rw [e1, e2] at h
    simpa [add_comm 1 c] using h
  · intro p hp a ha
    rw [mem_coe, mem_singleton] at hp
    subst hp
    rcases ha.2 with h | h
    · simp at h
    · exact absurd rfl h.1
  · intro m
    rw [mem_singleton]
    exact ⟨fun e => absurd (congrArg Pt.t e) (ht m), fun h => absurd h (notMem_empty m)⟩

end Cryptopy.Prf
