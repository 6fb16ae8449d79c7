import Verif.Lemmas.PrfGame

/-!
A random function applied at a place that depends on other values of it can not be told from a random function on the
queries: used for C163.
-/

namespace Cryptopy.Prf
open Finset Function Spec

variable {B : Type} [Fintype B] [DecidableEq B] [AddCommGroup B] {M V R : Type} [DecidableEq M] [DecidableEq V]

/-- A place for every query, which depends on the values at `z` and at the messages `hs v`, and which is rarely the same
for two queries or equal to a message given before. -/
structure Places (B : Type) [Fintype B] [AddCommGroup B] [DecidableEq M] (S : Finset M) (Sv : Finset V) where
  /-- the place -/
  loc : (M → B) → V → M
  /-- the message every place depends on -/
  z : M
  /-- the other messages -/
  hs : V → Finset M
  local_ : ∀ F F' v, (∀ m ∈ insert z (hs v), F m = F' m) → loc F v = loc F' v
  inS : ∀ F, ∀ v ∈ Sv, loc F v ∈ S
  pair : ∀ v ∈ Sv, ∀ v' ∈ Sv, v ≠ v' →
    Fintype.card B * cnt (fun ρ : S → B => loc (ext S ρ) v = loc (ext S ρ) v') ≤ Fintype.card (S → B)
  hit : ∀ v ∈ Sv, ∀ m, Fintype.card B * cnt (fun ρ : S → B => loc (ext S ρ) v = m) ≤ Fintype.card (S → B)

variable {S : Finset M} {Sv : Finset V} (L : Places B S Sv) (τ : V → B)

omit [Fintype B] [DecidableEq B] in
theorem ext_update (ρ : S → B) (x : S) (y : B) : ext S (update ρ x y) = update (ext S ρ) x.1 y := by
  funext m
  by_cases hm : m = x.1
  · subst hm
    rw [update_self, ext, dif_pos x.2, update_self]
  · rw [update_of_ne hm, ext, ext]
    split
    · next h => rw [update_of_ne fun e => hm (congrArg Subtype.val e)]
    · rfl

/-- The places of the queries in `W` differ and are not in `Bs`. -/
def Apart (Bs : Finset M) (W : Finset V) (ρ : S → B) : Prop :=
  Set.InjOn (L.loc (ext S ρ)) W ∧ ∀ v ∈ W, L.loc (ext S ρ) v ∉ Bs

/-- This depends only on the values in `Bs`. -/
def OnlyOn (S : Finset M) (Bs : Finset M) (Q : (S → B) → Prop) : Prop :=
  ∀ ρ ρ' : S → B, (∀ m ∈ Bs, ext S ρ m = ext S ρ' m) → Q ρ → Q ρ'

omit [DecidableEq B] [DecidableEq V] in
theorem loc_congr {Bs : Finset M} {v : V} (hv : insert L.z (L.hs v) ⊆ Bs) {ρ ρ' : S → B}
    (h : ∀ m ∈ Bs, ext S ρ m = ext S ρ' m) : L.loc (ext S ρ) v = L.loc (ext S ρ') v :=
  L.local_ _ _ v fun m hm => h m (hv hm)

omit [DecidableEq B] [DecidableEq V] in
theorem apart_only {Bs : Finset M} {W : Finset V} (hW : ∀ v ∈ W, insert L.z (L.hs v) ⊆ Bs) : OnlyOn S Bs (Apart L Bs W) := by
  rintro ρ ρ' h ⟨h1, h2⟩
  refine ⟨fun v hv v' hv' e => h1 hv hv' ?_, fun v hv => ?_⟩
  · rw [loc_congr L (hW v hv) h, loc_congr L (hW v' hv') h, e]
  · rw [← loc_congr L (hW v hv) h]
    exact h2 v hv

omit [DecidableEq B] in
/-- The answers are independent of everything that depends only on the values in `Bs`, as long as the places differ and are
not in `Bs`. -/
theorem card_answers {Bs : Finset M} {W : Finset V} (hW : ∀ v ∈ W, insert L.z (L.hs v) ⊆ Bs) (hWS : W ⊆ Sv)
    (Q : (S → B) → Prop) (hQ : OnlyOn S Bs Q) (Z : Finset V) (hZ : Z ⊆ W) :
    Fintype.card B ^ Z.card * cnt (fun ρ : S → B => (Apart L Bs W ρ ∧ Q ρ) ∧
      ∀ v ∈ Z, ext S ρ (L.loc (ext S ρ) v) = τ v) = cnt fun ρ : S → B => Apart L Bs W ρ ∧ Q ρ := by
  induction Z using Finset.induction_on with
  | empty => simp
  | insert v Z hv ih =>
    have ih := ih fun v hv => hZ (mem_insert_of_mem hv)
    have hvW : v ∈ W := hZ (mem_insert_self v Z)
    have hvS := hWS hvW
    have key := card_resample (fun ρ : S → B => (Apart L Bs W ρ ∧ Q ρ) ∧ ∀ v ∈ Z, ext S ρ (L.loc (ext S ρ) v) = τ v)
      (fun ρ => ⟨L.loc (ext S ρ) v, L.inS _ v hvS⟩) (fun _ => τ v) (by
        rintro ρ ⟨⟨hA, hq⟩, hT⟩ y
        have agree : ∀ m ∈ Bs, ext S ρ m = ext S (update ρ ⟨L.loc (ext S ρ) v, L.inS _ v hvS⟩ y) m := by
          intro m hm
          rw [ext_update, update_of_ne]
          rintro rfl
          exact hA.2 v hvW hm
        have same : ∀ v' ∈ W, L.loc (ext S (update ρ ⟨L.loc (ext S ρ) v, L.inS _ v hvS⟩ y)) v' = L.loc (ext S ρ) v' :=
          fun v' hv' => (loc_congr L (hW v' hv') agree).symm
        refine ⟨⟨⟨apart_only L hW ρ _ agree hA, hQ ρ _ agree hq⟩, fun v' hv' => ?_⟩, Subtype.ext (same v hvW), rfl⟩
        have hv'W := hZ (mem_insert_of_mem hv')
        rw [same v' hv'W, ext_update, update_of_ne, hT v' hv']
        intro e
        have := hA.1 hv'W hvW e
        exact hv (this ▸ hv'))
    rw [card_insert_of_notMem hv, pow_succ, mul_assoc, ← ih, ← key]
    congr 2
    refine cnt_congr fun ρ => ?_
    rw [forall_mem_insert]
    have e : ext S ρ (L.loc (ext S ρ) v) = ρ ⟨L.loc (ext S ρ) v, L.inS _ v hvS⟩ := by rw [ext, dif_pos]
    rw [e]
    tauto

/-- The places of the queries in `W` differ and are not in `Bs`, those in `Z` have these answers, and `A` holds. -/
def Fine (Bs : Finset M) (W Z : Finset V) (A : (S → B) → Prop) (ρ : S → B) : Prop :=
  Apart L Bs W ρ ∧ (∀ v ∈ Z, ext S ρ (L.loc (ext S ρ) v) = τ v) ∧ A ρ

omit [DecidableEq B] in
theorem card_rare {Bs : Finset M} {W : Finset V} (hW : ∀ v ∈ W, insert L.z (L.hs v) ⊆ Bs) (hWS : W ⊆ Sv)
    (Q : (S → B) → Prop) (hQ : OnlyOn S Bs Q) (hr : Fintype.card B * cnt Q ≤ Fintype.card (S → B)) (Z : Finset V)
    (hZ : Z ⊆ W) : Fintype.card B ^ (Z.card + 1) * cnt (Fine L τ Bs W Z Q) ≤ Fintype.card (S → B) := by
  have h1 := card_answers L τ hW hWS Q hQ Z hZ
  have h3 : cnt (Fine L τ Bs W Z Q) = cnt fun ρ : S → B => (Apart L Bs W ρ ∧ Q ρ) ∧
      ∀ v ∈ Z, ext S ρ (L.loc (ext S ρ) v) = τ v := cnt_congr fun f => by unfold Fine; tauto
  rw [h3, pow_succ, mul_comm (Fintype.card B ^ _), mul_assoc, h1]
  exact le_trans (Nat.mul_le_mul_left _ (cnt_mono fun ρ h => h.2)) hr

theorem choose_step (n : ℕ) : (n + 1).choose 2 = n + n.choose 2 := by
  rw [Nat.choose_succ_succ' n 1, Nat.choose_one_right]

omit [DecidableEq B] in
/-- One more message. -/
theorem card_base {Bs : Finset M} {Z : Finset V} (hW : ∀ v ∈ Z, insert L.z (L.hs v) ⊆ Bs) (hWS : Z ⊆ Sv) (h : M)
    (A : (S → B) → Prop) :
    Fintype.card B ^ (Z.card + 1) * cnt (Fine L τ Bs Z Z A) + (Bs.card + Z.card).choose 2 * Fintype.card (S → B) ≤
      Fintype.card B ^ (Z.card + 1) * cnt (Fine L τ (insert h Bs) Z Z A) +
        ((insert h Bs).card + Z.card).choose 2 * Fintype.card (S → B) := by
  by_cases hh : h ∈ Bs
  · rw [insert_eq_of_mem hh]
  · have h1 : cnt (Fine L τ Bs Z Z A) ≤ cnt (Fine L τ (insert h Bs) Z Z A) +
        cnt fun ρ => ∃ v ∈ Z, Fine L τ Bs Z Z (fun ρ => L.loc (ext S ρ) v = h) ρ := by
      refine (cnt_mono ?_).trans (cnt_or _ _)
      rintro ρ ⟨h1, h2, h3⟩
      by_cases hv : ∃ v ∈ Z, L.loc (ext S ρ) v = h
      · obtain ⟨v, hv, e⟩ := hv
        exact Or.inr ⟨v, hv, h1, h2, e⟩
      · refine Or.inl ⟨⟨h1.1, fun v hvZ => ?_⟩, h2, h3⟩
        rw [mem_insert, not_or]
        exact ⟨fun e => hv ⟨v, hvZ, e⟩, h1.2 v hvZ⟩
    have h2 : Fintype.card B ^ (Z.card + 1) *
        cnt (fun ρ => ∃ v ∈ Z, Fine L τ Bs Z Z (fun ρ => L.loc (ext S ρ) v = h) ρ) ≤ Z.card * Fintype.card (S → B) := by
      refine (Nat.mul_le_mul_left _ (cnt_exists _ _)).trans ?_
      rw [mul_sum]
      refine (sum_le_sum fun v hv => card_rare L τ hW hWS (fun ρ => L.loc (ext S ρ) v = h) ?_ (L.hit v (hWS hv) h) Z
        subset_rfl).trans ?_
      · intro ρ ρ' agree e
        rw [← loc_congr L (hW v hv) agree, e]
      · rw [sum_const, smul_eq_mul]
    have h3 := Nat.mul_le_mul_left (Fintype.card B ^ (Z.card + 1)) h1
    rw [mul_add] at h3
    rw [card_insert_of_notMem hh, show Bs.card + 1 + Z.card = Bs.card + Z.card + 1 by omega, choose_step, add_mul]
    have h4 : Z.card * Fintype.card (S → B) ≤ (Bs.card + Z.card) * Fintype.card (S → B) :=
      Nat.mul_le_mul_right _ (Nat.le_add_left _ _)
    omega

omit [DecidableEq B] in
theorem card_bases {Bs : Finset M} {Z : Finset V} (hW : ∀ v ∈ Z, insert L.z (L.hs v) ⊆ Bs) (hWS : Z ⊆ Sv) (H : Finset M)
    (A : (S → B) → Prop) :
    Fintype.card B ^ (Z.card + 1) * cnt (Fine L τ Bs Z Z A) + (Bs.card + Z.card).choose 2 * Fintype.card (S → B) ≤
      Fintype.card B ^ (Z.card + 1) * cnt (Fine L τ (H ∪ Bs) Z Z A) +
        ((H ∪ Bs).card + Z.card).choose 2 * Fintype.card (S → B) := by
  induction H using Finset.induction_on with
  | empty => rw [empty_union]
  | insert h H hh ih =>
    rw [insert_union]
    exact ih.trans (card_base L τ (fun v hv => (hW v hv).trans subset_union_right) hWS h A)

omit [DecidableEq B] in
/-- One more query. -/
theorem card_query {Bs : Finset M} {Z : Finset V} (hW : ∀ v ∈ Z, insert L.z (L.hs v) ⊆ Bs) (hWS : Z ⊆ Sv) (v : V)
    (hv : v ∉ Z) (hvS : v ∈ Sv) (hvB : insert L.z (L.hs v) ⊆ Bs) (A : (S → B) → Prop) :
    Fintype.card B ^ (Z.card + 1) * cnt (Fine L τ Bs Z Z A) + (Bs.card + Z.card).choose 2 * Fintype.card (S → B) ≤
      Fintype.card B ^ (Z.card + 1) * cnt (Fine L τ Bs (insert v Z) Z A) +
        (Bs.card + Z.card + 1).choose 2 * Fintype.card (S → B) := by
  have h1 : cnt (Fine L τ Bs Z Z A) ≤ cnt (Fine L τ Bs (insert v Z) Z A) +
      (cnt (fun ρ => ∃ m ∈ Bs, Fine L τ Bs Z Z (fun ρ => L.loc (ext S ρ) v = m) ρ) +
        cnt fun ρ => ∃ v' ∈ Z, Fine L τ Bs Z Z (fun ρ => L.loc (ext S ρ) v = L.loc (ext S ρ) v') ρ) := by
    refine (cnt_mono ?_).trans ((cnt_or _ _).trans (Nat.add_le_add_left (cnt_or _ _) _))
    rintro ρ ⟨h1, h2, h3⟩
    by_cases hm : L.loc (ext S ρ) v ∈ Bs
    · exact Or.inr (Or.inl ⟨_, hm, h1, h2, rfl⟩)
    · by_cases hp : ∃ v' ∈ Z, L.loc (ext S ρ) v = L.loc (ext S ρ) v'
      · obtain ⟨v', hv', e⟩ := hp
        exact Or.inr (Or.inr ⟨v', hv', h1, h2, e⟩)
      · refine Or.inl ⟨⟨?_, ?_⟩, h2, h3⟩
        · rw [coe_insert, Set.injOn_insert (by simpa using hv)]
          refine ⟨h1.1, ?_⟩
          rintro ⟨v', hv', e⟩
          exact hp ⟨v', hv', e.symm⟩
        · rw [forall_mem_insert]
          exact ⟨hm, h1.2⟩
  have h2 : Fintype.card B ^ (Z.card + 1) *
      cnt (fun ρ => ∃ m ∈ Bs, Fine L τ Bs Z Z (fun ρ => L.loc (ext S ρ) v = m) ρ) ≤ Bs.card * Fintype.card (S → B) := by
    refine (Nat.mul_le_mul_left _ (cnt_exists _ _)).trans ?_
    rw [mul_sum]
    refine (sum_le_sum fun m _ => card_rare L τ hW hWS (fun ρ => L.loc (ext S ρ) v = m) ?_ (L.hit v hvS m) Z
      subset_rfl).trans ?_
    · intro ρ ρ' agree e
      rw [← loc_congr L hvB agree, e]
    · rw [sum_const, smul_eq_mul]
  have h2' : Fintype.card B ^ (Z.card + 1) *
      cnt (fun ρ => ∃ v' ∈ Z, Fine L τ Bs Z Z (fun ρ => L.loc (ext S ρ) v = L.loc (ext S ρ) v') ρ) ≤
        Z.card * Fintype.card (S → B) := by
    refine (Nat.mul_le_mul_left _ (cnt_exists _ _)).trans ?_
    rw [mul_sum]
    refine (sum_le_sum fun v' hv' => card_rare L τ hW hWS (fun ρ => L.loc (ext S ρ) v = L.loc (ext S ρ) v') ?_
      (L.pair v hvS v' (hWS hv') ?_) Z subset_rfl).trans ?_
    · intro ρ ρ' agree e
      rw [← loc_congr L hvB agree, e, loc_congr L (hW v' hv') agree]
    · rintro rfl
      exact hv hv'
    · rw [sum_const, smul_eq_mul]
  have h3 := Nat.mul_le_mul_left (Fintype.card B ^ (Z.card + 1)) h1
  rw [mul_add, mul_add] at h3
  rw [choose_step, add_mul, add_mul]
  omega

omit [DecidableEq B] in
/-- Whoever asks: what they do with the function at the places they do almost as often with a random function. -/
theorem card_ask (acc : R → Prop) (D : Asker V B R) (Bs : Finset M) (Z : Finset V) (hz : L.z ∈ Bs)
    (hW : ∀ v ∈ Z, insert L.z (L.hs v) ⊆ Bs) (hWS : Z ⊆ Sv) (c : ℕ)
    (hc : D.CostLe (fun v => (L.hs v).card + 1) (fun _ => 0) c) (hw : D.Within (· ∈ Sv)) :
    Fintype.card B ^ (Z.card + 1) *
        cnt (Fine L τ Bs Z Z fun ρ => acc (D.run fun v => ext S ρ (L.loc (ext S ρ) v))) * Fintype.card (Sv → B) +
        (Bs.card + Z.card).choose 2 * Fintype.card (S → B) * Fintype.card (Sv → B) ≤
      Fintype.card B ^ (Z.card + 1) * cnt (fun σ : Sv → B => (∀ v ∈ Z, ext Sv σ v = τ v) ∧ acc (D.run (ext Sv σ))) *
        Fintype.card (S → B) + (Bs.card + Z.card + c).choose 2 * Fintype.card (S → B) * Fintype.card (Sv → B) := by
  induction D generalizing Bs Z τ c with
  | done r =>
    have hmono : (Bs.card + Z.card).choose 2 ≤ (Bs.card + Z.card + c).choose 2 :=
      Nat.choose_le_choose 2 (Nat.le_add_right _ _)
    refine Nat.add_le_add ?_ (Nat.mul_le_mul_right _ (Nat.mul_le_mul_right _ hmono))
    by_cases hr : acc r
    · have h1 := card_answers L τ hW hWS (fun _ => True) (fun _ _ _ _ => trivial) Z subset_rfl
      have h2 := card_ext τ Sv Z hWS
      have e1 : cnt (Fine L τ Bs Z Z fun ρ => acc (Asker.run (fun v => ext S ρ (L.loc (ext S ρ) v)) (.done r))) =
          cnt fun ρ : S → B => (Apart L Bs Z ρ ∧ True) ∧ ∀ v ∈ Z, ext S ρ (L.loc (ext S ρ) v) = τ v :=
        cnt_congr fun f => ⟨fun h => ⟨⟨h.1, trivial⟩, h.2.1⟩, fun h => ⟨h.1.1, h.2, hr⟩⟩
      have e2 : cnt (fun σ : Sv → B => (∀ v ∈ Z, ext Sv σ v = τ v) ∧ acc (Asker.run (ext Sv σ) (.done r))) =
          cnt fun σ : Sv → B => ∀ v ∈ Z, ext Sv σ v = τ v := cnt_congr fun σ => ⟨fun h => h.1, fun h => ⟨h, hr⟩⟩
      rw [e1, e2, pow_succ, mul_comm (_ ^ _), mul_assoc (Fintype.card B), h1,
        mul_assoc (Fintype.card B) _ (cnt fun σ : Sv → B => ∀ v ∈ Z, ext Sv σ v = τ v), h2, mul_assoc, mul_assoc,
        mul_comm (Fintype.card (Sv → B))]
      exact Nat.mul_le_mul_left _ (Nat.mul_le_mul_right _ (cnt_le _))
    · rw [cnt_false fun f h => hr h.2.2]
      simp
  | ask v next ih =>
    obtain ⟨hc1, hc2⟩ := hc
    obtain ⟨hw1, hw2⟩ := hw
    by_cases hv : v ∈ Z
    · have h := ih (τ v) τ Bs Z hz hW hWS _ (hc2 (τ v)) (hw2 (τ v))
      have e1 : cnt (Fine L τ Bs Z Z fun ρ => acc (Asker.run (fun v => ext S ρ (L.loc (ext S ρ) v)) (.ask v next))) =
          cnt (Fine L τ Bs Z Z fun ρ => acc ((next (τ v)).run fun v => ext S ρ (L.loc (ext S ρ) v))) := by
        refine cnt_congr fun ρ => and_congr_right fun _ => and_congr_right fun h => ?_
        beta_reduce
        rw [run_ask, h v hv]
      have e2 : cnt (fun σ : Sv → B => (∀ v ∈ Z, ext Sv σ v = τ v) ∧ acc (Asker.run (ext Sv σ) (.ask v next))) =
          cnt fun σ : Sv → B => (∀ v ∈ Z, ext Sv σ v = τ v) ∧ acc ((next (τ v)).run (ext Sv σ)) := by
        refine cnt_congr fun σ => and_congr_right fun h => ?_
        rw [run_ask, h v hv]
      rw [e1, e2]
      refine h.trans (Nat.add_le_add_left (Nat.mul_le_mul_right _ (Nat.mul_le_mul_right _ ?_)) _)
      exact Nat.choose_le_choose 2 (by omega)
    · set Bs' := L.hs v ∪ Bs with hBs'
      have hW' : ∀ v' ∈ Z, insert L.z (L.hs v') ⊆ Bs' := fun v' hv' => (hW v' hv').trans subset_union_right
      have hvB : insert L.z (L.hs v) ⊆ Bs' := insert_subset (mem_union_right _ hz) subset_union_left
      have h1 := Nat.mul_le_mul_right (Fintype.card (Sv → B)) ((card_bases L τ hW hWS (L.hs v)
        fun ρ => acc (Asker.run (fun v => ext S ρ (L.loc (ext S ρ) v)) (.ask v next))).trans
        (card_query L τ hW' hWS v hv hw1 hvB _))
      rw [add_mul, add_mul] at h1
      have hcard : Bs'.card ≤ (L.hs v).card + Bs.card := card_union_le _ _
      have upd : ∀ t, ∀ v' ∈ Z, update τ v t v' = τ v' := fun t v' hv' =>
        update_of_ne (fun e : v' = v => hv (e ▸ hv')) _ _
      have h2 : ∀ t, _ := fun t => ih t (update τ v t) Bs' (insert v Z) (mem_union_right _ hz)
        (forall_mem_insert _ _ _ |>.mpr ⟨hvB, hW'⟩) (insert_subset hw1 hWS) _ (hc2 t) (hw2 t)
      rw [card_insert_of_notMem hv] at h2
      have e1 : cnt (Fine L τ Bs' (insert v Z) Z
            fun ρ => acc (Asker.run (fun v => ext S ρ (L.loc (ext S ρ) v)) (.ask v next))) =
          ∑ t, cnt (Fine L (update τ v t) Bs' (insert v Z) (insert v Z)
            fun ρ => acc ((next t).run fun v => ext S ρ (L.loc (ext S ρ) v))) := by
        rw [cnt_split _ fun ρ => ext S ρ (L.loc (ext S ρ) v)]
        refine sum_congr rfl fun t _ => cnt_congr fun ρ => ?_
        unfold Fine
        beta_reduce
        rw [run_ask, forall_mem_insert, update_self]
        constructor
        · rintro ⟨⟨h1, h2, h3⟩, rfl⟩
          exact ⟨h1, ⟨rfl, fun v' hv' => by rw [upd _ v' hv', h2 v' hv']⟩, h3⟩
        · rintro ⟨h1, ⟨rfl, h2⟩, h3⟩
          exact ⟨⟨h1, fun v' hv' => by rw [h2 v' hv', upd _ v' hv'], h3⟩, rfl⟩
      have e2 : cnt (fun σ : Sv → B => (∀ v ∈ Z, ext Sv σ v = τ v) ∧ acc (Asker.run (ext Sv σ) (.ask v next))) =
          ∑ t, cnt fun σ : Sv → B => (∀ v' ∈ insert v Z, ext Sv σ v' = update τ v t v') ∧
            acc ((next t).run (ext Sv σ)) := by
        rw [cnt_split _ fun σ => ext Sv σ v]
        refine sum_congr rfl fun t _ => cnt_congr fun σ => ?_
        rw [run_ask, forall_mem_insert, update_self]
        constructor
        · rintro ⟨⟨h2, h3⟩, rfl⟩
          exact ⟨⟨rfl, fun v' hv' => by rw [upd _ v' hv', h2 v' hv']⟩, h3⟩
        · rintro ⟨⟨rfl, h2⟩, h3⟩
          exact ⟨⟨fun v' hv' => by rw [h2 v' hv', upd _ v' hv'], h3⟩, rfl⟩
      have hN : 0 < Fintype.card B := Fintype.card_pos_iff.mpr ⟨0⟩
      have h3 := sum_le_sum fun t (_ : t ∈ (univ : Finset B)) => h2 t
      simp only [sum_add_distrib, ← sum_mul, ← mul_sum, ← e1, ← e2, sum_const, card_univ, smul_eq_mul] at h3
      have h4 : Fintype.card B ^ (Z.card + 1) * cnt (Fine L τ Bs' (insert v Z) Z
            fun ρ => acc (Asker.run (fun v => ext S ρ (L.loc (ext S ρ) v)) (.ask v next))) * Fintype.card (Sv → B) +
          (Bs'.card + (Z.card + 1)).choose 2 * Fintype.card (S → B) * Fintype.card (Sv → B) ≤
          Fintype.card B ^ (Z.card + 1) * cnt (fun σ : Sv → B => (∀ v ∈ Z, ext Sv σ v = τ v) ∧
            acc (Asker.run (ext Sv σ) (.ask v next))) * Fintype.card (S → B) +
          (Bs'.card + (Z.card + 1) + (c - ((L.hs v).card + 1))).choose 2 * Fintype.card (S → B) *
            Fintype.card (Sv → B) := by
        refine Nat.le_of_mul_le_mul_left ?_ hN
        rw [pow_succ] at h3
        linarith
      have h5 : (Bs'.card + (Z.card + 1) + (c - ((L.hs v).card + 1))).choose 2 ≤ (Bs.card + Z.card + c).choose 2 :=
        Nat.choose_le_choose 2 (by have := hc1; simp only at this; omega)
      have h6 := Nat.mul_le_mul_right (Fintype.card (Sv → B)) (Nat.mul_le_mul_right (Fintype.card (S → B)) h5)
      rw [← add_assoc] at h4 h6
      omega

omit [DecidableEq B] in
/-- The same without answers known before. -/
theorem card_ask_start (acc : R → Prop) (D : Asker V B R) (c : ℕ)
    (hc : D.CostLe (fun v => (L.hs v).card + 1) (fun _ => 0) c) (hw : D.Within (· ∈ Sv)) :
    Fintype.card B * cnt (fun ρ : S → B => acc (D.run fun v => ext S ρ (L.loc (ext S ρ) v))) * Fintype.card (Sv → B) ≤
      Fintype.card B * cnt (fun σ : Sv → B => acc (D.run (ext Sv σ))) * Fintype.card (S → B) +
        (c + 1).choose 2 * Fintype.card (S → B) * Fintype.card (Sv → B) := by
  have h := card_ask L (fun _ => 0) acc D {L.z} ∅ (mem_singleton_self _) (by simp) (empty_subset _) c hc hw
  have e1 : cnt (Fine L (fun _ => 0) {L.z} ∅ ∅ fun ρ => acc (D.run fun v => ext S ρ (L.loc (ext S ρ) v))) =
      cnt fun ρ : S → B => acc (D.run fun v => ext S ρ (L.loc (ext S ρ) v)) :=
    cnt_congr fun f => ⟨fun h => h.2.2, fun h => ⟨⟨by simp, by simp⟩, by simp, h⟩⟩
  have e2 : cnt (fun σ : Sv → B => (∀ v ∈ (∅ : Finset V), ext Sv σ v = 0) ∧ acc (D.run (ext Sv σ))) =
      cnt fun σ : Sv → B => acc (D.run (ext Sv σ)) := cnt_congr fun σ => by simp
  rw [e1, e2] at h
  simpa [add_comm 1 c] using h

end Cryptopy.Prf
