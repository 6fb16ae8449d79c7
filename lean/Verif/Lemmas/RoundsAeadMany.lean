import Verif.Lemmas.RoundsAead
import Verif.Props.ChaChaMany
import Verif.Props.AeadMany

/-!
What the AEAD of `chacha_poly.py` uses of the block functions of many owners, for somebody who asks for blocks and for the
rounds: used for C189.
-/

namespace Cryptopy.Core
open Model (ChaCha Aead)
open Spec (Str State Word Asker AeadAsk AeadAnswer)
open Prf (cnt cnt_congr)
open Cpoly (Table Place look blocks)

/-- A table of blocks for each owner and a permutation. -/
abbrev Worlds (u : ℕ) : Type := (Fin u → Table) × Equiv.Perm State

variable {u : ℕ}

/-- The answers for tables and a permutation. -/
def ansMany (w : Worlds u) : ManyAsk u → State ⊕ Py Bytes :=
  manyAnswers [] (fun _ => List.replicate 32 0) w.2 fun i => look (w.1 i)

/-- What is computed, provided that the tables and the permutation have some property, with at most `p` questions for the
rounds and `b` questions for blocks. -/
def NeedsMany {X : Type} (P : Worlds u → Prop) (p b : ℕ) (E : Worlds u → X) : Prop :=
  ∃ T : Asker (ManyAsk u) (State ⊕ Py Bytes) X, T.CostLe ManyAsk.isRounds (fun _ => 0) p ∧
    T.CostLe ManyAsk.isBlock (fun _ => 0) b ∧ ∀ w, P w → T.run (ansMany w) = E w

section
variable {X Y : Type} {P : Worlds u → Prop} {p p' b b' : ℕ}

theorem NeedsMany.congr {E E' : Worlds u → X} (h : NeedsMany P p b E) (h' : ∀ w, P w → E w = E' w) : NeedsMany P p b E' := by
  obtain ⟨T, h1, h2, h3⟩ := h
  exact ⟨T, h1, h2, fun w hw => (h3 w hw).trans (h' w hw)⟩

theorem NeedsMany.const (x : X) : NeedsMany P p b fun _ => x := ⟨.done x, Nat.zero_le _, Nat.zero_le _, fun _ _ => rfl⟩

theorem NeedsMany.bind {E : Worlds u → X} {E' : X → Worlds u → Y} (h : NeedsMany P p b E)
    (h' : ∀ x, NeedsMany (fun w => P w ∧ E w = x) p' b' (E' x)) : NeedsMany P (p + p') (b + b') fun w => E' (E w) w := by
  obtain ⟨T, h1, h2, h3⟩ := h
  choose k hk1 hk2 hk3 using h'
  refine ⟨andThen T k, andThen_cost _ T k h1 hk1, andThen_cost _ T k h2 hk2, fun w hw => ?_⟩
  rw [andThen_run, h3 w hw]
  exact hk3 _ w ⟨hw, rfl⟩

theorem NeedsMany.map {E : Worlds u → X} (h : NeedsMany P p b E) (φ : X → Y) : NeedsMany P p b fun w => φ (E w) :=
  NeedsMany.bind (p' := 0) (b' := 0) (E' := fun x _ => φ x) h fun x => NeedsMany.const (φ x)

theorem NeedsMany.rounds (s : State) : NeedsMany P 1 0 fun w => w.2 s :=
  ⟨.ask (.rounds s) fun a => .done (a.elim id fun _ => s), ⟨le_refl 1, fun _ => Nat.zero_le _⟩,
    ⟨Nat.zero_le _, fun _ => Nat.zero_le _⟩, fun _ _ => rfl⟩

theorem NeedsMany.back (s : State) : NeedsMany P 1 0 fun w => w.2.symm s :=
  ⟨.ask (.back s) fun a => .done (a.elim id fun _ => s), ⟨le_refl 1, fun _ => Nat.zero_le _⟩,
    ⟨Nat.zero_le _, fun _ => Nat.zero_le _⟩, fun _ _ => rfl⟩

/-- The questions of somebody who asks one owner. -/
def toOwner (i : Fin u) : CoreAsk → ManyAsk u
  | .rounds s => .rounds s
  | .back s => .back s
  | .block n c => .block i n c

/-- The strategy of somebody who asks one owner. -/
def asOwner (i : Fin u) : Asker CoreAsk (State ⊕ Py Bytes) X → Asker (ManyAsk u) (State ⊕ Py Bytes) X
  | .done x => .done x
  | .ask m next => .ask (toOwner i m) fun a => asOwner i (next a)

theorem asOwner_run (i : Fin u) (T : Asker CoreAsk (State ⊕ Py Bytes) X) (w : Worlds u) :
    (asOwner i T).run (ansMany w) = T.run (ans (w.1 i, w.2)) := by
  induction T with
  | done x => rfl
  | ask m next ih =>
    have e : ansMany w (toOwner i m) = ans (w.1 i, w.2) m := by cases m <;> rfl
    rw [asOwner, Asker.run, Asker.run, e]
    exact ih _

theorem asOwner_rounds (i : Fin u) (T : Asker CoreAsk (State ⊕ Py Bytes) X) (h : T.CostLe CoreAsk.isRounds (fun _ => 0) p) :
    (asOwner i T).CostLe ManyAsk.isRounds (fun _ => 0) p := by
  induction T generalizing p with
  | done x => exact h
  | ask m next ih =>
    have e : ManyAsk.isRounds (toOwner i m) = m.isRounds := by cases m <;> rfl
    exact ⟨e ▸ h.1, fun t => e ▸ ih _ (h.2 _)⟩

theorem asOwner_block (i : Fin u) (T : Asker CoreAsk (State ⊕ Py Bytes) X) (h : T.CostLe CoreAsk.isBlock (fun _ => 0) b) :
    (asOwner i T).CostLe ManyAsk.isBlock (fun _ => 0) b := by
  induction T generalizing b with
  | done x => exact h
  | ask m next ih =>
    have e : ManyAsk.isBlock (toOwner i m) = m.isBlock := by cases m <;> rfl
    exact ⟨e ▸ h.1, fun t => e ▸ ih _ (h.2 _)⟩

/-- What is computed with the blocks of one owner. -/
theorem Needs.asOwner (i : Fin u) {E : World → X} (h : Needs (fun _ => True) p b E) :
    NeedsMany P p b fun w => E (w.1 i, w.2) := by
  obtain ⟨T, h1, h2, h3⟩ := h
  exact ⟨Core.asOwner i T, asOwner_rounds i T h1, asOwner_block i T h2, fun w _ => by rw [asOwner_run, h3 _ trivial]⟩

end

/-- The tables of the blocks for keys. -/
noncomputable def tablesOf (k : Fin u → Str 32) (π : Equiv.Perm State) : Fin u → Table := fun i => tableOf (k i) π

/-- C187 for what is computed. -/
theorem NeedsMany.game {E : Worlds u → Prop} {p b : ℕ} (h : NeedsMany (fun _ => True) p b E) :
    |(Nat.card {w : (Fin u → Str 32) × Equiv.Perm State // E (tablesOf w.1 w.2, w.2)} : ℚ) /
        Nat.card ((Fin u → Str 32) × Equiv.Perm State) -
      (Nat.card {w : Worlds u // E w} : ℚ) / Nat.card (Worlds u)| ≤
      2 * p * b / 2 ^ 256 + b * (b - 1) / 2 ^ 513 + u * (u - 1) / 2 ^ 257 := by
  obtain ⟨T, h1, h2, h3⟩ := h
  have h := C187_random_functions [] (fun _ : Fin u => ⟨List.replicate 32 0, by simp⟩) (fun r => r) T p b h1 h2
  have e1 (w : (Fin u → Str 32) × Equiv.Perm State) :
      manyAnswers [] (fun i => (w.1 i).1) w.2 (fun _ => ChaCha.blockWith (asRounds w.2)) = ansMany (tablesOf w.1 w.2, w.2) := by
    rw [many_real, ansMany, many_ideal [] (fun _ : Fin u => ⟨List.replicate 32 0, by simp⟩)]
    funext m
    congr 1
    cases m with
    | rounds s => rfl
    | back s => rfl
    | block i n c =>
      simp only [toQueryMany, PermGame.real, PermGame.ideal, tablesOf, tableOf, startMany, Equiv.symm_apply_apply]
  have e2 : (Nat.card {w : Worlds u // T.run (manyAnswers [] (fun _ => List.replicate 32 0) w.2 fun i => look (w.1 i))} : ℚ) =
      Nat.card {w : Worlds u // E w} := by
    congr 1
    exact cnt_congr fun w => by rw [← h3 w trivial]; rfl
  have e3 : Nat.card {w : (Fin u → Str 32) × Equiv.Perm State //
        T.run (manyAnswers [] (fun i => (w.1 i).1) w.2 fun _ => ChaCha.blockWith (asRounds w.2))} =
      Nat.card {w : (Fin u → Str 32) × Equiv.Perm State // E (tablesOf w.1 w.2, w.2)} :=
    cnt_congr fun w => by rw [e1, h3 _ trivial]
  rw [e2, e3] at h
  exact h

end Cryptopy.Core
