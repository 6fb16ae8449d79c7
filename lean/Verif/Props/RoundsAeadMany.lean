import Verif.Lemmas.RoundsAeadMany
import Verif.Props.RoundsAead

/-!
C189: the AEAD of `chacha_poly.py` for many owners of keys, with a random permutation in place of the rounds of ChaCha20.
-/

namespace Cryptopy
open Model (ChaCha Aead)
open Spec (Str State Asker AeadAsk AeadAnswer OwnersAsker FreshEach chanceEach ForgesEach)
open Prf (cnt cnt_congr)
open Cpoly (Table look)

/-- Somebody who asks `u` owners for encryptions and openings, and asks for the rounds of states and for states before the
rounds. -/
abbrev RoundsOwnersAsker (u : ℕ) (R : Type) : Type := Asker ((Fin u × AeadAsk) ⊕ State ⊕ State) (AeadAnswer ⊕ State) R

/-- What is left of a strategy if the permutation `π` answers the questions for the rounds. -/
def withRoundsEach {u : ℕ} {R : Type} (π : Equiv.Perm State) : RoundsOwnersAsker u R → OwnersAsker u R
  | .done r => .done r
  | .ask (.inl m) next => .ask m fun a => withRoundsEach π (next (.inl a))
  | .ask (.inr (.inl s)) next => withRoundsEach π (next (.inr (π s)))
  | .ask (.inr (.inr s)) next => withRoundsEach π (next (.inr (π.symm s)))

/-- Whatever the answers are, there are at most `p` questions for the rounds, `v` for openings and `b` blocks in all, and
the inputs of Poly1305 have at most `q` blocks. -/
def RoundsFitsEach {u : ℕ} {R : Type} (os : Fin u → Aead) (q p v b : ℕ) (D : RoundsOwnersAsker u R) : Prop :=
  D.Within (fun m => m.elim (fun m => AeadAskFits (os m.1) q m.2) fun _ => True) ∧
    D.CostLe (fun m => m.elim (fun _ => 0) fun _ => 1) (fun _ => 0) p ∧
    D.CostLe (fun m => m.elim (fun m => openingCost m.2) fun _ => 0) (fun _ => 0) v ∧
    D.CostLe (fun m => m.elim (fun m => aeadBlocks m.2) fun _ => 0) (fun _ => 0) b

/-- The objects of the owners with other keys. -/
def withKeys {u : ℕ} (os : Fin u → Aead) (k : Fin u → Str 32) (i : Fin u) : Aead := ⟨(k i).1, (os i).constant⟩

namespace Core

section
variable {u : ℕ} {R : Type} {os : Fin u → Aead} {q : ℕ}

theorem within_each (π : Equiv.Perm State) (D : RoundsOwnersAsker u R)
    (h : D.Within fun m => m.elim (fun m => AeadAskFits (os m.1) q m.2) fun _ => True) :
    (withRoundsEach π D).Within fun m => AeadAskFits (os m.1) q m.2 := by
  induction D with
  | done r => trivial
  | ask m next ih =>
    rcases m with m | s | s
    · exact ⟨h.1, fun t => ih _ (h.2 _)⟩
    · exact ih _ (h.2 _)
    · exact ih _ (h.2 _)

theorem openings_each (π : Equiv.Perm State) (D : RoundsOwnersAsker u R) (v : ℕ)
    (h : D.CostLe (fun m => m.elim (fun m => openingCost m.2) fun _ => 0) (fun _ => 0) v) :
    (withRoundsEach π D).CostLe (fun m => openingCost m.2) (fun _ => 0) v := by
  induction D generalizing v with
  | done r => exact h
  | ask m next ih =>
    rcases m with m | s | s
    · exact ⟨h.1, fun t => ih _ _ (h.2 _)⟩
    · exact ih _ _ (h.2 _)
    · exact ih _ _ (h.2 _)

theorem owner_needs (hk : ∀ i, (os i).key.length = 32) (r1 r2 : Bytes) (P : Worlds u → Prop) (m : Fin u × AeadAsk)
    (hm : AeadAskFits (os m.1) q m.2) :
    NeedsMany P 0 (aeadBlocks m.2) fun w => ownersAnswers os r1 r2 (fun i => look (w.1 i)) m := by
  have e : cost m.2 = aeadBlocks m.2 := by cases m.2 <;> rfl
  rw [← e]
  exact (Needs.aead (P := fun _ => True) (os m.1) r1 r2 (hk m.1) q m.2 hm).asOwner m.1

theorem run_needs_each (hk : ∀ i, (os i).key.length = 32) (r1 r2 : Bytes) (D : RoundsOwnersAsker u R) (P : Worlds u → Prop)
    (p b : ℕ) (hW : D.Within fun m => m.elim (fun m => AeadAskFits (os m.1) q m.2) fun _ => True)
    (hp : D.CostLe (fun m => m.elim (fun _ => 0) fun _ => 1) (fun _ => 0) p)
    (hb : D.CostLe (fun m => m.elim (fun m => aeadBlocks m.2) fun _ => 0) (fun _ => 0) b) :
    NeedsMany P p b fun w => (withRoundsEach w.2 D).run (ownersAnswers os r1 r2 fun i => look (w.1 i)) := by
  induction D generalizing P p b with
  | done r => exact NeedsMany.const r
  | ask m next ih =>
    rcases m with m | s | s
    · have h := NeedsMany.bind
        (E' := fun a w => (withRoundsEach w.2 (next (.inl a))).run (ownersAnswers os r1 r2 fun i => look (w.1 i)))
        (owner_needs hk r1 r2 P m hW.1) fun a => ih (.inl a) _ p (b - aeadBlocks m.2) (hW.2 _) (hp.2 _) (hb.2 _)
      have h1 : aeadBlocks m.2 ≤ b := hb.1
      rwa [Nat.zero_add, Nat.add_sub_cancel' h1] at h
    · have h := NeedsMany.bind
        (E' := fun t w => (withRoundsEach w.2 (next (.inr t))).run (ownersAnswers os r1 r2 fun i => look (w.1 i)))
        (NeedsMany.rounds (P := P) s) fun t => ih (.inr t) _ (p - 1) b (hW.2 _) (hp.2 _) (hb.2 _)
      have h1 : 1 ≤ p := hp.1
      rwa [Nat.add_sub_cancel' h1, Nat.zero_add] at h
    · have h := NeedsMany.bind
        (E' := fun t w => (withRoundsEach w.2 (next (.inr t))).run (ownersAnswers os r1 r2 fun i => look (w.1 i)))
        (NeedsMany.back (P := P) s) fun t => ih (.inr t) _ (p - 1) b (hW.2 _) (hp.2 _) (hb.2 _)
      have h1 : 1 ≤ p := hp.1
      rwa [Nat.add_sub_cancel' h1, Nat.zero_add] at h

theorem forges_needs_each (hk : ∀ i, (os i).key.length = 32) (r1 r2 : Bytes) (D : RoundsOwnersAsker u R)
    (l : Fin u → List (Spec.AeadQuery × Py (Bytes × Bytes))) (P : Worlds u → Prop) (p b : ℕ)
    (hW : D.Within fun m => m.elim (fun m => AeadAskFits (os m.1) q m.2) fun _ => True)
    (hp : D.CostLe (fun m => m.elim (fun _ => 0) fun _ => 1) (fun _ => 0) p)
    (hb : D.CostLe (fun m => m.elim (fun m => aeadBlocks m.2) fun _ => 0) (fun _ => 0) b) :
    NeedsMany P p b fun w => ForgesEach (ownersAnswers os r1 r2 fun i => look (w.1 i)) l (withRoundsEach w.2 D) := by
  induction D generalizing P p b l with
  | done r => exact NeedsMany.const False
  | ask m next ih =>
    rcases m with m | s | s
    · have h1 : aeadBlocks m.2 ≤ b := hb.1
      rcases m with ⟨i, m | x⟩
      · have h := NeedsMany.bind (E' := fun a w => ForgesEach (ownersAnswers os r1 r2 fun i => look (w.1 i)) (match a with
            | .inl a => Function.update l i ((m, a) :: l i)
            | .inr _ => l) (withRoundsEach w.2 (next (.inl a))))
          (owner_needs hk r1 r2 P (i, .inl m) hW.1) fun a =>
            ih (.inl a) _ _ p (b - aeadBlocks (.inl m)) (hW.2 _) (hp.2 _) (hb.2 _)
        rwa [Nat.zero_add, Nat.add_sub_cancel' h1] at h
      · have h := NeedsMany.bind (E' := fun a w => (∃ pt, a = .inr (.ok (some pt)) ∧
            ((⟨x.aad, x.iv, pt⟩, .ok (x.ct, x.tag)) : Spec.AeadQuery × Py (Bytes × Bytes)) ∉ l i) ∨
              ForgesEach (ownersAnswers os r1 r2 fun i => look (w.1 i)) l (withRoundsEach w.2 (next (.inl a))))
          (owner_needs hk r1 r2 P (i, .inr x) hW.1) fun a =>
            (ih (.inl a) l _ p (b - aeadBlocks (.inr x)) (hW.2 _) (hp.2 _) (hb.2 _)).map fun t =>
              (∃ pt, a = .inr (.ok (some pt)) ∧
                ((⟨x.aad, x.iv, pt⟩, .ok (x.ct, x.tag)) : Spec.AeadQuery × Py (Bytes × Bytes)) ∉ l i) ∨ t
        rwa [Nat.zero_add, Nat.add_sub_cancel' h1] at h
    · have h := NeedsMany.bind
        (E' := fun t w => ForgesEach (ownersAnswers os r1 r2 fun i => look (w.1 i)) l (withRoundsEach w.2 (next (.inr t))))
        (NeedsMany.rounds (P := P) s) fun t => ih (.inr t) l _ (p - 1) b (hW.2 _) (hp.2 _) (hb.2 _)
      have h1 : 1 ≤ p := hp.1
      rwa [Nat.add_sub_cancel' h1, Nat.zero_add] at h
    · have h := NeedsMany.bind
        (E' := fun t w => ForgesEach (ownersAnswers os r1 r2 fun i => look (w.1 i)) l (withRoundsEach w.2 (next (.inr t))))
        (NeedsMany.back (P := P) s) fun t => ih (.inr t) l _ (p - 1) b (hW.2 _) (hp.2 _) (hb.2 _)
      have h1 : 1 ≤ p := hp.1
      rwa [Nat.add_sub_cancel' h1, Nat.zero_add] at h

theorem run_congr_each (g g' : Fin u × AeadAsk → AeadAnswer) (D : OwnersAsker u R)
    (hW : D.Within fun m => AeadAskFits (os m.1) q m.2) (h : ∀ m, AeadAskFits (os m.1) q m.2 → g m = g' m) :
    D.run g = D.run g' := by
  induction D with
  | done r => rfl
  | ask m next ih =>
    rw [Asker.run, Asker.run, h m hW.1]
    exact ih _ (hW.2 _)

theorem forges_congr_each (g g' : Fin u × AeadAsk → AeadAnswer) (D : OwnersAsker u R)
    (l : Fin u → List (Spec.AeadQuery × Py (Bytes × Bytes))) (hW : D.Within fun m => AeadAskFits (os m.1) q m.2)
    (h : ∀ m, AeadAskFits (os m.1) q m.2 → g m = g' m) : ForgesEach g l D ↔ ForgesEach g' l D := by
  induction D generalizing l with
  | done r => exact Iff.rfl
  | ask m next ih =>
    rcases m with ⟨i, m | x⟩
    · rw [ForgesEach, ForgesEach, h _ hW.1]
      exact ih _ _ (hW.2 _)
    · rw [ForgesEach, ForgesEach, h _ hW.1, ih _ _ (hW.2 _)]

theorem answers_owners (k : Fin u → Str 32) (π : Equiv.Perm State) (hk : ∀ i, (os i).key.length = 32) (r1 r2 : Bytes)
    (m : Fin u × AeadAsk) (hm : AeadAskFits (os m.1) q m.2) :
    ownersAnswers (withKeys os k) r1 r2 (fun _ => ChaCha.blockWith (asRounds π)) m =
      ownersAnswers os r1 r2 (fun i => look (tablesOf k π i)) m :=
  answers_aead (k m.1) π (os m.1) (hk m.1) r1 r2 q m.2 hm

/-- Counting by the permutation. -/
theorem card_worlds (E : Worlds u → Prop) : (Nat.card {w : Worlds u // E w} : ℚ) / Nat.card (Worlds u) =
    (∑ π : Equiv.Perm State, (Nat.card {F : Fin u → Table // E (F, π)} : ℚ) / Nat.card (Fin u → Table)) /
      Nat.card (Equiv.Perm State) := by
  have e : Nat.card {w : Worlds u // E w} = ∑ π : Equiv.Perm State, Nat.card {F : Fin u → Table // E (F, π)} := Prf.cnt_prod E
  rw [e, Nat.card_prod, Nat.cast_sum, Nat.cast_mul, ← div_div, Finset.sum_div]

end
end Core

/-- C189: `u` owners have independent random keys.  Somebody asks owners of their choice for encryptions, never twice under
a nonce of the same owner, `v` times in all for the opening of a ciphertext, and `p` times for the rounds of a state or for
the state before the rounds; `b` is the number of blocks of ChaCha20 for all encryptions and openings, and the inputs of
Poly1305 have at most `q` blocks.  With a random permutation in place of the rounds, the chance of any result differs by at
most `8 q v / 2^106 + 2 p b / 2^256 + b (b - 1) / 2^513 + u (u - 1) / 2^257` from the chance when each encryption is a fresh
random string with a random tag, each owner accepts exactly what was an outcome of an earlier encryption of their own, and
the permutation is random. -/
theorem C189_authenticated_encryption {u : ℕ} (os : Fin u → Aead) (rand1 rand2 : Bytes) (hk : ∀ i, (os i).key.length = 32)
    (q p v b : ℕ) {R : Type} (accept : R → Prop) (D : RoundsOwnersAsker u R)
    (hF : ∀ π, FreshEach (fun _ => []) (withRoundsEach π D)) (hD : RoundsFitsEach os q p v b D) :
    |(Nat.card {w : (Fin u → Str 32) × Equiv.Perm State // accept ((withRoundsEach w.2 D).run
          (ownersAnswers (withKeys os w.1) rand1 rand2 fun _ => ChaCha.blockWith (asRounds w.2)))} : ℚ) /
        Nat.card ((Fin u → Str 32) × Equiv.Perm State) -
      (∑ π : Equiv.Perm State, chanceEach accept (fun _ => []) (withRoundsEach π D)) / Nat.card (Equiv.Perm State)| ≤
      v * (8 * q / 2 ^ 106) + (2 * p * b / 2 ^ 256 + b * (b - 1) / 2 ^ 513 + u * (u - 1) / 2 ^ 257) := by
  obtain ⟨hW, hp, hv, hb⟩ := hD
  have h1 := Core.NeedsMany.game
    ((Core.run_needs_each (os := os) hk rand1 rand2 D (fun _ => True) p b hW hp hb).map accept)
  have h2 := Core.average
    (fun π => (Nat.card {F : Fin u → Table //
      accept ((withRoundsEach π D).run (ownersAnswers os rand1 rand2 fun i => look (F i)))} : ℚ) / Nat.card (Fin u → Table))
    (fun π => chanceEach accept (fun _ => []) (withRoundsEach π D)) (v * (8 * q / 2 ^ 106)) fun π =>
      C188_authenticated_encryption os rand1 rand2 hk q v accept (withRoundsEach π D) (hF π) (Core.within_each π D hW)
        (Core.openings_each π D v hv)
  have e : Nat.card {w : (Fin u → Str 32) × Equiv.Perm State // accept ((withRoundsEach w.2 D).run
        (ownersAnswers (withKeys os w.1) rand1 rand2 fun _ => ChaCha.blockWith (asRounds w.2)))} =
      Nat.card {w : (Fin u → Str 32) × Equiv.Perm State // accept ((withRoundsEach w.2 D).run
        (ownersAnswers os rand1 rand2 fun i => look (Core.tablesOf w.1 w.2 i)))} :=
    cnt_congr fun w => by
      rw [Core.run_congr_each _ _ (withRoundsEach w.2 D) (Core.within_each w.2 D hW) fun m hm =>
        Core.answers_owners w.1 w.2 hk rand1 rand2 m hm]
  rw [Core.card_worlds] at h1
  rw [e, add_comm]
  exact (abs_sub_le _ _ _).trans (add_le_add h1 h2)

/-- C189: some owner accepts something that was not an outcome of an earlier encryption of their own at most with this
chance. -/
theorem C189_forgery {u : ℕ} (os : Fin u → Aead) (rand1 rand2 : Bytes) (hk : ∀ i, (os i).key.length = 32) (q p v b : ℕ)
    {R : Type} (D : RoundsOwnersAsker u R) (hF : ∀ π, FreshEach (fun _ => []) (withRoundsEach π D))
    (hD : RoundsFitsEach os q p v b D) :
    (Nat.card {w : (Fin u → Str 32) × Equiv.Perm State // ForgesEach
          (ownersAnswers (withKeys os w.1) rand1 rand2 fun _ => ChaCha.blockWith (asRounds w.2)) (fun _ => [])
          (withRoundsEach w.2 D)} : ℚ) / Nat.card ((Fin u → Str 32) × Equiv.Perm State) ≤
      v * (8 * q / 2 ^ 106) + (2 * p * b / 2 ^ 256 + b * (b - 1) / 2 ^ 513 + u * (u - 1) / 2 ^ 257) := by
  obtain ⟨hW, hp, hv, hb⟩ := hD
  have h1 := Core.NeedsMany.game
    (Core.forges_needs_each (os := os) hk rand1 rand2 D (fun _ => []) (fun _ => True) p b hW hp hb)
  have h2 (π : Equiv.Perm State) : (Nat.card {F : Fin u → Table // ForgesEach
        (ownersAnswers os rand1 rand2 fun i => look (F i)) (fun _ => []) (withRoundsEach π D)} : ℚ) /
          Nat.card (Fin u → Table) ≤ v * (8 * q / 2 ^ 106) := by
    have h := C188_forgery os rand1 rand2 hk q v (withRoundsEach π D) (hF π) (Core.within_each π D hW)
      (Core.openings_each π D v hv)
    have hpos : (0 : ℚ) < Nat.card (Fin u → Table) := Nat.cast_pos.mpr (Cpoly.card_tables_pos u)
    have h' : (2 ^ 106 : ℚ) * Nat.card {F : Fin u → Table // ForgesEach
        (ownersAnswers os rand1 rand2 fun i => look (F i)) (fun _ => []) (withRoundsEach π D)} ≤
        v * (8 * q) * Nat.card (Fin u → Table) := by exact_mod_cast h
    rw [div_le_iff₀ hpos, ← mul_div_assoc, div_mul_eq_mul_div, le_div_iff₀ (by positivity), mul_comm]
    exact h'
  have e : Nat.card {w : (Fin u → Str 32) × Equiv.Perm State // ForgesEach
        (ownersAnswers (withKeys os w.1) rand1 rand2 fun _ => ChaCha.blockWith (asRounds w.2)) (fun _ => [])
        (withRoundsEach w.2 D)} =
      Nat.card {w : (Fin u → Str 32) × Equiv.Perm State // ForgesEach
        (ownersAnswers os rand1 rand2 fun i => look (Core.tablesOf w.1 w.2 i)) (fun _ => []) (withRoundsEach w.2 D)} :=
    cnt_congr fun w => Core.forges_congr_each _ _ (withRoundsEach w.2 D) _ (Core.within_each w.2 D hW) fun m hm =>
      Core.answers_owners w.1 w.2 hk rand1 rand2 m hm
  rw [Core.card_worlds] at h1
  have h3 : (∑ π : Equiv.Perm State, (Nat.card {F : Fin u → Table // ForgesEach
      (ownersAnswers os rand1 rand2 fun i => look (F i)) (fun _ => []) (withRoundsEach π D)} : ℚ) /
        Nat.card (Fin u → Table)) / Nat.card (Equiv.Perm State) ≤ v * (8 * q / 2 ^ 106) := by
    rw [div_le_iff₀ Core.card_pos']
    refine (Finset.sum_le_card_nsmul _ _ _ fun π _ => h2 π).trans_eq ?_
    rw [nsmul_eq_mul, Finset.card_univ, ← Nat.card_eq_fintype_card, mul_comm]
  rw [e, add_comm]
  have h4 := (sub_le_iff_le_add.mp (abs_le.mp h1).2)
  exact h4.trans (add_le_add_right h3 _)

/-- Somebody who asks for the rounds of a state and gets an encryption of each of two owners under the same nonce, and sends
one made-up ciphertext to the second. -/
def roundsPassOn : RoundsOwnersAsker 2 Bool :=
  .ask (.inr (.inl fun _ => 5)) fun _ => .ask (.inl (0, .inl ⟨[5], List.replicate 8 6, [7, 8]⟩)) fun _ =>
    .ask (.inl (1, .inl ⟨[5], List.replicate 8 6, [7, 9]⟩)) fun _ =>
      .ask (.inl (1, .inr ⟨[5], List.replicate 8 6, [1, 2], List.replicate 16 0⟩)) fun b =>
        .done (b matches .inl (.inr (.ok (some _))))

private theorem pass_fresh (π : Equiv.Perm State) : FreshEach (fun _ => []) (withRoundsEach π roundsPassOn) :=
  ⟨by simp, fun _ => ⟨by simp, fun _ _ => trivial⟩⟩

private theorem pass_fits : RoundsFitsEach twoOwners 3 1 1 6 roundsPassOn :=
  ⟨⟨trivial, fun _ => ⟨⟨rfl, by decide, by decide, by decide⟩, fun _ => ⟨⟨rfl, by decide, by decide, by decide⟩,
      fun _ => ⟨⟨rfl, by decide, by decide, by decide⟩, fun _ => trivial⟩⟩⟩⟩,
    ⟨le_refl 1, fun _ => ⟨Nat.zero_le _, fun _ => ⟨Nat.zero_le _, fun _ => ⟨Nat.zero_le _, fun _ => Nat.zero_le _⟩⟩⟩⟩,
    ⟨Nat.zero_le _, fun _ => ⟨Nat.zero_le _, fun _ => ⟨Nat.zero_le _, fun _ => ⟨le_refl 1, fun _ => Nat.zero_le _⟩⟩⟩⟩,
    ⟨Nat.zero_le _, fun _ => ⟨by decide, fun _ => ⟨by decide, fun _ => ⟨by decide, fun _ => Nat.zero_le _⟩⟩⟩⟩⟩

/-- This strategy meets the hypotheses. -/
example := C189_authenticated_encryption twoOwners [] [] (fun _ => by simp [twoOwners]) 3 1 1 6 (· = true) roundsPassOn
  pass_fresh pass_fits

example := C189_forgery twoOwners [] [] (fun _ => by simp [twoOwners]) 3 1 1 6 roundsPassOn pass_fresh pass_fits

end Cryptopy
