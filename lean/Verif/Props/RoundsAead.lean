import Verif.Lemmas.RoundsAead

/-!
C186: the AEAD of `chacha_poly.py` with a random permutation in place of the rounds of ChaCha20.
-/

namespace Cryptopy
open Model (ChaCha Aead)
open Spec (Str State Asker AeadAsk AeadAnswer AeadAsker FreshNonces chance Forges)
open Prf (cnt cnt_congr)
open Cpoly (Table look)

/-- Somebody who asks for encryptions and openings, for the rounds of states and for states before the rounds. -/
abbrev RoundsAsker (R : Type) : Type := Asker (AeadAsk ⊕ State ⊕ State) (AeadAnswer ⊕ State) R

/-- What is left of a strategy if the permutation `π` answers the questions for the rounds. -/
def withRounds {R : Type} (π : Equiv.Perm State) : RoundsAsker R → AeadAsker R
  | .done r => .done r
  | .ask (.inl m) next => .ask m fun a => withRounds π (next (.inl a))
  | .ask (.inr (.inl s)) next => withRounds π (next (.inr (π s)))
  | .ask (.inr (.inr s)) next => withRounds π (next (.inr (π.symm s)))

/-- The number of blocks of ChaCha20 for a question: the one-time key and the key stream. -/
def aeadBlocks : AeadAsk → ℕ
  | .inl m => 1 + (m.pt.length + 63) / 64
  | .inr x => 1 + (x.ct.length + 63) / 64

/-- Whatever the answers are, there are at most `p` questions for the rounds, `v` for openings and `b` blocks in all, and
the inputs of Poly1305 have at most `q` blocks. -/
def RoundsFits {R : Type} (o : Aead) (q p v b : ℕ) (D : RoundsAsker R) : Prop :=
  D.Within (fun m => m.elim (AeadAskFits o q) fun _ => True) ∧
    D.CostLe (fun m => m.elim (fun _ => 0) fun _ => 1) (fun _ => 0) p ∧
    D.CostLe (fun m => m.elim openingCost fun _ => 0) (fun _ => 0) v ∧
    D.CostLe (fun m => m.elim aeadBlocks fun _ => 0) (fun _ => 0) b

namespace Core

section
variable {R : Type} {o : Aead} {q : ℕ}

theorem within (π : Equiv.Perm State) (D : RoundsAsker R)
    (h : D.Within fun m => m.elim (AeadAskFits o q) fun _ => True) : (withRounds π D).Within (AeadAskFits o q) := by
  induction D with
  | done r => trivial
  | ask m next ih =>
    rcases m with m | s | s
    · exact ⟨h.1, fun t => ih _ (h.2 _)⟩
    · exact ih _ (h.2 _)
    · exact ih _ (h.2 _)

theorem openings (π : Equiv.Perm State) (D : RoundsAsker R) (v : ℕ)
    (h : D.CostLe (fun m => m.elim openingCost fun _ => 0) (fun _ => 0) v) :
    (withRounds π D).CostLe openingCost (fun _ => 0) v := by
  induction D generalizing v with
  | done r => exact h
  | ask m next ih =>
    rcases m with m | s | s
    · exact ⟨h.1, fun t => ih _ _ (h.2 _)⟩
    · exact ih _ _ (h.2 _)
    · exact ih _ _ (h.2 _)

theorem run_needs (hk : o.key.length = 32) (r1 r2 : Bytes) (D : RoundsAsker R) (P : World → Prop) (p b : ℕ)
    (hW : D.Within fun m => m.elim (AeadAskFits o q) fun _ => True)
    (hp : D.CostLe (fun m => m.elim (fun _ => 0) fun _ => 1) (fun _ => 0) p)
    (hb : D.CostLe (fun m => m.elim aeadBlocks fun _ => 0) (fun _ => 0) b) :
    Needs P p b fun w => (withRounds w.2 D).run (aeadAnswers o r1 r2 (look w.1)) := by
  induction D generalizing P p b with
  | done r => exact Needs.const r
  | ask m next ih =>
    rcases m with m | s | s
    · have h := Needs.bind (E' := fun a w => (withRounds w.2 (next (.inl a))).run (aeadAnswers o r1 r2 (look w.1)))
        (Needs.aead (P := P) o r1 r2 hk q m hW.1) fun a => ih (.inl a) _ p (b - aeadBlocks m) (hW.2 _) (hp.2 _) (hb.2 _)
      have e : cost m = aeadBlocks m := by cases m <;> rfl
      have h1 : aeadBlocks m ≤ b := hb.1
      rwa [Nat.zero_add, e, Nat.add_sub_cancel' h1] at h
    · have h := Needs.bind (E' := fun t w => (withRounds w.2 (next (.inr t))).run (aeadAnswers o r1 r2 (look w.1)))
        (Needs.rounds (P := P) s) fun t => ih (.inr t) _ (p - 1) b (hW.2 _) (hp.2 _) (hb.2 _)
      have h1 : 1 ≤ p := hp.1
      rwa [Nat.add_sub_cancel' h1, Nat.zero_add] at h
    · have h := Needs.bind (E' := fun t w => (withRounds w.2 (next (.inr t))).run (aeadAnswers o r1 r2 (look w.1)))
        (Needs.back (P := P) s) fun t => ih (.inr t) _ (p - 1) b (hW.2 _) (hp.2 _) (hb.2 _)
      have h1 : 1 ≤ p := hp.1
      rwa [Nat.add_sub_cancel' h1, Nat.zero_add] at h

theorem forges_needs (hk : o.key.length = 32) (r1 r2 : Bytes) (D : RoundsAsker R)
    (l : List (Spec.AeadQuery × Py (Bytes × Bytes))) (P : World → Prop) (p b : ℕ)
    (hW : D.Within fun m => m.elim (AeadAskFits o q) fun _ => True)
    (hp : D.CostLe (fun m => m.elim (fun _ => 0) fun _ => 1) (fun _ => 0) p)
    (hb : D.CostLe (fun m => m.elim aeadBlocks fun _ => 0) (fun _ => 0) b) :
    Needs P p b fun w => Forges (aeadAnswers o r1 r2 (look w.1)) l (withRounds w.2 D) := by
  induction D generalizing P p b l with
  | done r => exact Needs.const False
  | ask m next ih =>
    rcases m with m | s | s
    · have e : cost m = aeadBlocks m := by cases m <;> rfl
      have h1 : aeadBlocks m ≤ b := hb.1
      cases m with
      | inl m =>
        have h := Needs.bind (E' := fun a w => Forges (aeadAnswers o r1 r2 (look w.1)) (match a with
            | .inl a => (m, a) :: l
            | .inr _ => l) (withRounds w.2 (next (.inl a))))
          (Needs.aead (P := P) o r1 r2 hk q (.inl m) hW.1) fun a =>
            ih (.inl a) _ _ p (b - aeadBlocks (.inl m)) (hW.2 _) (hp.2 _) (hb.2 _)
        rwa [Nat.zero_add, e, Nat.add_sub_cancel' h1] at h
      | inr x =>
        have h := Needs.bind (E' := fun a w => (∃ pt, a = .inr (.ok (some pt)) ∧
            ((⟨x.aad, x.iv, pt⟩, .ok (x.ct, x.tag)) : Spec.AeadQuery × Py (Bytes × Bytes)) ∉ l) ∨
              Forges (aeadAnswers o r1 r2 (look w.1)) l (withRounds w.2 (next (.inl a))))
          (Needs.aead (P := P) o r1 r2 hk q (.inr x) hW.1) fun a =>
            (ih (.inl a) l _ p (b - aeadBlocks (.inr x)) (hW.2 _) (hp.2 _) (hb.2 _)).map fun t =>
              (∃ pt, a = .inr (.ok (some pt)) ∧
                ((⟨x.aad, x.iv, pt⟩, .ok (x.ct, x.tag)) : Spec.AeadQuery × Py (Bytes × Bytes)) ∉ l) ∨ t
        rwa [Nat.zero_add, e, Nat.add_sub_cancel' h1] at h
    · have h := Needs.bind (E' := fun t w => Forges (aeadAnswers o r1 r2 (look w.1)) l (withRounds w.2 (next (.inr t))))
        (Needs.rounds (P := P) s) fun t => ih (.inr t) l _ (p - 1) b (hW.2 _) (hp.2 _) (hb.2 _)
      have h1 : 1 ≤ p := hp.1
      rwa [Nat.add_sub_cancel' h1, Nat.zero_add] at h
    · have h := Needs.bind (E' := fun t w => Forges (aeadAnswers o r1 r2 (look w.1)) l (withRounds w.2 (next (.inr t))))
        (Needs.back (P := P) s) fun t => ih (.inr t) l _ (p - 1) b (hW.2 _) (hp.2 _) (hb.2 _)
      have h1 : 1 ≤ p := hp.1
      rwa [Nat.add_sub_cancel' h1, Nat.zero_add] at h

theorem run_congr (g g' : AeadAsk → AeadAnswer) (D : AeadAsker R) (hW : D.Within (AeadAskFits o q))
    (h : ∀ m, AeadAskFits o q m → g m = g' m) : D.run g = D.run g' := by
  induction D with
  | done r => rfl
  | ask m next ih =>
    rw [Asker.run, Asker.run, h m hW.1]
    exact ih _ (hW.2 _)

theorem forges_congr (g g' : AeadAsk → AeadAnswer) (D : AeadAsker R) (l : List (Spec.AeadQuery × Py (Bytes × Bytes)))
    (hW : D.Within (AeadAskFits o q)) (h : ∀ m, AeadAskFits o q m → g m = g' m) : Forges g l D ↔ Forges g' l D := by
  induction D generalizing l with
  | done r => exact Iff.rfl
  | ask m next ih =>
    cases m with
    | inl m =>
      rw [Forges, Forges, h _ hW.1]
      exact ih _ _ (hW.2 _)
    | inr x =>
      rw [Forges, Forges, h _ hW.1, ih _ _ (hW.2 _)]

/-- Counting by the permutation. -/
theorem card_world (E : World → Prop) : (Nat.card {w : World // E w} : ℚ) / Nat.card World =
    (∑ π : Equiv.Perm State, (Nat.card {f : Table // E (f, π)} : ℚ) / Nat.card Table) / Nat.card (Equiv.Perm State) := by
  have e : Nat.card {w : World // E w} = ∑ π : Equiv.Perm State, Nat.card {f : Table // E (f, π)} := Prf.cnt_prod E
  rw [e, Nat.card_prod, Nat.cast_sum, Nat.cast_mul, ← div_div, Finset.sum_div]

theorem card_pos' : (0 : ℚ) < Nat.card (Equiv.Perm State) := Nat.cast_pos.mpr Nat.card_pos

/-- An average of differences. -/
theorem average (x y : Equiv.Perm State → ℚ) (e : ℚ) (h : ∀ π, |x π - y π| ≤ e) :
    |(∑ π, x π) / Nat.card (Equiv.Perm State) - (∑ π, y π) / Nat.card (Equiv.Perm State)| ≤ e := by
  rw [← sub_div, ← Finset.sum_sub_distrib, abs_div, abs_of_pos card_pos', div_le_iff₀ card_pos']
  refine (Finset.abs_sum_le_sum_abs _ _).trans ((Finset.sum_le_card_nsmul _ _ _ fun π _ => h π).trans_eq ?_)
  rw [nsmul_eq_mul, Finset.card_univ, ← Nat.card_eq_fintype_card, mul_comm]

end
end Core

/-- C186: somebody asks for encryptions under nonces that are never used twice, `v` times for the opening of a ciphertext,
and `p` times for the rounds of a state or for the state before the rounds; `b` is the number of blocks of ChaCha20 for the
encryptions and openings, and the inputs of Poly1305 have at most `q` blocks.  With a random key and a random permutation in
place of the rounds, the chance of any result differs by at most `8 q v / 2^106 + 2 p b / 2^256 + b (b - 1) / 2^513` from
the chance when each encryption is a fresh random string with a random tag, the recipient accepts exactly what was an
outcome of an earlier encryption, and the permutation is random. -/
theorem C186_authenticated_encryption (o : Aead) (rand1 rand2 : Bytes) (hk : o.key.length = 32) (q p v b : ℕ) {R : Type}
    (accept : R → Prop) (D : RoundsAsker R) (hF : ∀ π, FreshNonces [] (withRounds π D)) (hD : RoundsFits o q p v b D) :
    |(Nat.card {w : Str 32 × Equiv.Perm State // accept ((withRounds w.2 D).run
          (aeadAnswers ⟨w.1.1, o.constant⟩ rand1 rand2 (ChaCha.blockWith (asRounds w.2))))} : ℚ) /
        Nat.card (Str 32 × Equiv.Perm State) -
      (∑ π : Equiv.Perm State, chance accept [] (withRounds π D)) / Nat.card (Equiv.Perm State)| ≤
      v * (8 * q / 2 ^ 106) + (2 * p * b / 2 ^ 256 + b * (b - 1) / 2 ^ 513) := by
  obtain ⟨hW, hp, hv, hb⟩ := hD
  have h1 := Core.Needs.game ((Core.run_needs (o := o) hk rand1 rand2 D (fun _ => True) p b hW hp hb).map accept)
  have h2 := Core.average
    (fun π => (Nat.card {f : Table // accept ((withRounds π D).run (aeadAnswers o rand1 rand2 (look f)))} : ℚ) / Nat.card Table)
    (fun π => chance accept [] (withRounds π D)) (v * (8 * q / 2 ^ 106)) fun π =>
      C168_authenticated_encryption o rand1 rand2 hk q v accept (withRounds π D) (hF π) (Core.within π D hW)
        (Core.openings π D v hv)
  have e : Nat.card {w : Str 32 × Equiv.Perm State // accept ((withRounds w.2 D).run
        (aeadAnswers ⟨w.1.1, o.constant⟩ rand1 rand2 (ChaCha.blockWith (asRounds w.2))))} =
      Nat.card {w : Str 32 × Equiv.Perm State // accept ((withRounds w.2 D).run
        (aeadAnswers o rand1 rand2 (look (Core.tableOf w.1 w.2))))} :=
    cnt_congr fun w => by
      rw [Core.run_congr _ _ (withRounds w.2 D) (Core.within w.2 D hW) fun m hm =>
        Core.answers_aead w.1 w.2 o hk rand1 rand2 q m hm]
  rw [Core.card_world] at h1
  rw [e, add_comm]
  exact (abs_sub_le _ _ _).trans (add_le_add h1 h2)

/-- C186: the recipient accepts something that was not an outcome of an earlier encryption at most with this chance. -/
theorem C186_forgery (o : Aead) (rand1 rand2 : Bytes) (hk : o.key.length = 32) (q p v b : ℕ) {R : Type}
    (D : RoundsAsker R) (hF : ∀ π, FreshNonces [] (withRounds π D)) (hD : RoundsFits o q p v b D) :
    (Nat.card {w : Str 32 × Equiv.Perm State // Forges
          (aeadAnswers ⟨w.1.1, o.constant⟩ rand1 rand2 (ChaCha.blockWith (asRounds w.2))) [] (withRounds w.2 D)} : ℚ) /
        Nat.card (Str 32 × Equiv.Perm State) ≤
      v * (8 * q / 2 ^ 106) + (2 * p * b / 2 ^ 256 + b * (b - 1) / 2 ^ 513) := by
  obtain ⟨hW, hp, hv, hb⟩ := hD
  have h1 := Core.Needs.game (Core.forges_needs (o := o) hk rand1 rand2 D [] (fun _ => True) p b hW hp hb)
  have h2 (π : Equiv.Perm State) :
      (Nat.card {f : Table // Forges (aeadAnswers o rand1 rand2 (look f)) [] (withRounds π D)} : ℚ) / Nat.card Table ≤
        v * (8 * q / 2 ^ 106) := by
    have h := C168_forgery o rand1 rand2 hk q v (withRounds π D) (hF π) (Core.within π D hW) (Core.openings π D v hv)
    have hpos : (0 : ℚ) < Nat.card Table := by
      have : Nonempty Table := ⟨fun _ => ⟨List.replicate 64 0, by simp⟩⟩
      exact Nat.cast_pos.mpr Nat.card_pos
    have h' : (2 ^ 106 : ℚ) * Nat.card {f : Table // Forges (aeadAnswers o rand1 rand2 (look f)) [] (withRounds π D)} ≤
        v * (8 * q) * Nat.card Table := by exact_mod_cast h
    rw [div_le_iff₀ hpos, ← mul_div_assoc, div_mul_eq_mul_div, le_div_iff₀ (by positivity), mul_comm]
    exact h'
  have e : Nat.card {w : Str 32 × Equiv.Perm State // Forges
        (aeadAnswers ⟨w.1.1, o.constant⟩ rand1 rand2 (ChaCha.blockWith (asRounds w.2))) [] (withRounds w.2 D)} =
      Nat.card {w : Str 32 × Equiv.Perm State // Forges
        (aeadAnswers o rand1 rand2 (look (Core.tableOf w.1 w.2))) [] (withRounds w.2 D)} :=
    cnt_congr fun w => Core.forges_congr _ _ (withRounds w.2 D) [] (Core.within w.2 D hW) fun m hm =>
      Core.answers_aead w.1 w.2 o hk rand1 rand2 q m hm
  rw [Core.card_world] at h1
  have h3 : (∑ π : Equiv.Perm State,
      (Nat.card {f : Table // Forges (aeadAnswers o rand1 rand2 (look f)) [] (withRounds π D)} : ℚ) / Nat.card Table) /
        Nat.card (Equiv.Perm State) ≤ v * (8 * q / 2 ^ 106) := by
    rw [div_le_iff₀ Core.card_pos']
    refine (Finset.sum_le_card_nsmul _ _ _ fun π _ => h2 π).trans_eq ?_
    rw [nsmul_eq_mul, Finset.card_univ, ← Nat.card_eq_fintype_card, mul_comm]
  rw [e, add_comm]
  have h4 := (sub_le_iff_le_add.mp (abs_le.mp h1).2)
  exact h4.trans (add_le_add_right h3 _)

/-- Somebody who asks for the rounds of a state and for an encryption, and sends the ciphertext on with the tag zero. -/
def roundsZeroTag : RoundsAsker Bool :=
  .ask (.inr (.inl fun _ => 5)) fun _ => .ask (.inl (.inl ⟨[5], List.replicate 8 6, [7, 8]⟩)) fun _ =>
    .ask (.inl (.inr ⟨[5], List.replicate 8 6, [1, 2], List.replicate 16 0⟩)) fun b => .done (b matches .inl (.inr (.ok (some _))))

private theorem zero_fresh (π : Equiv.Perm State) : FreshNonces [] (withRounds π roundsZeroTag) :=
  ⟨by simp, fun _ _ => trivial⟩

private theorem zero_fits : RoundsFits ⟨List.replicate 32 1, [1, 2, 3, 4]⟩ 3 1 1 4 roundsZeroTag :=
  ⟨⟨trivial, fun _ => ⟨⟨rfl, by decide, by decide, by decide⟩, fun _ => ⟨⟨rfl, by decide, by decide, by decide⟩, fun _ => trivial⟩⟩⟩,
    ⟨le_refl 1, fun _ => ⟨Nat.zero_le _, fun _ => ⟨Nat.zero_le _, fun _ => Nat.zero_le _⟩⟩⟩,
    ⟨Nat.zero_le _, fun _ => ⟨Nat.zero_le _, fun _ => ⟨le_refl 1, fun _ => Nat.zero_le _⟩⟩⟩,
    ⟨Nat.zero_le _, fun _ => ⟨by decide, fun _ => ⟨by decide, fun _ => Nat.zero_le _⟩⟩⟩⟩

/-- This strategy meets the hypotheses. -/
example := C186_authenticated_encryption ⟨List.replicate 32 1, [1, 2, 3, 4]⟩ [] [] rfl 3 1 1 4 (· = true) roundsZeroTag
  zero_fresh zero_fits

example := C186_forgery ⟨List.replicate 32 1, [1, 2, 3, 4]⟩ [] [] rfl 3 1 1 4 roundsZeroTag zero_fresh zero_fits

end Cryptopy
