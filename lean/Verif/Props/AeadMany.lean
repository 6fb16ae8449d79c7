import Verif.Props.AeadSecurity
import Verif.Spec.ChanceMany

/-!
C188: the AEAD of `chacha_poly.py` for many owners of keys, with a random function in place of the block function of
ChaCha20 for each of them.
-/

namespace Cryptopy
open Model (ChaCha Aead poly1305Mac macData)
open Spec (Str AeadQuery AeadSent AeadAsk AeadAnswer OwnersAsker FreshEach lookUp chanceEach ForgesEach Asker)
open Cpoly (Table look nonceBits Says cipher otk blocks)
open Prf (cnt cnt_split cnt_mono cnt_congr cnt_exists cnt_true cnt_false)

/-- The answers of the objects of the owners with `block i` in place of `chacha20_block` for the owner `i`. -/
def ownersAnswers {u : ℕ} (os : Fin u → Aead) (r1 r2 : Bytes) (block : Fin u → ChaCha → Bytes) (m : Fin u × AeadAsk) :
    AeadAnswer := aeadAnswers (os m.1) r1 r2 (block m.1) m.2

namespace Cpoly
variable {u : ℕ}

/-- What is known about one table and what is known about the others. -/
theorem cnt_one (i : Fin u) (A : Table → Prop) (B : (Fin u → Table) → Prop) (hB : ∀ F t, B F → B (Function.update F i t)) :
    cnt (fun F : Fin u → Table => A (F i) ∧ B F) * Nat.card Table = cnt A * cnt B := by
  rw [cnt, cnt, cnt, ← Nat.card_prod, ← Nat.card_prod]
  refine Nat.card_congr ⟨fun w => (⟨w.1.1 i, w.1.2.1⟩, ⟨Function.update w.1.1 i w.2, hB _ _ w.1.2.2⟩),
    fun w => (⟨Function.update w.2.1 i w.1.1, by rw [Function.update_self]; exact w.1.2, hB _ _ w.2.2⟩, w.2.1 i), ?_, ?_⟩
  · rintro ⟨⟨F, h⟩, t⟩
    refine Prod.ext (Subtype.ext ?_) (Function.update_self ..)
    dsimp only
    rw [Function.update_idem, Function.update_eq_self]
  · rintro ⟨⟨f, h⟩, F, h'⟩
    refine Prod.ext (Subtype.ext (Function.update_self ..)) (Subtype.ext ?_)
    dsimp only
    rw [Function.update_idem, Function.update_eq_self]

theorem card_table_pos : 0 < Nat.card Table := by
  have : Nonempty Table := ⟨fun _ => ⟨List.replicate 64 0, by simp⟩⟩
  exact Nat.card_pos

theorem lift_le (i : Fin u) (A A' : Table → Prop) (B : (Fin u → Table) → Prop) (hB : ∀ F t, B F → B (Function.update F i t))
    (c d : ℕ) (h : c * cnt A ≤ d * cnt A') :
    c * cnt (fun F : Fin u → Table => A (F i) ∧ B F) ≤ d * cnt (fun F : Fin u → Table => A' (F i) ∧ B F) := by
  refine Nat.le_of_mul_le_mul_right ?_ card_table_pos
  rw [mul_assoc, mul_assoc, cnt_one i A B hB, cnt_one i A' B hB, ← mul_assoc, ← mul_assoc]
  exact Nat.mul_le_mul_right _ h

theorem card_tables_pos (u : ℕ) : 0 < Nat.card (Fin u → Table) := by
  have : Nonempty Table := ⟨fun _ => ⟨List.replicate 64 0, by simp⟩⟩
  exact Nat.card_pos

/-- What the outcomes say about the tables. -/
def KnownEach (os : Fin u → Aead) (L : Fin u → Log) (F : Fin u → Table) : Prop := ∀ i, Known (os i) (L i) (F i)

/-- What they say about the tables of the other owners. -/
def Others (os : Fin u → Aead) (L : Fin u → Log) (i : Fin u) (F : Fin u → Table) : Prop :=
  ∀ j, j ≠ i → Known (os j) (L j) (F j)

theorem known_split (os : Fin u → Aead) (L : Fin u → Log) (i : Fin u) (F : Fin u → Table) :
    KnownEach os L F ↔ Known (os i) (L i) (F i) ∧ Others os L i F := by
  refine ⟨fun h => ⟨h i, fun j _ => h j⟩, fun h j => ?_⟩
  by_cases hj : j = i
  · exact hj ▸ h.1
  · exact h.2 j hj

theorem others_update (os : Fin u → Aead) (L : Fin u → Log) (i : Fin u) (F : Fin u → Table) (t : Table)
    (h : Others os L i F) : Others os L i (Function.update F i t) := by
  intro j hj
  rw [Function.update_of_ne hj]
  exact h j hj

theorem each_cons (os : Fin u → Aead) (L : Fin u → Log) (i : Fin u) (m : AeadQuery) (ct tag : Bytes) (F : Fin u → Table) :
    KnownEach os (Function.update L i ((m, ct, tag) :: L i)) F ↔
      KnownEach os L F ∧ Says (nu (os i) m.iv) m.aad m.pt ct tag (F i) := by
  rw [known_split os _ i, known_split os L i, Function.update_self, known_cons]
  have : Others os (Function.update L i ((m, ct, tag) :: L i)) i F ↔ Others os L i F :=
    forall_congr' fun j => forall_congr' fun hj => by rw [Function.update_of_ne hj]
  rw [this]
  tauto

theorem cnt_each (ν : BitVec 96) (i : Fin u) (P : (Fin u → Table) → Prop) (aad pt : Bytes) :
    cnt P = ∑ t : Str pt.length × Str 16, cnt fun F => P F ∧ Says ν aad pt t.1.1 t.2.1 (F i) := by
  rw [cnt_split P fun F => (says_exists ν aad pt (F i)).choose]
  refine Finset.sum_congr rfl fun t _ => cnt_congr fun F => and_congr_right fun _ => ?_
  have h := (says_exists ν aad pt (F i)).choose_spec
  exact ⟨fun e => e ▸ h, fun h' => says_unique ν aad pt (F i) _ _ h h'⟩

/-- Outcomes of encryptions with different nonces, for each owner. -/
def ProperEach (os : Fin u → Aead) (q : ℕ) (L : Fin u → Log) : Prop := ∀ i, Proper (os i) q (L i)

theorem each_card (os : Fin u → Aead) (q : ℕ) (L : Fin u → Log) (hL : ProperEach os q L) (i : Fin u) (m : AeadQuery)
    (hm : AeadFits (os i) q m.aad m.iv m.pt) (h : m.iv ∉ (L i).map fun e => e.1.iv) (t : Str m.pt.length × Str 16) :
    Fintype.card (Str m.pt.length × Str 16) * cnt (KnownEach os (Function.update L i ((m, t.1.1, t.2.1) :: L i))) =
      cnt (KnownEach os L) := by
  have e := says_card (nu (os i) m.iv) (Known (os i) (L i)) (known_off (os i) q (L i) (hL i) m.iv hm.1 h) m.aad m.pt hm.2.1 t
  have h1 : cnt (KnownEach os (Function.update L i ((m, t.1.1, t.2.1) :: L i))) = cnt fun F : Fin u → Table =>
      (Known (os i) (L i) (F i) ∧ Says (nu (os i) m.iv) m.aad m.pt t.1.1 t.2.1 (F i)) ∧ Others os L i F :=
    cnt_congr fun F => by
      rw [each_cons, known_split os L i]
      tauto
  rw [h1, cnt_congr (known_split os L i)]
  refine le_antisymm ?_ ?_
  · have := lift_le i _ (Known (os i) (L i)) (Others os L i) (others_update os L i) _ 1 (e.trans (Nat.one_mul _).symm).le
    rwa [Nat.one_mul] at this
  · have := lift_le i (Known (os i) (L i)) _ (Others os L i) (others_update os L i) 1 _ ((Nat.one_mul _).trans e.symm).le
    rwa [Nat.one_mul] at this

/-- Something new is accepted with small chance. -/
theorem attempt_each (os : Fin u → Aead) (q : ℕ) (L : Fin u → Log) (hL : ProperEach os q L) (i : Fin u) (x : AeadSent)
    (hx : AeadFits (os i) q x.aad x.iv x.ct) (hnew : lookUp (L i) x = none) :
    2 ^ 106 * cnt (fun F => KnownEach os L F ∧ ∃ pt, Says (nu (os i) x.iv) x.aad pt x.ct x.tag (F i)) ≤
      8 * q * cnt (KnownEach os L) := by
  have h := lift_le i _ _ (Others os L i) (others_update os L i) _ _ (attempt (os i) q (L i) (hL i) x hx hnew)
  rw [cnt_congr (known_split os L i)]
  refine le_of_eq_of_le (congrArg _ (cnt_congr fun F => ?_)) h
  rw [known_split os L i]
  tauto

theorem properEach_cons (os : Fin u → Aead) (q : ℕ) (L : Fin u → Log) (hL : ProperEach os q L) (i : Fin u) (m : AeadQuery)
    (hm : AeadFits (os i) q m.aad m.iv m.pt) (h : m.iv ∉ (L i).map fun e => e.1.iv) (t : Str m.pt.length × Str 16) :
    ProperEach os q (Function.update L i ((m, t.1.1, t.2.1) :: L i)) := by
  intro j
  by_cases hj : j = i
  · subst hj
    rw [Function.update_self]
    exact proper_cons (os j) q (L j) (hL j) m hm h t
  · rw [Function.update_of_ne hj]
    exact hL j

theorem map_update {α β : Type} (L : Fin u → List α) (i : Fin u) (e : α) (f : α → β) :
    (fun j => (Function.update L i (e :: L i) j).map f) =
      Function.update (fun j => (L j).map f) i (f e :: (L i).map f) := by
  funext j
  by_cases hj : j = i
  · subst hj
    rw [Function.update_self, Function.update_self, List.map_cons]
  · rw [Function.update_of_ne hj, Function.update_of_ne hj]

variable (os : Fin u → Aead) (r1 r2 : Bytes) (hk : ∀ i, (os i).key.length = 32) (q : ℕ) {R : Type}
include hk

open Classical in
theorem both_each (accept : R → Prop) (D : OwnersAsker u R) :
    ∀ (L : Fin u → Log) (v : ℕ), ProperEach os q L → FreshEach (fun i => (L i).map fun e => e.1.iv) D →
      D.Within (fun m => AeadAskFits (os m.1) q m.2) → D.CostLe (fun m => openingCost m.2) (fun _ => 0) v →
      |(cnt (fun F : Fin u → Table => KnownEach os L F ∧
            accept (D.run (ownersAnswers os r1 r2 fun i => look (F i)))) : ℚ) -
          chanceEach accept L D * cnt (KnownEach os L)| ≤ v * (8 * q / 2 ^ 106) * cnt (KnownEach os L) := by
  induction D with
  | done r =>
    intro L v _ _ _ _
    have hv : (0 : ℚ) ≤ v * (8 * q / 2 ^ 106) * cnt (KnownEach os L) := by positivity
    rw [chanceEach]
    simp only [Asker.run]
    split
    · next h => simpa [h] using hv
    · next h =>
      rw [cnt_false (fun f x => h x.2)]
      simpa using hv
  | ask m next ih =>
    intro L v hL hF hW hC
    rcases m with ⟨i, m | x⟩
    · obtain ⟨hfresh, hF⟩ := hF
      obtain ⟨hfit, hW⟩ := hW
      obtain ⟨-, hC⟩ := hC
      have hC : ∀ t, (next t).CostLe (fun m => openingCost m.2) (fun _ => 0) v := hC
      have e1 : ∀ t : Str m.pt.length × Str 16, (cnt (KnownEach os L) : ℚ) =
          Fintype.card (Str m.pt.length × Str 16) * cnt (KnownEach os (Function.update L i ((m, t.1.1, t.2.1) :: L i))) := by
        intro t
        rw [← each_card os q L hL i m hfit hfresh t, Nat.cast_mul]
      have e2 : cnt (fun F : Fin u → Table => KnownEach os L F ∧
            accept ((Asker.ask (i, .inl m) next).run (ownersAnswers os r1 r2 fun i => look (F i)))) =
          ∑ t : Str m.pt.length × Str 16, cnt fun F => KnownEach os (Function.update L i ((m, t.1.1, t.2.1) :: L i)) F ∧
            accept ((next (.inl (.ok (t.1.1, t.2.1)))).run (ownersAnswers os r1 r2 fun i => look (F i))) := by
        rw [cnt_each (nu (os i) m.iv) i _ m.aad m.pt]
        refine Finset.sum_congr rfl fun t _ => cnt_congr fun F => ?_
        rw [each_cons]
        have key : Says (nu (os i) m.iv) m.aad m.pt t.1.1 t.2.1 (F i) →
            ownersAnswers os r1 r2 (fun i => look (F i)) (i, .inl m) = .inl (.ok (t.1.1, t.2.1)) := fun h =>
          congrArg Sum.inl ((encryptWith_ok (F i) r1 r2 (os i) m.aad m.iv m.pt _ _ (hk i) hfit.1).mpr h)
        constructor
        · rintro ⟨⟨h1, h2⟩, h3⟩
          rw [Asker.run, key h3] at h2
          exact ⟨⟨h1, h3⟩, h2⟩
        · rintro ⟨⟨h1, h3⟩, h2⟩
          refine ⟨⟨h1, ?_⟩, h3⟩
          rw [Asker.run, key h3]
          exact h2
      have hpos : (Fintype.card (Str m.pt.length × Str 16) : ℚ) ≠ 0 := by
        rw [Fintype.card_prod, card_str, card_str]
        positivity
      have e3 : chanceEach accept L (.ask (i, .inl m) next) * cnt (KnownEach os L) =
          ∑ t : Str m.pt.length × Str 16, chanceEach accept (Function.update L i ((m, t.1.1, t.2.1) :: L i))
            (next (.inl (.ok (t.1.1, t.2.1)))) * cnt (KnownEach os (Function.update L i ((m, t.1.1, t.2.1) :: L i))) := by
        rw [chanceEach, div_mul_eq_mul_div, Finset.sum_mul, Finset.sum_div]
        refine Finset.sum_congr rfl fun t _ => ?_
        rw [e1 t]
        field_simp
      have e4 : (cnt (KnownEach os L) : ℚ) = ∑ t : Str m.pt.length × Str 16,
          (cnt (KnownEach os (Function.update L i ((m, t.1.1, t.2.1) :: L i))) : ℚ) := by
        rw [cnt_each (nu (os i) m.iv) i _ m.aad m.pt, Nat.cast_sum]
        exact Finset.sum_congr rfl fun t _ => congrArg _ (cnt_congr fun F => (each_cons os L i m _ _ F).symm)
      rw [e3, e2, Nat.cast_sum, ← Finset.sum_sub_distrib]
      refine (Finset.abs_sum_le_sum_abs _ _).trans ?_
      rw [e4, Finset.mul_sum]
      refine Finset.sum_le_sum fun t _ => ih _ _ v (properEach_cons os q L hL i m hfit hfresh t) ?_ (hW _) (hC _)
      rw [map_update]
      exact hF _
    · obtain ⟨hfit, hW⟩ := hW
      obtain ⟨h1v, hC⟩ := hC
      have h1v : 1 ≤ v := h1v
      have hC : ∀ t, (next t).CostLe (fun m => openingCost m.2) (fun _ => 0) (v - 1) := hC
      have hcast : ((v - 1 : ℕ) : ℚ) = v - 1 := by rw [Nat.cast_sub h1v, Nat.cast_one]
      have hε : (0 : ℚ) ≤ 8 * q / 2 ^ 106 := by positivity
      rw [chanceEach]
      cases hlook : lookUp (L i) x with
      | some pt =>
        have hmem := lookUp_some (L i) x pt hlook
        have e2 : cnt (fun F : Fin u → Table => KnownEach os L F ∧
              accept ((Asker.ask (i, .inr x) next).run (ownersAnswers os r1 r2 fun i => look (F i)))) =
            cnt (fun F : Fin u → Table => KnownEach os L F ∧
              accept ((next (.inr (.ok (some pt)))).run (ownersAnswers os r1 r2 fun i => look (F i)))) := by
          refine cnt_congr fun F => and_congr_right fun hf => ?_
          have : ownersAnswers os r1 r2 (fun i => look (F i)) (i, .inr x) = .inr (.ok (some pt)) :=
            congrArg Sum.inr (open_some (F i) r1 r2 (os i) x.aad x.iv pt x.ct x.tag (hk i) hfit.1 (hf i _ hmem))
          rw [Asker.run, this]
        rw [e2]
        refine (ih _ L (v - 1) hL (hF _) (hW _) (hC _)).trans ?_
        rw [hcast]
        have : (0 : ℚ) ≤ cnt (KnownEach os L) := by positivity
        nlinarith [mul_nonneg hε this]
      | none =>
        have hi := ih (.inr (.ok none)) L (v - 1) hL (hF _) (hW _) (hC _)
        have hb := attempt_each os q L hL i x hfit hlook
        have hrun : ∀ F : Fin u → Table, (¬ ∃ pt, Says (nu (os i) x.iv) x.aad pt x.ct x.tag (F i)) →
            (Asker.ask (i, .inr x) next).run (ownersAnswers os r1 r2 fun i => look (F i)) =
              (next (.inr (.ok none))).run (ownersAnswers os r1 r2 fun i => look (F i)) := by
          intro F hf
          have : ownersAnswers os r1 r2 (fun i => look (F i)) (i, .inr x) = .inr (.ok none) :=
            congrArg Sum.inr (open_none (F i) r1 r2 (os i) x.aad x.iv x.ct x.tag (hk i) hfit.1 hf)
          rw [Asker.run, this]
        have d1 : cnt (fun F : Fin u → Table => KnownEach os L F ∧
              accept ((Asker.ask (i, .inr x) next).run (ownersAnswers os r1 r2 fun i => look (F i)))) ≤
            cnt (fun F : Fin u → Table => KnownEach os L F ∧
              accept ((next (.inr (.ok none))).run (ownersAnswers os r1 r2 fun i => look (F i)))) +
              cnt (fun F => KnownEach os L F ∧ ∃ pt, Says (nu (os i) x.iv) x.aad pt x.ct x.tag (F i)) := by
          refine le_trans (cnt_mono fun F hf => ?_) (Prf.cnt_or _ _)
          by_cases h : ∃ pt, Says (nu (os i) x.iv) x.aad pt x.ct x.tag (F i)
          · exact Or.inr ⟨hf.1, h⟩
          · exact Or.inl ⟨hf.1, hrun F h ▸ hf.2⟩
        have d2 : cnt (fun F : Fin u → Table => KnownEach os L F ∧
              accept ((next (.inr (.ok none))).run (ownersAnswers os r1 r2 fun i => look (F i)))) ≤
            cnt (fun F : Fin u → Table => KnownEach os L F ∧
              accept ((Asker.ask (i, .inr x) next).run (ownersAnswers os r1 r2 fun i => look (F i)))) +
              cnt (fun F => KnownEach os L F ∧ ∃ pt, Says (nu (os i) x.iv) x.aad pt x.ct x.tag (F i)) := by
          refine le_trans (cnt_mono fun F hf => ?_) (Prf.cnt_or _ _)
          by_cases h : ∃ pt, Says (nu (os i) x.iv) x.aad pt x.ct x.tag (F i)
          · exact Or.inr ⟨hf.1, h⟩
          · exact Or.inl ⟨hf.1, (hrun F h).symm ▸ hf.2⟩
        have hb' : (cnt (fun F => KnownEach os L F ∧ ∃ pt, Says (nu (os i) x.iv) x.aad pt x.ct x.tag (F i)) : ℚ) ≤
            8 * q / 2 ^ 106 * cnt (KnownEach os L) := by
          rw [div_mul_eq_mul_div, le_div_iff₀ (by positivity), mul_comm]
          exact_mod_cast hb
        have d1' := (Nat.cast_le (α := ℚ)).mpr d1
        have d2' := (Nat.cast_le (α := ℚ)).mpr d2
        rw [hcast] at hi
        rw [abs_le] at hi ⊢
        push_cast at d1' d2'
        constructor <;> linarith [hi.1, hi.2]

theorem forges_each (D : OwnersAsker u R) :
    ∀ (L : Fin u → Log) (v : ℕ), ProperEach os q L → FreshEach (fun i => (L i).map fun e => e.1.iv) D →
      D.Within (fun m => AeadAskFits (os m.1) q m.2) → D.CostLe (fun m => openingCost m.2) (fun _ => 0) v →
      2 ^ 106 * cnt (fun F : Fin u → Table => KnownEach os L F ∧ ForgesEach (ownersAnswers os r1 r2 fun i => look (F i))
          (fun i => (L i).map fun e => (e.1, .ok e.2)) D) ≤ v * (8 * q) * cnt (KnownEach os L) := by
  induction D with
  | done r =>
    intro L v _ _ _ _
    rw [cnt_false fun f h => h.2, Nat.mul_zero]
    exact Nat.zero_le _
  | ask m next ih =>
    intro L v hL hF hW hC
    rcases m with ⟨i, m | x⟩
    · obtain ⟨hfresh, hF⟩ := hF
      obtain ⟨hfit, hW⟩ := hW
      obtain ⟨-, hC⟩ := hC
      have hC : ∀ t, (next t).CostLe (fun m => openingCost m.2) (fun _ => 0) v := hC
      rw [cnt_each (nu (os i) m.iv) i _ m.aad m.pt, cnt_each (nu (os i) m.iv) i (KnownEach os L) m.aad m.pt,
        Finset.mul_sum, Finset.mul_sum]
      refine Finset.sum_le_sum fun t _ => ?_
      have := ih (.inl (.ok (t.1.1, t.2.1))) (Function.update L i ((m, t.1.1, t.2.1) :: L i)) v
        (properEach_cons os q L hL i m hfit hfresh t) (by rw [map_update]; exact hF _) (hW _) (hC _)
      rw [cnt_congr (each_cons os L i m _ _), map_update] at this
      refine le_trans (Nat.mul_le_mul_left _ (cnt_mono ?_)) this
      rintro F ⟨⟨h1, h2⟩, h3⟩
      refine ⟨(each_cons os L i m _ _ F).mpr ⟨h1, h3⟩, ?_⟩
      have key : ownersAnswers os r1 r2 (fun i => look (F i)) (i, .inl m) = .inl (.ok (t.1.1, t.2.1)) :=
        congrArg Sum.inl ((encryptWith_ok (F i) r1 r2 (os i) m.aad m.iv m.pt _ _ (hk i) hfit.1).mpr h3)
      rw [ForgesEach, key] at h2
      exact h2
    · obtain ⟨hfit, hW⟩ := hW
      obtain ⟨h1v, hC⟩ := hC
      have h1v : 1 ≤ v := h1v
      have hC : ∀ t, (next t).CostLe (fun m => openingCost m.2) (fun _ => 0) (v - 1) := hC
      cases hlook : lookUp (L i) x with
      | some pt =>
        have hmem := lookUp_some (L i) x pt hlook
        have hi := ih (.inr (.ok (some pt))) L (v - 1) hL (hF _) (hW _) (hC _)
        refine le_trans (Nat.mul_le_mul_left _ (cnt_mono ?_)) (hi.trans ?_)
        · rintro F ⟨hf, hw⟩
          have key : ownersAnswers os r1 r2 (fun i => look (F i)) (i, .inr x) = .inr (.ok (some pt)) :=
            congrArg Sum.inr (open_some (F i) r1 r2 (os i) x.aad x.iv pt x.ct x.tag (hk i) hfit.1 (hf i _ hmem))
          rw [ForgesEach, key] at hw
          refine ⟨hf, hw.resolve_left ?_⟩
          rintro ⟨pt', e, hn⟩
          have e := Option.some.inj (Except.ok.inj (Sum.inr.inj e))
          subst e
          exact hn (List.mem_map.mpr ⟨_, hmem, rfl⟩)
        · exact Nat.mul_le_mul_right _ (Nat.mul_le_mul_right _ (Nat.sub_le _ _))
      | none =>
        have hi := ih (.inr (.ok none)) L (v - 1) hL (hF _) (hW _) (hC _)
        have hb := attempt_each os q L hL i x hfit hlook
        have hle : cnt (fun F : Fin u → Table => KnownEach os L F ∧ ForgesEach (ownersAnswers os r1 r2 fun i => look (F i))
            (fun i => (L i).map fun e => (e.1, .ok e.2)) (.ask (i, .inr x) next)) ≤
            cnt (fun F : Fin u → Table => KnownEach os L F ∧ ForgesEach (ownersAnswers os r1 r2 fun i => look (F i))
              (fun i => (L i).map fun e => (e.1, .ok e.2)) (next (.inr (.ok none)))) +
              cnt (fun F => KnownEach os L F ∧ ∃ pt, Says (nu (os i) x.iv) x.aad pt x.ct x.tag (F i)) := by
          refine le_trans (cnt_mono fun F hf => ?_) (Prf.cnt_or _ _)
          by_cases h : ∃ pt, Says (nu (os i) x.iv) x.aad pt x.ct x.tag (F i)
          · exact Or.inr ⟨hf.1, h⟩
          · refine Or.inl ⟨hf.1, ?_⟩
            have key : ownersAnswers os r1 r2 (fun i => look (F i)) (i, .inr x) = .inr (.ok none) :=
              congrArg Sum.inr (open_none (F i) r1 r2 (os i) x.aad x.iv x.ct x.tag (hk i) hfit.1 h)
            have hw := hf.2
            rw [ForgesEach, key] at hw
            refine hw.resolve_left ?_
            rintro ⟨pt', e, -⟩
            simp at e
        refine (Nat.mul_le_mul_left _ hle).trans ?_
        rw [Nat.mul_add]
        refine (Nat.add_le_add hi hb).trans (le_of_eq ?_)
        obtain ⟨w, rfl⟩ : ∃ w, v = w + 1 := ⟨v - 1, by omega⟩
        rw [Nat.add_sub_cancel]
        ring

end Cpoly

/-- C188: `u` owners of keys.  Somebody asks owners of their choice for encryptions, never twice under a nonce of the same
owner, and `v` times in all for the opening of a ciphertext with associated data, nonce and tag, all with inputs of Poly1305
of at most `q` blocks.  With a random function for each owner in place of the block function of ChaCha20, the chance of any
result differs by at most `8 q v / 2^106` from the chance when each encryption is a fresh random string with a random tag
and each owner accepts exactly what was an outcome of an earlier encryption of their own. -/
theorem C188_authenticated_encryption {u : ℕ} (os : Fin u → Aead) (rand1 rand2 : Bytes) (hk : ∀ i, (os i).key.length = 32)
    (q v : ℕ) {R : Type} (accept : R → Prop) (D : OwnersAsker u R) (hF : FreshEach (fun _ => []) D)
    (hW : D.Within fun m => AeadAskFits (os m.1) q m.2) (hC : D.CostLe (fun m => openingCost m.2) (fun _ => 0) v) :
    |(Nat.card {F : Fin u → Table // accept (D.run (ownersAnswers os rand1 rand2 fun i => look (F i)))} : ℚ) /
        Nat.card (Fin u → Table) - chanceEach accept (fun _ => []) D| ≤ v * (8 * q / 2 ^ 106) := by
  have h := Cpoly.both_each os rand1 rand2 hk q accept D (fun _ => []) v (fun _ => ⟨by simp, by simp⟩) hF hW hC
  have hT : cnt (Cpoly.KnownEach os fun _ => []) = Nat.card (Fin u → Table) := by
    rw [Nat.card_eq_fintype_card, ← cnt_true]
    exact cnt_congr fun F => by simp [Cpoly.KnownEach, Cpoly.Known]
  have hA : cnt (fun F : Fin u → Table => Cpoly.KnownEach os (fun _ => []) F ∧
        accept (D.run (ownersAnswers os rand1 rand2 fun i => look (F i)))) =
      Nat.card {F : Fin u → Table // accept (D.run (ownersAnswers os rand1 rand2 fun i => look (F i)))} :=
    cnt_congr (Q := fun F : Fin u → Table => accept (D.run (ownersAnswers os rand1 rand2 fun i => look (F i)))) fun F => by
      simp [Cpoly.KnownEach, Cpoly.Known]
  rw [hT, hA] at h
  have hpos : (0 : ℚ) < Nat.card (Fin u → Table) := Nat.cast_pos.mpr (Cpoly.card_tables_pos u)
  rw [← mul_le_mul_iff_of_pos_right hpos, ← abs_of_pos hpos, ← abs_mul, abs_of_pos hpos, sub_mul,
    div_mul_cancel₀ _ hpos.ne']
  exact h

/-- Somebody who gets an encryption of each of two owners under the same nonce, and sends what the first one made to the
second. -/
def passOn : OwnersAsker 2 Bool :=
  .ask (0, .inl ⟨[5], List.replicate 8 6, [7, 8]⟩) fun a => .ask (1, .inl ⟨[5], List.replicate 8 6, [7, 9]⟩) fun _ =>
    match a with
    | .inl (.ok (ct, tag)) => .ask (1, .inr ⟨[5], List.replicate 8 6, ct.take 2, tag⟩) fun b => .done (b != .inr (.ok none))
    | _ => .done false

/-- Their keys; the keys have no part in the theorems with random functions. -/
def twoOwners (i : Fin 2) : Aead := ⟨List.replicate 32 (UInt8.ofNat i), [1, 2, 3, 4]⟩

theorem passOn_fresh : FreshEach (fun _ => []) passOn := by
  refine ⟨by simp, fun t => ⟨by simp, fun _ => ?_⟩⟩
  rcases t with (_ | ⟨ct, tag⟩) | t
  · trivial
  · exact fun _ => trivial
  · trivial

theorem passOn_fits : passOn.Within fun m => AeadAskFits (twoOwners m.1) 3 m.2 := by
  refine ⟨⟨rfl, by decide, by decide, by decide⟩, fun t => ⟨⟨rfl, by decide, by decide, by decide⟩, fun _ => ?_⟩⟩
  rcases t with (_ | ⟨ct, tag⟩) | t
  · trivial
  · have h : (ct.take 2).length ≤ 2 := by simp
    refine ⟨⟨rfl, ?_, by simp, ?_⟩, fun _ => trivial⟩
    · dsimp only
      omega
    · dsimp only
      rw [List.length_singleton]
      omega
  · trivial

theorem passOn_cost : passOn.CostLe (fun m => openingCost m.2) (fun _ => 0) 1 := by
  refine ⟨Nat.zero_le _, fun t => ⟨Nat.zero_le _, fun _ => ?_⟩⟩
  rcases t with (_ | ⟨ct, tag⟩) | t
  · exact Nat.zero_le _
  · exact ⟨le_refl 1, fun _ => Nat.zero_le _⟩
  · exact Nat.zero_le _

/-- The strategy above meets the hypotheses. -/
example := C188_authenticated_encryption twoOwners [] [] (fun _ => by simp [twoOwners]) 3 1 (· = true) passOn passOn_fresh
  passOn_fits passOn_cost

/-- C188: some owner accepts something that was not an outcome of an earlier encryption of their own for at most `8 q v` in
`2^106` choices of functions in place of the block function. -/
theorem C188_forgery {u : ℕ} (os : Fin u → Aead) (rand1 rand2 : Bytes) (hk : ∀ i, (os i).key.length = 32) (q v : ℕ)
    {R : Type} (D : OwnersAsker u R) (hF : FreshEach (fun _ => []) D) (hW : D.Within fun m => AeadAskFits (os m.1) q m.2)
    (hC : D.CostLe (fun m => openingCost m.2) (fun _ => 0) v) :
    2 ^ 106 * Nat.card {F : Fin u → Table // ForgesEach (ownersAnswers os rand1 rand2 fun i => look (F i)) (fun _ => []) D} ≤
      v * (8 * q) * Nat.card (Fin u → Table) := by
  have h := Cpoly.forges_each os rand1 rand2 hk q D (fun _ => []) v (fun _ => ⟨by simp, by simp⟩) hF hW hC
  have hT : cnt (Cpoly.KnownEach os fun _ => []) = Nat.card (Fin u → Table) := by
    rw [Nat.card_eq_fintype_card, ← cnt_true]
    exact cnt_congr fun F => by simp [Cpoly.KnownEach, Cpoly.Known]
  have hA : cnt (fun F : Fin u → Table => Cpoly.KnownEach os (fun _ => []) F ∧
        ForgesEach (ownersAnswers os rand1 rand2 fun i => look (F i)) (fun _ => []) D) =
      Nat.card {F : Fin u → Table // ForgesEach (ownersAnswers os rand1 rand2 fun i => look (F i)) (fun _ => []) D} :=
    cnt_congr (Q := fun F : Fin u → Table => ForgesEach (ownersAnswers os rand1 rand2 fun i => look (F i)) (fun _ => []) D)
      fun F => by simp [Cpoly.KnownEach, Cpoly.Known]
  rw [hT] at h
  rw [← hA]
  exact h

/-- The strategy above meets the hypotheses. -/
example := C188_forgery twoOwners [] [] (fun _ => by simp [twoOwners]) 3 1 passOn passOn_fresh passOn_fits passOn_cost

end Cryptopy
