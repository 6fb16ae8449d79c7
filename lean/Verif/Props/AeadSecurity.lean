import Verif.Lemmas.AeadForge
import Mathlib.Tactic.Linarith
import Mathlib.Tactic.FieldSimp
import Mathlib.Algebra.Order.BigOperators.Group.Finset
import Mathlib.Algebra.Order.BigOperators.Ring.Finset
import Mathlib.Algebra.BigOperators.Field

/-!
C167 and C168: the AEAD of `chacha_poly.py` with a random function in place of the block function of ChaCha20.
-/

namespace Cryptopy
open Model (ChaCha Aead poly1305Mac macData)
open Spec (Str AeadQuery AeadSent AeadAsk AeadAnswer AeadAsker FreshNonces lookUp chance Forges Asker)
open Cpoly (Table look nonceBits Says cipher otk blocks)
open Prf (cnt cnt_split cnt_mono cnt_congr cnt_exists cnt_true cnt_false)

/-- The answers of the object `o` with `block` in place of `chacha20_block`. -/
def aeadAnswers (o : Aead) (r1 r2 : Bytes) (block : ChaCha → Bytes) : AeadAsk → AeadAnswer
  | .inl m => .inl (o.encryptWith block r1 r2 m.aad m.iv m.pt)
  | .inr x => .inr (o.openWith block r1 r2 x.aad x.iv x.ct x.tag)

/-- The nonce has twelve octets, the text is not too long for the counter, the lengths fit in the length fields, and the
input of Poly1305 has at most `q` blocks. -/
def AeadFits (o : Aead) (q : ℕ) (aad iv text : Bytes) : Prop :=
  (o.constant ++ iv).length = 12 ∧ 1 + (text.length + 63) / 64 ≤ 2 ^ 32 ∧ aad.length < 2 ^ 64 ∧
    (aad.length + 15) / 16 + (text.length + 15) / 16 + 1 ≤ q

/-- The same for questions. -/
def AeadAskFits (o : Aead) (q : ℕ) : AeadAsk → Prop
  | .inl m => AeadFits o q m.aad m.iv m.pt
  | .inr x => AeadFits o q x.aad x.iv x.ct

/-- Only openings are counted. -/
def openingCost : AeadAsk → ℕ
  | .inl _ => 0
  | .inr _ => 1

namespace Cpoly

/-- The number of the nonce. -/
def nu (o : Aead) (iv : Bytes) : BitVec 96 := nonceBits (o.constant ++ iv)

theorem nu_ne (o : Aead) (a b : Bytes) (ha : (o.constant ++ a).length = 12) (hb : (o.constant ++ b).length = 12)
    (h : a ≠ b) : nu o a ≠ nu o b := fun e =>
  h (List.append_cancel_left (nonceBits_inj _ _ ha hb e))

theorem length_macData (aad ct : Bytes) (q : ℕ) (h : (aad.length + 15) / 16 + (ct.length + 15) / 16 + 1 ≤ q) :
    (macData aad ct).length ≤ 16 * q := by
  have hp : ∀ x : Bytes, x.length + (Model.pad16 x).length = 16 * ((x.length + 15) / 16) := by
    intro x
    rw [Model.pad16]
    split
    · simp; omega
    · rw [List.length_replicate]; omega
  have h1 := hp aad
  have h2 := hp ct
  have hn : ∀ n, (Model.numToLeBytes 8 n).length = 8 := fun n => by simp [Model.numToLeBytes]
  simp only [macData, List.length_append, hn]
  omega

theorem open_some (f : Table) (r1 r2 : Bytes) (o : Aead) (aad iv pt ct tag : Bytes) (hk : o.key.length = 32)
    (hn : (o.constant ++ iv).length = 12) (h : Says (nu o iv) aad pt ct tag f) :
    o.openWith (look f) r1 r2 aad iv ct tag = .ok (some pt) := by
  obtain ⟨t, -, ht⟩ := mac_ok (macData aad pt) _ (length_otk f (nu o iv))
  have h1 : o.encryptWith (look f) r1 r2 aad iv ct = .ok (pt, t) :=
    (encryptWith_ok f r1 r2 o aad iv ct pt t hk hn).mpr ⟨by
      rw [← h.1]
      exact cipher_cipher f _ pt, ht⟩
  have h2 : o.encryptWith (look f) r1 r2 aad iv pt = .ok (ct, tag) :=
    (encryptWith_ok f r1 r2 o aad iv pt ct tag hk hn).mpr h
  rw [Aead.openWith, Aead.decryptWith, h1]
  simp only [h2, if_true]

theorem open_none (f : Table) (r1 r2 : Bytes) (o : Aead) (aad iv ct tag : Bytes) (hk : o.key.length = 32)
    (hn : (o.constant ++ iv).length = 12) (h : ¬ ∃ pt, Says (nu o iv) aad pt ct tag f) :
    o.openWith (look f) r1 r2 aad iv ct tag = .ok none := by
  obtain ⟨t, -, ht⟩ := mac_ok (macData aad (cipher f (nu o iv) ct)) _ (length_otk f (nu o iv))
  have h1 : o.encryptWith (look f) r1 r2 aad iv ct = .ok (cipher f (nu o iv) ct, t) :=
    (encryptWith_ok f r1 r2 o aad iv ct _ t hk hn).mpr ⟨rfl, ht⟩
  obtain ⟨t', -, ht'⟩ := mac_ok (macData aad ct) _ (length_otk f (nu o iv))
  have h2 : o.encryptWith (look f) r1 r2 aad iv (cipher f (nu o iv) ct) = .ok (ct, t') :=
    (encryptWith_ok f r1 r2 o aad iv _ ct t' hk hn).mpr ⟨cipher_cipher f _ ct, ht'⟩
  rw [Aead.openWith, Aead.decryptWith, h1]
  simp only [h2]
  rw [if_neg]
  intro e
  rw [Prod.mk.injEq] at e
  exact h ⟨cipher f (nu o iv) ct, cipher_cipher f _ ct, e.2 ▸ ht'⟩

/-- Encryptions with their outcomes. -/
abbrev Log : Type := List (AeadQuery × Bytes × Bytes)

/-- What the outcomes say about the table. -/
def Known (o : Aead) (L : Log) (f : Table) : Prop := ∀ e ∈ L, Says (nu o e.1.iv) e.1.aad e.1.pt e.2.1 e.2.2 f

/-- Outcomes of encryptions with different nonces. -/
def Proper (o : Aead) (q : ℕ) (L : Log) : Prop :=
  (∀ e ∈ L, AeadFits o q e.1.aad e.1.iv e.1.pt ∧ e.2.1.length = e.1.pt.length ∧ e.2.2.length = 16) ∧
    L.Pairwise fun e e' => e.1.iv ≠ e'.1.iv

theorem known_off (o : Aead) (q : ℕ) (L : Log) (hL : Proper o q L) (iv : Bytes) (hn : (o.constant ++ iv).length = 12)
    (h : iv ∉ L.map fun e => e.1.iv) : Off (nu o iv) (Known o L) := by
  intro f g e hf x hx
  refine says_off _ _ (nu_ne o _ _ (hL.1 x hx).1.1 hn fun e' => ?_) _ _ _ _ f g e (hf x hx)
  exact h (List.mem_map.mpr ⟨x, hx, e'⟩)

theorem known_cons (o : Aead) (L : Log) (m : AeadQuery) (ct tag : Bytes) (f : Table) :
    Known o ((m, ct, tag) :: L) f ↔ Known o L f ∧ Says (nu o m.iv) m.aad m.pt ct tag f := by
  rw [Known, List.forall_mem_cons]
  exact and_comm

theorem lookUp_some (L : Log) (x : AeadSent) (pt : Bytes) (h : lookUp L x = some pt) :
    (⟨x.aad, x.iv, pt⟩, x.ct, x.tag) ∈ L := by
  rw [lookUp, Option.map_eq_some_iff] at h
  obtain ⟨⟨⟨a, i, p⟩, ct, tag⟩, he, rfl⟩ := h
  have h1 := List.find?_some he
  have h2 := List.mem_of_find?_eq_some he
  simp only [decide_eq_true_eq, Prod.mk.injEq] at h1
  obtain ⟨rfl, rfl, rfl, rfl⟩ := h1
  exact h2

theorem lookUp_none (L : Log) (x : AeadSent) (h : lookUp L x = none) (e) (he : e ∈ L) :
    ¬ (e.1.aad = x.aad ∧ e.1.iv = x.iv ∧ e.2 = (x.ct, x.tag)) := by
  rw [lookUp, Option.map_eq_none_iff, List.find?_eq_none] at h
  simpa using h e he

theorem says_tag (ν : BitVec 96) (aad pt ct tag : Bytes) (f : Table) (h : Says ν aad pt ct tag f) :
    ct.length = pt.length ∧ tag.length = 16 := by
  obtain ⟨t, ht, e⟩ := mac_ok (macData aad ct) _ (length_otk f ν)
  refine ⟨h.1 ▸ length_cipher f ν pt, ?_⟩
  rw [← Except.ok.inj (e.symm.trans h.2)]
  exact ht

/-- Something new is accepted with small chance. -/
theorem attempt (o : Aead) (q : ℕ) (L : Log) (hL : Proper o q L) (x : AeadSent) (hx : AeadFits o q x.aad x.iv x.ct)
    (hnew : lookUp L x = none) :
    2 ^ 106 * cnt (fun f => Known o L f ∧ ∃ pt, Says (nu o x.iv) x.aad pt x.ct x.tag f) ≤ 8 * q * cnt (Known o L) := by
  classical
  by_cases hiv : x.iv ∈ L.map fun e => e.1.iv
  · obtain ⟨e, he, hei⟩ := List.mem_map.mp hiv
    have hp := hL.1 e he
    by_cases hm : macData e.1.aad e.2.1 = macData x.aad x.ct
    · rw [cnt_false, Nat.mul_zero]
      · exact Nat.zero_le _
      · rintro f ⟨hf, pt, hs⟩
        have h1 := hf e he
        have lt : ∀ b : Bytes, 1 + (b.length + 63) / 64 ≤ 2 ^ 32 → b.length < 2 ^ 64 := fun b hb => by omega
        obtain ⟨h2, h3⟩ := C33_mac_input_injective e.1.aad e.2.1 x.aad x.ct hp.1.2.2.1
          (by rw [hp.2.1]; exact lt _ hp.1.2.1) hx.2.2.1 (lt _ hx.2.1) hm
        have h4 := h1.2
        rw [hm, hei] at h4
        exact lookUp_none L x hnew e he ⟨h2, hei, Prod.ext h3 (Except.ok.inj (h4.symm.trans hs.2))⟩
    · by_cases ht : x.tag.length = 16
      · let A : Table → Prop := fun f => (∀ e' ∈ L, e' ≠ e → Says (nu o e'.1.iv) e'.1.aad e'.1.pt e'.2.1 e'.2.2 f) ∧
          cipher f (nu o x.iv) e.1.pt = e.2.1
        have hA : OffKey (nu o x.iv) A := by
          intro f g h hf
          refine ⟨fun e' he' hne => ?_, offKey_cipher _ _ _ hp.1.2.1 f g h hf.2⟩
          have hd : e'.1.iv ≠ e.1.iv := by
            have hsym : Std.Symm fun e e' : AeadQuery × Bytes × Bytes => e.1.iv ≠ e'.1.iv := ⟨fun _ _ h => h.symm⟩
            exact hL.2.forall he' he hne
          exact offKey_of_ne _ _ (nu_ne o _ _ (hL.1 e' he').1.1 hx.1 (hei ▸ hd)) _ _ _ _ f g h (hf.1 e' he' hne)
        have hk : ∀ f, Known o L f ↔ A f ∧ poly1305Mac (macData e.1.aad e.2.1) (otk f (nu o x.iv)) = .ok e.2.2 := by
          intro f
          constructor
          · intro hf
            have := hf e he
            rw [hei] at this
            exact ⟨⟨fun e' he' _ => hf e' he', this.1⟩, this.2⟩
          · rintro ⟨⟨h1, h2⟩, h3⟩ e' he'
            by_cases h : e' = e
            · subst h
              rw [hei]
              exact ⟨h2, h3⟩
            · exact h1 e' he' h
        have b := key_forgery (nu o x.iv) A hA _ _ e.2.2 x.tag hm q
          (length_macData _ _ q (by rw [hp.2.1]; exact hp.1.2.2.2)) (length_macData _ _ q hx.2.2.2) hp.2.2 ht
        rw [cnt_congr hk]
        refine (Nat.mul_le_mul_left _ (cnt_mono ?_)).trans b
        rintro f ⟨hf, pt, hs⟩
        have := (hk f).mp hf
        exact ⟨this.1, this.2, hs.2⟩
      · rw [cnt_false, Nat.mul_zero]
        · exact Nat.zero_le _
        · rintro f ⟨-, pt, hs⟩
          exact ht (says_tag _ _ _ _ _ f hs).2
  · by_cases ht : x.tag.length = 16
    · have ho := known_off o q L hL x.iv hx.1 hiv
      have h1 : cnt (fun f => Known o L f ∧ ∃ pt, Says (nu o x.iv) x.aad pt x.ct x.tag f) ≤
          ∑ pt : Str x.ct.length, cnt fun f => Known o L f ∧ Says (nu o x.iv) x.aad pt.1 x.ct x.tag f := by
        refine le_trans (cnt_mono ?_) (cnt_exists Finset.univ _)
        rintro f ⟨hf, pt, hs⟩
        exact ⟨⟨pt, (says_tag _ _ _ _ _ f hs).1.symm⟩, Finset.mem_univ _, hf, hs⟩
      have h2 : ∀ pt : Str x.ct.length, 256 ^ x.ct.length * 2 ^ 128 *
          cnt (fun f => Known o L f ∧ Says (nu o x.iv) x.aad pt.1 x.ct x.tag f) = cnt (Known o L) := by
        intro pt
        have := says_card (nu o x.iv) (Known o L) ho x.aad pt.1 (by rw [blocks, pt.2]; exact hx.2.1)
          (⟨x.ct, pt.2.symm⟩, ⟨x.tag, ht⟩)
        dsimp only at this
        rw [Fintype.card_prod, card_str, card_str, pt.2] at this
        rw [← this]
        norm_num
      have h3 : 256 ^ x.ct.length * 2 ^ 128 * (∑ pt : Str x.ct.length,
          cnt fun f => Known o L f ∧ Says (nu o x.iv) x.aad pt.1 x.ct x.tag f) = 256 ^ x.ct.length * cnt (Known o L) := by
        rw [Finset.mul_sum, Finset.sum_congr rfl fun pt _ => h2 pt, Finset.sum_const, Finset.card_univ, card_str,
          smul_eq_mul]
      have h4 : 2 ^ 128 * (∑ pt : Str x.ct.length,
          cnt fun f => Known o L f ∧ Says (nu o x.iv) x.aad pt.1 x.ct x.tag f) = cnt (Known o L) := by
        refine Nat.eq_of_mul_eq_mul_left (pow_pos (by norm_num : 0 < 256) x.ct.length) ?_
        rw [← h3, Nat.mul_assoc]
      have hq : 1 ≤ q := by have := hx.2.2.2; omega
      calc _ ≤ 2 ^ 128 * (∑ pt : Str x.ct.length,
            cnt fun f => Known o L f ∧ Says (nu o x.iv) x.aad pt.1 x.ct x.tag f) :=
            Nat.mul_le_mul (by norm_num) h1
        _ = cnt (Known o L) := h4
        _ ≤ 8 * q * cnt (Known o L) := Nat.le_mul_of_pos_left _ (by omega)
    · rw [cnt_false, Nat.mul_zero]
      · exact Nat.zero_le _
      · rintro f ⟨-, pt, hs⟩
        exact ht (says_tag _ _ _ _ _ f hs).2

theorem proper_cons (o : Aead) (q : ℕ) (L : Log) (hL : Proper o q L) (m : AeadQuery) (hm : AeadFits o q m.aad m.iv m.pt)
    (h : m.iv ∉ L.map fun e => e.1.iv) (t : Str m.pt.length × Str 16) : Proper o q ((m, t.1.1, t.2.1) :: L) := by
  refine ⟨?_, ?_⟩
  · intro e he
    rcases List.mem_cons.mp he with rfl | he
    · exact ⟨hm, t.1.2, t.2.2⟩
    · exact hL.1 e he
  · refine List.pairwise_cons.mpr ⟨fun e he e' => h ?_, hL.2⟩
    exact List.mem_map.mpr ⟨e, he, e'.symm⟩

open Classical in
theorem both (o : Aead) (r1 r2 : Bytes) (hk : o.key.length = 32) (q : ℕ) {R : Type} (accept : R → Prop) (D : AeadAsker R) :
    ∀ (L : Log) (v : ℕ), Proper o q L → FreshNonces (L.map fun e => e.1.iv) D → D.Within (AeadAskFits o q) →
      D.CostLe openingCost (fun _ => 0) v →
      |(cnt (fun f : Table => Known o L f ∧ accept (D.run (aeadAnswers o r1 r2 (look f)))) : ℚ) -
          chance accept L D * cnt (Known o L)| ≤ v * (8 * q / 2 ^ 106) * cnt (Known o L) := by
  induction D with
  | done r =>
    intro L v _ _ _ _
    have hv : (0 : ℚ) ≤ v * (8 * q / 2 ^ 106) * cnt (Known o L) := by positivity
    rw [chance]
    simp only [Asker.run]
    split
    · next h => simpa [h] using hv
    · next h =>
      rw [cnt_false (fun f x => h x.2)]
      simpa using hv
  | ask m next ih =>
    intro L v hL hF hW hC
    rcases m with m | x
    · obtain ⟨hfresh, hF⟩ := hF
      obtain ⟨hfit, hW⟩ := hW
      obtain ⟨-, hC⟩ := hC
      rw [openingCost, Nat.sub_zero] at hC
      have ho := known_off o q L hL m.iv hfit.1 hfresh
      have e1 : ∀ t : Str m.pt.length × Str 16, (cnt (Known o L) : ℚ) =
          Fintype.card (Str m.pt.length × Str 16) * cnt (Known o ((m, t.1.1, t.2.1) :: L)) := by
        intro t
        rw [← says_card (nu o m.iv) (Known o L) ho m.aad m.pt hfit.2.1 t, Nat.cast_mul]
        congr 2
        exact cnt_congr fun f => (known_cons o L m _ _ f).symm
      have e2 : cnt (fun f : Table => Known o L f ∧ accept ((Asker.ask (.inl m) next).run (aeadAnswers o r1 r2 (look f)))) =
          ∑ t : Str m.pt.length × Str 16, cnt fun f => Known o ((m, t.1.1, t.2.1) :: L) f ∧
            accept ((next (.inl (.ok (t.1.1, t.2.1)))).run (aeadAnswers o r1 r2 (look f))) := by
        rw [cnt_says (nu o m.iv) _ m.aad m.pt]
        refine Finset.sum_congr rfl fun t _ => cnt_congr fun f => ?_
        rw [known_cons]
        have key : Says (nu o m.iv) m.aad m.pt t.1.1 t.2.1 f →
            aeadAnswers o r1 r2 (look f) (.inl m) = .inl (.ok (t.1.1, t.2.1)) := fun h =>
          congrArg Sum.inl ((encryptWith_ok f r1 r2 o m.aad m.iv m.pt _ _ hk hfit.1).mpr h)
        constructor
        · rintro ⟨⟨h1, h2⟩, h3⟩
          rw [Asker.run, key h3] at h2
          exact ⟨⟨h1, h3⟩, h2⟩
        · rintro ⟨⟨h1, h3⟩, h2⟩
          refine ⟨⟨h1, ?_⟩, h3⟩
          rw [Asker.run, key h3]
          exact h2
      have hpos : (Fintype.card (Str m.pt.length × Str 16) : ℚ) ≠ 0 := by
        rw [Fintype.card_prod, card_str, card_str]
        positivity
      have e3 : chance accept L (.ask (.inl m) next) * cnt (Known o L) =
          ∑ t : Str m.pt.length × Str 16, chance accept ((m, t.1.1, t.2.1) :: L) (next (.inl (.ok (t.1.1, t.2.1)))) *
            cnt (Known o ((m, t.1.1, t.2.1) :: L)) := by
        rw [chance, div_mul_eq_mul_div, Finset.sum_mul, Finset.sum_div]
        refine Finset.sum_congr rfl fun t _ => ?_
        rw [e1 t]
        field_simp
      have e4 : (cnt (Known o L) : ℚ) = ∑ t : Str m.pt.length × Str 16, (cnt (Known o ((m, t.1.1, t.2.1) :: L)) : ℚ) := by
        rw [cnt_says (nu o m.iv) _ m.aad m.pt, Nat.cast_sum]
        exact Finset.sum_congr rfl fun t _ => congrArg _ (cnt_congr fun f => (known_cons o L m _ _ f).symm)
      rw [e3, e2, Nat.cast_sum, ← Finset.sum_sub_distrib]
      refine (Finset.abs_sum_le_sum_abs _ _).trans ?_
      rw [e4, Finset.mul_sum]
      exact Finset.sum_le_sum fun t _ => ih _ _ v (proper_cons o q L hL m hfit hfresh t) (hF _) (hW _) (hC _)
    · obtain ⟨hfit, hW⟩ := hW
      obtain ⟨h1v, hC⟩ := hC
      have h1v : 1 ≤ v := h1v
      have hC : ∀ t, (next t).CostLe openingCost (fun _ => 0) (v - 1) := hC
      have hcast : ((v - 1 : ℕ) : ℚ) = v - 1 := by rw [Nat.cast_sub h1v, Nat.cast_one]
      have hε : (0 : ℚ) ≤ 8 * q / 2 ^ 106 := by positivity
      rw [chance]
      cases hlook : lookUp L x with
      | some pt =>
        have hmem := lookUp_some L x pt hlook
        have e2 : cnt (fun f : Table => Known o L f ∧ accept ((Asker.ask (.inr x) next).run (aeadAnswers o r1 r2 (look f)))) =
            cnt (fun f : Table => Known o L f ∧ accept ((next (.inr (.ok (some pt)))).run (aeadAnswers o r1 r2 (look f)))) := by
          refine cnt_congr fun f => and_congr_right fun hf => ?_
          have : aeadAnswers o r1 r2 (look f) (.inr x) = .inr (.ok (some pt)) :=
            congrArg Sum.inr (open_some f r1 r2 o x.aad x.iv pt x.ct x.tag hk hfit.1 (hf _ hmem))
          rw [Asker.run, this]
        rw [e2]
        refine (ih _ L (v - 1) hL (hF _) (hW _) (hC _)).trans ?_
        rw [hcast]
        have : (0 : ℚ) ≤ cnt (Known o L) := by positivity
        nlinarith [mul_nonneg hε this]
      | none =>
        have hi := ih (.inr (.ok none)) L (v - 1) hL (hF _) (hW _) (hC _)
        have hb := attempt o q L hL x hfit hlook
        have hrun : ∀ f : Table, (¬ ∃ pt, Says (nu o x.iv) x.aad pt x.ct x.tag f) →
            (Asker.ask (.inr x) next).run (aeadAnswers o r1 r2 (look f)) =
              (next (.inr (.ok none))).run (aeadAnswers o r1 r2 (look f)) := by
          intro f hf
          have : aeadAnswers o r1 r2 (look f) (.inr x) = .inr (.ok none) :=
            congrArg Sum.inr (open_none f r1 r2 o x.aad x.iv x.ct x.tag hk hfit.1 hf)
          rw [Asker.run, this]
        have d1 : cnt (fun f : Table => Known o L f ∧ accept ((Asker.ask (.inr x) next).run (aeadAnswers o r1 r2 (look f)))) ≤
            cnt (fun f : Table => Known o L f ∧ accept ((next (.inr (.ok none))).run (aeadAnswers o r1 r2 (look f)))) +
              cnt (fun f => Known o L f ∧ ∃ pt, Says (nu o x.iv) x.aad pt x.ct x.tag f) := by
          refine le_trans (cnt_mono fun f hf => ?_) (Prf.cnt_or _ _)
          by_cases h : ∃ pt, Says (nu o x.iv) x.aad pt x.ct x.tag f
          · exact Or.inr ⟨hf.1, h⟩
          · exact Or.inl ⟨hf.1, hrun f h ▸ hf.2⟩
        have d2 : cnt (fun f : Table => Known o L f ∧ accept ((next (.inr (.ok none))).run (aeadAnswers o r1 r2 (look f)))) ≤
            cnt (fun f : Table => Known o L f ∧ accept ((Asker.ask (.inr x) next).run (aeadAnswers o r1 r2 (look f)))) +
              cnt (fun f => Known o L f ∧ ∃ pt, Says (nu o x.iv) x.aad pt x.ct x.tag f) := by
          refine le_trans (cnt_mono fun f hf => ?_) (Prf.cnt_or _ _)
          by_cases h : ∃ pt, Says (nu o x.iv) x.aad pt x.ct x.tag f
          · exact Or.inr ⟨hf.1, h⟩
          · exact Or.inl ⟨hf.1, (hrun f h).symm ▸ hf.2⟩
        have hb' : (cnt (fun f => Known o L f ∧ ∃ pt, Says (nu o x.iv) x.aad pt x.ct x.tag f) : ℚ) ≤
            8 * q / 2 ^ 106 * cnt (Known o L) := by
          rw [div_mul_eq_mul_div, le_div_iff₀ (by positivity), mul_comm]
          exact_mod_cast hb
        have d1' := (Nat.cast_le (α := ℚ)).mpr d1
        have d2' := (Nat.cast_le (α := ℚ)).mpr d2
        rw [hcast] at hi
        rw [abs_le] at hi ⊢
        push_cast at d1' d2'
        constructor <;> linarith [hi.1, hi.2]

theorem forges (o : Aead) (r1 r2 : Bytes) (hk : o.key.length = 32) (q : ℕ) {R : Type} (D : AeadAsker R) :
    ∀ (L : Log) (v : ℕ), Proper o q L → FreshNonces (L.map fun e => e.1.iv) D → D.Within (AeadAskFits o q) →
      D.CostLe openingCost (fun _ => 0) v →
      2 ^ 106 * cnt (fun f : Table => Known o L f ∧ Forges (aeadAnswers o r1 r2 (look f))
          (L.map fun e => (e.1, .ok e.2)) D) ≤ v * (8 * q) * cnt (Known o L) := by
  induction D with
  | done r =>
    intro L v _ _ _ _
    rw [cnt_false fun f h => h.2, Nat.mul_zero]
    exact Nat.zero_le _
  | ask m next ih =>
    intro L v hL hF hW hC
    rcases m with m | x
    · obtain ⟨hfresh, hF⟩ := hF
      obtain ⟨hfit, hW⟩ := hW
      obtain ⟨-, hC⟩ := hC
      rw [openingCost, Nat.sub_zero] at hC
      rw [cnt_says (nu o m.iv) _ m.aad m.pt, cnt_says (nu o m.iv) (Known o L) m.aad m.pt, Finset.mul_sum, Finset.mul_sum]
      refine Finset.sum_le_sum fun t _ => ?_
      have := ih (.inl (.ok (t.1.1, t.2.1))) ((m, t.1.1, t.2.1) :: L) v (proper_cons o q L hL m hfit hfresh t) (hF _) (hW _) (hC _)
      rw [cnt_congr (known_cons o L m _ _)] at this
      refine le_trans (Nat.mul_le_mul_left _ (cnt_mono ?_)) this
      rintro f ⟨⟨h1, h2⟩, h3⟩
      refine ⟨(known_cons o L m _ _ f).mpr ⟨h1, h3⟩, ?_⟩
      have key : aeadAnswers o r1 r2 (look f) (.inl m) = .inl (.ok (t.1.1, t.2.1)) :=
        congrArg Sum.inl ((encryptWith_ok f r1 r2 o m.aad m.iv m.pt _ _ hk hfit.1).mpr h3)
      rw [Forges, key] at h2
      exact h2
    · obtain ⟨hfit, hW⟩ := hW
      obtain ⟨h1v, hC⟩ := hC
      have h1v : 1 ≤ v := h1v
      have hC : ∀ t, (next t).CostLe openingCost (fun _ => 0) (v - 1) := hC
      cases hlook : lookUp L x with
      | some pt =>
        have hmem := lookUp_some L x pt hlook
        have hi := ih (.inr (.ok (some pt))) L (v - 1) hL (hF _) (hW _) (hC _)
        refine le_trans (Nat.mul_le_mul_left _ (cnt_mono ?_)) (hi.trans ?_)
        · rintro f ⟨hf, hw⟩
          have key : aeadAnswers o r1 r2 (look f) (.inr x) = .inr (.ok (some pt)) :=
            congrArg Sum.inr (open_some f r1 r2 o x.aad x.iv pt x.ct x.tag hk hfit.1 (hf _ hmem))
          rw [Forges, key] at hw
          refine ⟨hf, hw.resolve_left ?_⟩
          rintro ⟨pt', e, hn⟩
          have e := Option.some.inj (Except.ok.inj (Sum.inr.inj e))
          subst e
          exact hn (List.mem_map.mpr ⟨_, hmem, rfl⟩)
        · exact Nat.mul_le_mul_right _ (Nat.mul_le_mul_right _ (Nat.sub_le _ _))
      | none =>
        have hi := ih (.inr (.ok none)) L (v - 1) hL (hF _) (hW _) (hC _)
        have hb := attempt o q L hL x hfit hlook
        have hle : cnt (fun f : Table => Known o L f ∧ Forges (aeadAnswers o r1 r2 (look f))
            (L.map fun e => (e.1, .ok e.2)) (.ask (.inr x) next)) ≤
            cnt (fun f : Table => Known o L f ∧ Forges (aeadAnswers o r1 r2 (look f))
              (L.map fun e => (e.1, .ok e.2)) (next (.inr (.ok none)))) +
              cnt (fun f => Known o L f ∧ ∃ pt, Says (nu o x.iv) x.aad pt x.ct x.tag f) := by
          refine le_trans (cnt_mono fun f hf => ?_) (Prf.cnt_or _ _)
          by_cases h : ∃ pt, Says (nu o x.iv) x.aad pt x.ct x.tag f
          · exact Or.inr ⟨hf.1, h⟩
          · refine Or.inl ⟨hf.1, ?_⟩
            have key : aeadAnswers o r1 r2 (look f) (.inr x) = .inr (.ok none) :=
              congrArg Sum.inr (open_none f r1 r2 o x.aad x.iv x.ct x.tag hk hfit.1 h)
            have hw := hf.2
            rw [Forges, key] at hw
            refine hw.resolve_left ?_
            rintro ⟨pt', e, -⟩
            simp at e
        refine (Nat.mul_le_mul_left _ hle).trans ?_
        rw [Nat.mul_add]
        refine (Nat.add_le_add hi hb).trans (le_of_eq ?_)
        obtain ⟨w, rfl⟩ : ∃ w, v = w + 1 := ⟨v - 1, by omega⟩
        rw [Nat.add_sub_cancel]
        ring

end Cpoly

/-- C167: the functions with the block function as an argument are those of the model, if it is that of the model. -/
theorem C167_model (rand1 rand2 : Bytes) (o : Aead) (aad iv pt : Bytes) :
    o.encryptWith ChaCha.block rand1 rand2 aad iv pt = o.encrypt rand1 rand2 aad iv pt := by
  have h : ∀ (pt : Bytes) (k j : ℕ) (c : ChaCha) (out : Bytes),
      ChaCha.encryptLoopWith ChaCha.block pt j k c out = ChaCha.encryptLoop pt j k c out := by
    intro pt k
    induction k with
    | zero => exact fun _ _ _ => rfl
    | succ k ih =>
      intro j c out
      rw [ChaCha.encryptLoopWith, ChaCha.encryptLoop]
      exact ih _ _ _
  rw [Aead.encryptWith, Aead.encrypt]
  simp only [Model.poly1305KeyGenWith, Model.poly1305KeyGen, ChaCha.encryptWith, ChaCha.encrypt, h]
  rfl

/-- Two octets of plaintext. -/
example : (Aead.mk (List.replicate 32 1) [1, 2, 3, 4]).encryptWith ChaCha.block [] [] [5] (List.replicate 8 6) [7, 8] =
    .ok (Spec.aeadEncrypt (List.replicate 32 1) ([1, 2, 3, 4] ++ List.replicate 8 6) [5] [7, 8]) :=
  (C167_model _ _ _ _ _ _).trans (C30_aead_rfc _ _ _ _ _ _ rfl rfl (by decide))

/-- C168: somebody asks for encryptions under nonces that are never used twice, and `v` times for the opening of a
ciphertext with associated data, nonce and tag, all with inputs of Poly1305 of at most `q` blocks.  With a random function
in place of the block function of ChaCha20, the chance of any result differs by at most `8 q v / 2^106` from the chance
when each encryption is a fresh random string with a random tag and the recipient accepts exactly what was an outcome of an
earlier encryption. -/
theorem C168_authenticated_encryption (o : Aead) (rand1 rand2 : Bytes) (hk : o.key.length = 32) (q v : ℕ) {R : Type}
    (accept : R → Prop) (D : AeadAsker R) (hF : FreshNonces [] D) (hW : D.Within (AeadAskFits o q))
    (hC : D.CostLe openingCost (fun _ => 0) v) :
    |(Nat.card {f : Table // accept (D.run (aeadAnswers o rand1 rand2 (look f)))} : ℚ) / Nat.card Table -
      chance accept [] D| ≤ v * (8 * q / 2 ^ 106) := by
  have h := Cpoly.both o rand1 rand2 hk q accept D [] v ⟨by simp, by simp⟩ hF hW hC
  have hT : cnt (Cpoly.Known o []) = Nat.card Table := by
    rw [Nat.card_eq_fintype_card, ← cnt_true]
    exact cnt_congr fun f => by simp [Cpoly.Known]
  have hA : cnt (fun f : Table => Cpoly.Known o [] f ∧ accept (D.run (aeadAnswers o rand1 rand2 (look f)))) =
      Nat.card {f : Table // accept (D.run (aeadAnswers o rand1 rand2 (look f)))} :=
    cnt_congr (Q := fun f => accept (D.run (aeadAnswers o rand1 rand2 (look f)))) fun f => by simp [Cpoly.Known]
  rw [hT, hA] at h
  have hpos : (0 : ℚ) < Nat.card Table := by
    rw [Nat.cast_pos]
    have : Nonempty Table := ⟨fun _ => ⟨List.replicate 64 0, by simp⟩⟩
    exact Nat.card_pos
  rw [← mul_le_mul_iff_of_pos_right hpos, ← abs_of_pos hpos, ← abs_mul, abs_of_pos hpos, sub_mul,
    div_mul_cancel₀ _ hpos.ne']
  exact h

/-- Somebody who asks for the encryption of two octets and then for the opening of the ciphertext with the tag zero. -/
def zeroTag : AeadAsker Bool :=
  .ask (.inl ⟨[5], List.replicate 8 6, [7, 8]⟩) fun a =>
    match a with
    | .inl (.ok (ct, _)) => .ask (.inr ⟨[5], List.replicate 8 6, ct.take 2, List.replicate 16 0⟩) fun b =>
        .done (b != .inr (.ok none))
    | _ => .done false

private theorem zeroTag_fresh : FreshNonces [] zeroTag := by
  refine ⟨by simp, fun t => ?_⟩
  rcases t with (_ | ⟨ct, tag⟩) | t
  · trivial
  · exact fun _ => trivial
  · trivial

private theorem zeroTag_fits : zeroTag.Within (AeadAskFits ⟨List.replicate 32 1, [1, 2, 3, 4]⟩ 3) := by
  refine ⟨⟨rfl, by decide, by decide, by decide⟩, fun t => ?_⟩
  rcases t with (_ | ⟨ct, tag⟩) | t
  · trivial
  · have h : (ct.take 2).length ≤ 2 := by simp
    refine ⟨⟨rfl, ?_, by simp, ?_⟩, fun _ => trivial⟩
    · dsimp only
      omega
    · dsimp only
      rw [List.length_singleton]
      omega
  · trivial

private theorem zeroTag_cost : zeroTag.CostLe openingCost (fun _ => 0) 1 := by
  refine ⟨Nat.zero_le _, fun t => ?_⟩
  rcases t with (_ | ⟨ct, tag⟩) | t
  · exact Nat.zero_le _
  · exact ⟨le_refl 1, fun _ => Nat.zero_le _⟩
  · exact Nat.zero_le _

/-- The strategy above meets the hypotheses. -/
example := C168_authenticated_encryption ⟨List.replicate 32 1, [1, 2, 3, 4]⟩ [] [] (by simp) 3 1 (· = true) zeroTag
  zeroTag_fresh zeroTag_fits zeroTag_cost

/-- C167: without openings the ciphertexts and the tags are exactly as frequent as random strings. -/
theorem C167_random_strings (o : Aead) (rand1 rand2 : Bytes) (hk : o.key.length = 32) (q : ℕ) {R : Type}
    (accept : R → Prop) (D : AeadAsker R) (hF : FreshNonces [] D) (hW : D.Within (AeadAskFits o q))
    (hC : D.CostLe openingCost (fun _ => 0) 0) :
    (Nat.card {f : Table // accept (D.run (aeadAnswers o rand1 rand2 (look f)))} : ℚ) / Nat.card Table =
      chance accept [] D := by
  have h := C168_authenticated_encryption o rand1 rand2 hk q 0 accept D hF hW hC
  rw [Nat.cast_zero, zero_mul] at h
  exact sub_eq_zero.mp (abs_nonpos_iff.mp h)

/-- Somebody who asks for two encryptions under different nonces and compares the tags. -/
example := C167_random_strings ⟨List.replicate 32 1, [1, 2, 3, 4]⟩ [] [] (by simp) 3 (· = true)
  (.ask (.inl ⟨[5], List.replicate 8 6, [7, 8]⟩) fun a => .ask (.inl ⟨[5], List.replicate 8 7, [7, 8]⟩) fun b =>
    .done (a == b))
  ⟨by simp, fun _ => ⟨by decide, fun _ => trivial⟩⟩
  ⟨⟨rfl, by decide, by decide, by decide⟩, fun _ => ⟨⟨rfl, by decide, by decide, by decide⟩, fun _ => trivial⟩⟩
  ⟨Nat.zero_le _, fun _ => ⟨Nat.zero_le _, fun _ => Nat.zero_le _⟩⟩

/-- C168: the recipient accepts something that was not an outcome of an earlier encryption for at most `8 q v` in `2^106`
functions in place of the block function. -/
theorem C168_forgery (o : Aead) (rand1 rand2 : Bytes) (hk : o.key.length = 32) (q v : ℕ) {R : Type}
    (D : AeadAsker R) (hF : FreshNonces [] D) (hW : D.Within (AeadAskFits o q))
    (hC : D.CostLe openingCost (fun _ => 0) v) :
    2 ^ 106 * Nat.card {f : Table // Forges (aeadAnswers o rand1 rand2 (look f)) [] D} ≤
      v * (8 * q) * Nat.card Table := by
  have h := Cpoly.forges o rand1 rand2 hk q D [] v ⟨by simp, by simp⟩ hF hW hC
  have hT : cnt (Cpoly.Known o []) = Nat.card Table := by
    rw [Nat.card_eq_fintype_card, ← cnt_true]
    exact cnt_congr fun f => by simp [Cpoly.Known]
  have hA : cnt (fun f : Table => Cpoly.Known o [] f ∧ Forges (aeadAnswers o rand1 rand2 (look f)) [] D) =
      Nat.card {f : Table // Forges (aeadAnswers o rand1 rand2 (look f)) [] D} :=
    cnt_congr (Q := fun f => Forges (aeadAnswers o rand1 rand2 (look f)) [] D) fun f => by simp [Cpoly.Known]
  rw [hT] at h
  rw [← hA]
  exact h

/-- The strategy above meets the hypotheses. -/
example := C168_forgery ⟨List.replicate 32 1, [1, 2, 3, 4]⟩ [] [] (by simp) 3 1 zeroTag zeroTag_fresh zeroTag_fits zeroTag_cost

end Cryptopy
