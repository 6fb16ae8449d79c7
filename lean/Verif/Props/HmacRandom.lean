import Verif.Lemmas.HmacGame
import Verif.Props.Hmac

/-!
C170: HMAC with a random table in place of the hash function.
-/

namespace Cryptopy
open Model (HashLib)
open Spec (Str Asker HmacAsk xorBytes hmac hmacKey hmacWith hmacOuter hmacInner)
open Chain (Table ask)
open Prf (cnt cnt_congr cnt_true cnt_prod cnt_equiv cnt_eq)

/-- The answers of the hash function and of HMAC objects with one key. -/
def hmacAnswers (h : HashLib) (key : Bytes) : HmacAsk → Py Bytes
  | .hash x => .ok (h.H x)
  | .mac m => hmacOnce h key m

/-- The answers of two functions that have nothing to do with each other. -/
def twoAnswers (H F : Bytes → Bytes) : HmacAsk → Py Bytes
  | .hash x => .ok (H x)
  | .mac m => .ok (F m)

/-- The tables are large enough for the question. -/
def HmacFits (B n : ℕ) : HmacAsk → Prop
  | .hash x => x.length ≤ n
  | .mac m => B + m.length ≤ n

namespace HmacGame

/-- The padded key. -/
def pad (B : ℕ) (c : UInt8) (K : Bytes) : Bytes := xorBytes (K ++ List.replicate (B - K.length) 0) (List.replicate B c)

theorem length_pad {B : ℕ} {c : UInt8} {K : Bytes} (h : K.length ≤ B) : (pad B c K).length = B := by
  rw [pad, length_xorBytes, List.length_append, List.length_replicate, List.length_replicate]
  omega

theorem xor_back {B : ℕ} {c : UInt8} {K : Bytes} (h : K.length ≤ B) :
    xorBytes (pad B c K) (List.replicate B c) = K ++ List.replicate (B - K.length) 0 := by
  exact xorBytes_self_right _ _ (by simp; omega)

theorem pad_inj {B : ℕ} {c : UInt8} {K L : Bytes} (h : K.length ≤ B) (hL : L.length = K.length)
    (e : pad B c K = pad B c L) : K = L := by
  have e1 := xor_back (c := c) h
  rw [e, xor_back (hL.trans_le h), hL] at e1
  exact (List.append_cancel_right e1).symm

theorem pad_ne {B : ℕ} (hB : 0 < B) {K : Bytes} (h : K.length ≤ B) : pad B 0x36 K ≠ pad B 0x5c K := by
  have hl : (K ++ List.replicate (B - K.length) (0 : UInt8)).length = B := by simp; omega
  intro e
  rw [pad, pad] at e
  obtain ⟨a, s, hs⟩ := List.exists_cons_of_length_pos (show 0 < (K ++ List.replicate (B - K.length) (0 : UInt8)).length by omega)
  obtain ⟨b, rfl⟩ := Nat.exists_eq_succ_of_ne_zero hB.ne'
  rw [hs, List.replicate_succ, List.replicate_succ] at e
  simp only [xorBytes, List.zipWith_cons_cons, List.cons.injEq] at e
  have := congrArg (a ^^^ ·) e.1
  simp only [← UInt8.xor_assoc, UInt8.xor_self, UInt8.zero_xor] at this
  exact absurd this (by decide)

theorem one_key {B k : ℕ} (c : UInt8) (hk : k ≤ B) (x : Bytes) : cnt (fun K : Str k => pad B c K.1 <+: x) ≤ 1 := by
  rw [cnt_eq, Finset.card_le_one]
  intro K hK L hL
  simp only [Finset.mem_filter, Finset.mem_univ, true_and] at hK hL
  refine Subtype.ext (pad_inj (c := c) (K.2.trans_le hk) (L.2.trans K.2.symm) ?_)
  rw [List.prefix_iff_eq_take.mp hK, List.prefix_iff_eq_take.mp hL, length_pad (K.2.trans_le hk), length_pad (L.2.trans_le hk)]

theorem answers_eq {B k n d : ℕ} (hk : k ≤ B) (K : Str k) (f : Table n d) :
    hmacAnswers ⟨B, d, ask f⟩ K.1 = ans (pad B 0x36 K.1) (pad B 0x5c K.1) f := by
  funext v
  rcases v with x | m
  · rfl
  · rw [hmacAnswers, C36_hmac_rfc2104 _ _ _ (K.2.trans_le hk), ans, hmac, hmacWith, hmacOuter, hmacInner, hmacKey]
    simp only [if_pos (K.2.trans_le hk)]
    have : (K.1 ++ List.replicate (B - K.1.length) (0 : UInt8)).length = B := by
      have := K.2.trans_le hk
      simp
      omega
    rw [this]
    rfl

theorem within_mono {R : Type} {P Q : HmacAsk → Prop} (h : ∀ v, P v → Q v) (D : Asker HmacAsk (Py Bytes) R) :
    D.Within P → D.Within Q := by
  induction D with
  | done r => exact id
  | ask v next ih => exact fun hW => ⟨h v hW.1, fun t => ih t (hW.2 t)⟩

theorem inv_nil (ip op : Bytes) : Inv ip op [] [] [] := ⟨by simp, by simp, by simp⟩

theorem main (B k d n : ℕ) (hB : 0 < B) (hk : k ≤ B) (hn : B + d ≤ n) {R : Type} (accept : R → Prop)
    (D : Asker HmacAsk (Py Bytes) R) (hD : D.Within (HmacFits B n)) (qH qM : ℕ)
    (hH : D.CostLe HmacAsk.hashes (fun _ => 0) qH) (hM : D.CostLe HmacAsk.macs (fun _ => 0) qM) :
    |(Nat.card {x : Str k × Table n d // accept (D.run (hmacAnswers ⟨B, d, ask x.2⟩ x.1.1))} : ℚ) /
        Nat.card (Str k × Table n d) - lazyChance d accept [] D| ≤
      2 * qH / 256 ^ k + qM * (qM - 1) / 2 / 256 ^ d := by
  classical
  have hT : (0 : ℚ) < Fintype.card (Table n d) := by
    have : Nonempty (Table n d) := ⟨fun _ => ⟨List.replicate d 0, by simp⟩⟩
    exact_mod_cast Fintype.card_pos
  have hK := card_pos k
  have e1 : (Nat.card {x : Str k × Table n d // accept (D.run (hmacAnswers ⟨B, d, ask x.2⟩ x.1.1))} : ℚ) =
      ∑ K : Str k, (cnt fun f : Table n d => accept (D.run (ans (pad B 0x36 K.1) (pad B 0x5c K.1) f)) : ℚ) := by
    have : Nat.card {x : Str k × Table n d // accept (D.run (hmacAnswers ⟨B, d, ask x.2⟩ x.1.1))} =
        cnt fun x : Table n d × Str k => accept (D.run (hmacAnswers ⟨B, d, ask x.1⟩ x.2.1)) :=
      cnt_equiv (Equiv.prodComm (Str k) (Table n d)) fun x : Table n d × Str k =>
        accept (D.run (hmacAnswers ⟨B, d, ask x.1⟩ x.2.1))
    rw [this, cnt_prod, Nat.cast_sum]
    refine Finset.sum_congr rfl fun K _ => congrArg _ (cnt_congr fun f => ?_)
    rw [answers_eq hk]
  have each : ∀ K : Str k, |(cnt fun f : Table n d => accept (D.run (ans (pad B 0x36 K.1) (pad B 0x5c K.1) f)) : ℚ) -
      lazyChance d accept [] D * Fintype.card (Table n d)| ≤
      bad (pad B 0x36 K.1) (pad B 0x5c K.1) d [] 0 D * Fintype.card (Table n d) := by
    intro K
    have hKB := K.2.trans_le hk
    have h := game (n := n) (d := d) ((length_pad hKB).trans (length_pad hKB).symm) (pad_ne hB hKB)
      (by rw [length_pad hKB]; exact hn) accept D [] [] [] (inv_nil _ _) (within_mono (fun v hv => by
        rcases v with x | m
        · exact hv
        · change _ + _ ≤ _
          rw [length_pad hKB]
          exact hv) D hD)
    have ht : ∀ f : Table n d, Agree [] f := fun f => by simp [Agree]
    simp only [ht, true_and, List.length_nil] at h
    rw [cnt_true] at h
    exact h
  have hs := sum_bad d (fun K : Str k => pad B 0x36 K.1) (fun K : Str k => pad B 0x5c K.1) (one_key 0x36 hk) (one_key 0x5c hk) D
    [] 0 qH qM hH hM
  have e2 : (Nat.card (Str k × Table n d) : ℚ) = Fintype.card (Str k) * Fintype.card (Table n d) := by
    rw [Nat.card_prod, Nat.card_eq_fintype_card, Nat.card_eq_fintype_card]
    push_cast
    rfl
  have e3 : lazyChance d accept [] D = (∑ _K : Str k, lazyChance d accept [] D * Fintype.card (Table n d)) /
      (Fintype.card (Str k) * Fintype.card (Table n d)) := by
    rw [Finset.sum_const, Finset.card_univ, nsmul_eq_mul]
    field_simp
  rw [e1, e2, e3, ← sub_div, ← Finset.sum_sub_distrib, abs_div, abs_of_pos (mul_pos hK hT), div_le_iff₀ (mul_pos hK hT)]
  refine (Finset.abs_sum_le_sum_abs _ _).trans ((Finset.sum_le_sum fun K _ => each K).trans ?_)
  rw [← Finset.sum_mul, ← mul_assoc]
  refine mul_le_mul_of_nonneg_right (hs.trans (le_of_eq ?_)) hT.le
  have c1 : ((256 : ℚ) ^ k) = Fintype.card (Str k) := by
    rw [Cpoly.card_str]
    push_cast
    rfl
  have c2 : ((256 : ℚ) ^ d) = Fintype.card (Str d) := by
    rw [Cpoly.card_str]
    push_cast
    rfl
  have hd := card_pos d
  rw [c1, c2, tri]
  push_cast
  field_simp
  ring

theorem ideal_main (d n : ℕ) {R : Type} (accept : R → Prop) (D : Asker HmacAsk (Py Bytes) R)
    (hD : D.Within (fun v => len v ≤ n)) :
    (Nat.card {x : Table n d × Table n d // accept (D.run (twoAnswers (ask x.1) (ask x.2)))} : ℚ) /
        Nat.card (Table n d × Table n d) = lazyChance d accept [] D := by
  have hT : (Fintype.card (Pair n d) : ℚ) ≠ 0 := by
    have : Nonempty (Pair n d) := ⟨fun _ => ⟨List.replicate d 0, by simp⟩⟩
    exact_mod_cast Fintype.card_pos.ne'
  have h := ideal (n := n) (d := d) accept D [] hD
  have ht : ∀ g : Pair n d, Gave [] g := fun f => by simp [Gave]
  simp only [ht, true_and] at h
  rw [cnt_true] at h
  have e : Pair n d ≃ Table n d × Table n d := Equiv.sumArrowEquivProdArrow _ _ _
  rw [← Nat.card_congr e, Nat.card_eq_fintype_card (α := Pair n d), div_eq_iff hT, ← h]
  refine congrArg _ ?_
  refine (cnt_equiv (Equiv.sumArrowEquivProdArrow _ _ _) fun x : Table n d × Table n d =>
    accept (D.run (twoAnswers (ask x.1) (ask x.2)))).symm.trans (cnt_congr fun g => ?_)
  have : twoAnswers (ask (Equiv.sumArrowEquivProdArrow _ _ _ g).1) (ask (Equiv.sumArrowEquivProdArrow _ _ _ g).2) = two g := by
    funext v
    rcases v with x | m <;> rfl
  rw [this]

/-- Ask for the tag of the message at the end, unless this has been asked before. -/
def check (asked : List HmacAsk) : Asker HmacAsk (Py Bytes) (Bytes × Bytes) → Asker HmacAsk (Py Bytes) Bool
  | .done r => if .mac r.1 ∈ asked then .done false else .ask (.mac r.1) fun a => .done (decide (a = .ok r.2))
  | .ask v next => .ask v fun a => check (v :: asked) (next a)

theorem check_run (g : HmacAsk → Py Bytes) (D : Asker HmacAsk (Py Bytes) (Bytes × Bytes)) :
    ∀ asked, (check asked D).run g = true ↔
      .mac (D.run g).1 ∉ asked ∧ .mac (D.run g).1 ∉ D.asked g ∧ g (.mac (D.run g).1) = .ok (D.run g).2 := by
  induction D with
  | done r =>
    intro asked
    rw [check]
    split
    · next h => simp [Asker.run, h]
    · next h => simp [Asker.run, Asker.asked, h]
  | ask v next ih =>
    intro asked
    rw [check, Asker.run, ih]
    simp only [Asker.run, Asker.asked, List.mem_cons, not_or]
    tauto

theorem check_within (B n : ℕ) (D : Asker HmacAsk (Py Bytes) (Bytes × Bytes)) (hD : D.Within (HmacFits B n)) :
    ∀ asked, D.CostLe (fun _ => 0) (fun r => B + r.1.length) n → (check asked D).Within (HmacFits B n) := by
  induction D with
  | done r =>
    intro asked hr
    rw [check]
    split
    · trivial
    · exact ⟨hr, fun _ => trivial⟩
  | ask v next ih => exact fun asked hr => ⟨hD.1, fun t => ih t (hD.2 t) _ (hr.2 t)⟩

theorem check_hashes (D : Asker HmacAsk (Py Bytes) (Bytes × Bytes)) :
    ∀ asked q, D.CostLe HmacAsk.hashes (fun _ => 0) q → (check asked D).CostLe HmacAsk.hashes (fun _ => 0) q := by
  induction D with
  | done r =>
    intro asked q _
    rw [check]
    split
    · exact Nat.zero_le _
    · exact ⟨Nat.zero_le _, fun _ => Nat.zero_le _⟩
  | ask v next ih => exact fun asked q h => ⟨h.1, fun t => ih t _ _ (h.2 t)⟩

theorem check_macs (D : Asker HmacAsk (Py Bytes) (Bytes × Bytes)) :
    ∀ asked q, D.CostLe HmacAsk.macs (fun _ => 0) q → (check asked D).CostLe HmacAsk.macs (fun _ => 0) (q + 1) := by
  induction D with
  | done r =>
    intro asked q _
    rw [check]
    split
    · exact Nat.zero_le _
    · exact ⟨Nat.le_add_left _ _, fun _ => Nat.zero_le _⟩
  | ask v next ih =>
    intro asked q h
    have h1 := h.1
    refine ⟨by omega, fun t => ?_⟩
    have := ih t (v :: asked) _ (h.2 t)
    rw [show q + 1 - v.macs = q - v.macs + 1 by omega]
    exact this

theorem check_chance (d : ℕ) (D : Asker HmacAsk (Py Bytes) (Bytes × Bytes)) :
    ∀ l asked, (∀ e ∈ l, e.1 ∈ asked) → lazyChance d (fun b => b = true) l (check asked D) ≤ 1 / 256 ^ d := by
  classical
  have hN := card_pos d
  have c2 : ((256 : ℚ) ^ d) = Fintype.card (Str d) := by
    rw [Cpoly.card_str]
    push_cast
    rfl
  induction D with
  | done r =>
    intro l asked hl
    rw [check]
    split
    · simp only [lazyChance, Bool.false_eq_true, if_false]
      positivity
    · next h =>
      rw [lazyChance]
      cases hv : l.lookup (.mac r.1) with
      | some t => exact absurd (hl _ (lookup_some l _ _ hv)) h
      | none =>
        simp only [lazyChance]
        rw [c2]
        refine div_le_div_of_nonneg_right ?_ hN.le
        by_cases he : ∃ a : Str d, a.1 = r.2
        · obtain ⟨a, ha⟩ := he
          rw [Finset.sum_eq_single a]
          · split_ifs <;> norm_num
          · intro b _ hb
            rw [if_neg]
            rw [decide_eq_true_eq, Except.ok.injEq]
            exact fun e => hb (Subtype.ext (e.trans ha.symm))
          · exact fun h => absurd (Finset.mem_univ a) h
        · rw [Finset.sum_eq_zero]
          · norm_num
          · intro b _
            rw [if_neg]
            rw [decide_eq_true_eq, Except.ok.injEq]
            exact fun e => he ⟨b, e⟩
  | ask v next ih =>
    intro l asked hl
    rw [check, lazyChance]
    split
    · exact ih _ l _ fun e he => List.mem_cons_of_mem _ (hl e he)
    · rw [div_le_iff₀ hN]
      refine (Finset.sum_le_sum fun t _ => ih (.ok t.1) ((v, t.1) :: l) (v :: asked) fun e he => ?_).trans ?_
      · rcases List.mem_cons.mp he with rfl | he
        · exact List.mem_cons_self
        · exact List.mem_cons_of_mem _ (hl e he)
      · rw [Finset.sum_const, Finset.card_univ, nsmul_eq_mul, mul_comm]

end HmacGame

/-- C170: put a random table in place of the hash function, and let the key be random, with `k ≤ B` octets.  Somebody who
asks for `qH` hash values and `qM` tags, each chosen depending on the answers before, can hardly tell the tags from those
of a random function that has nothing to do with the hash function. -/
theorem C170_hmac_random_function (B k d n : ℕ) (hB : 0 < B) (hk : k ≤ B) (hn : B + d ≤ n) {R : Type} (accept : R → Prop)
    (D : Asker HmacAsk (Py Bytes) R) (hD : D.Within (HmacFits B n)) (qH qM : ℕ)
    (hH : D.CostLe HmacAsk.hashes (fun _ => 0) qH) (hM : D.CostLe HmacAsk.macs (fun _ => 0) qM) :
    |(Nat.card {x : Str k × Table n d // accept (D.run (hmacAnswers ⟨B, d, ask x.2⟩ x.1.1))} : ℚ) /
          Nat.card (Str k × Table n d) -
        (Nat.card {x : Table n d × Table n d // accept (D.run (twoAnswers (ask x.1) (ask x.2)))} : ℚ) /
          Nat.card (Table n d × Table n d)| ≤
      2 * qH / 256 ^ k + qM * (qM - 1) / 2 / 256 ^ d := by
  rw [HmacGame.ideal_main d n accept D (HmacGame.within_mono (fun v hv => by
    rcases v with x | m
    · exact hv
    · exact (Nat.le_add_left _ _).trans hv) D hD)]
  exact HmacGame.main B k d n hB hk hn accept D hD qH qM hH hM

example := C170_hmac_random_function 64 16 20 200 (by decide) (by decide) (by decide) (fun b : Bool => b = true)
  (.ask (.mac [1]) fun t => .ask (.hash [2]) fun s => .done (decide (t = s)))
  ⟨show _ + _ ≤ _ by decide, fun _ => ⟨show [(2 : UInt8)].length ≤ 200 by decide, fun _ => trivial⟩⟩ 1 1
  ⟨by decide, fun _ => ⟨by decide, fun _ => Nat.zero_le _⟩⟩ ⟨by decide, fun _ => ⟨by decide, fun _ => Nat.zero_le _⟩⟩

/-- C170: with a random table in place of the hash function and a random key of `k ≤ B` octets, somebody who asks for `qH`
hash values and `qM` tags, and then names another message and a tag, is right with at most the given chance. -/
theorem C170_forgery (B k d n : ℕ) (hB : 0 < B) (hk : k ≤ B) (hn : B + d ≤ n)
    (D : Asker HmacAsk (Py Bytes) (Bytes × Bytes)) (hD : D.Within (HmacFits B n))
    (hr : D.CostLe (fun _ => 0) (fun r => B + r.1.length) n) (qH qM : ℕ)
    (hH : D.CostLe HmacAsk.hashes (fun _ => 0) qH) (hM : D.CostLe HmacAsk.macs (fun _ => 0) qM) :
    (Nat.card {x : Str k × Table n d //
        .mac (D.run (hmacAnswers ⟨B, d, ask x.2⟩ x.1.1)).1 ∉ D.asked (hmacAnswers ⟨B, d, ask x.2⟩ x.1.1) ∧
        hmacOnce ⟨B, d, ask x.2⟩ x.1.1 (D.run (hmacAnswers ⟨B, d, ask x.2⟩ x.1.1)).1 =
          .ok (D.run (hmacAnswers ⟨B, d, ask x.2⟩ x.1.1)).2} : ℚ) / Nat.card (Str k × Table n d) ≤
      1 / 256 ^ d + (2 * qH / 256 ^ k + (qM + 1) * qM / 2 / 256 ^ d) := by
  have h := HmacGame.main B k d n hB hk hn (fun b => b = true) (HmacGame.check [] D) (HmacGame.check_within B n D hD [] hr)
    qH (qM + 1) (HmacGame.check_hashes D [] qH hH) (HmacGame.check_macs D [] qM hM)
  have h2 := HmacGame.check_chance d D [] [] (by simp)
  have e : Nat.card {x : Str k × Table n d //
        .mac (D.run (hmacAnswers ⟨B, d, ask x.2⟩ x.1.1)).1 ∉ D.asked (hmacAnswers ⟨B, d, ask x.2⟩ x.1.1) ∧
        hmacOnce ⟨B, d, ask x.2⟩ x.1.1 (D.run (hmacAnswers ⟨B, d, ask x.2⟩ x.1.1)).1 =
          .ok (D.run (hmacAnswers ⟨B, d, ask x.2⟩ x.1.1)).2} =
      Nat.card {x : Str k × Table n d // (HmacGame.check [] D).run (hmacAnswers ⟨B, d, ask x.2⟩ x.1.1) = true} := by
    refine cnt_congr fun x => ?_
    rw [HmacGame.check_run]
    simp [hmacAnswers]
  rw [e]
  have h3 := (abs_le.mp h).2
  push_cast at h3
  have e2 : ((qM : ℚ) + 1 - 1) = qM := by ring
  rw [e2] at h3
  linarith
example := C170_forgery 64 16 20 200 (by decide) (by decide) (by decide)
  (.ask (.mac [1]) fun t => .ask (.hash [2]) fun _ => .done ([3], match t with | .ok t => t | .error _ => []))
  ⟨show _ + _ ≤ _ by decide, fun _ => ⟨show [(2 : UInt8)].length ≤ 200 by decide, fun _ => trivial⟩⟩
  ⟨by decide, fun _ => ⟨by decide, fun _ => show 64 + 1 ≤ 200 by decide⟩⟩ 1 1
  ⟨by decide, fun _ => ⟨by decide, fun _ => Nat.zero_le _⟩⟩ ⟨by decide, fun _ => ⟨by decide, fun _ => Nat.zero_le _⟩⟩

end Cryptopy
