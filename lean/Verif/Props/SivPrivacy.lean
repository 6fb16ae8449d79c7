import Verif.Lemmas.SivPriv
import Verif.Props.SivForgery

/-!
C165: ciphertexts of `siv_encrypt` look like random octets if the cipher under both halves of the key is a random function.
-/

namespace Cryptopy
open Model (CipherLib aesCmac sivDecrypt)
open Spec Prf

/-- A cipher module that is a table of 128-bit blocks under one key and another one under all others. -/
def twoTables (keyOk : Bytes → Bool) (key1 : Bytes) (f : (BitVec 128 → BitVec 128) × (BitVec 128 → BitVec 128)) :
    CipherLib :=
  splitLib keyOk key1 f.1 fun _ s => ofBits (f.2 (toBits s))

/-- `aes_cmac` raises no exception for any message. -/
def Quiet (aes : CipherLib) (key : Bytes) : Prop := ∀ M, ∃ t, aesCmac aes aes key M = .ok t

/-- One string for each list of headers and plaintext, 16 octets longer than the plaintext. -/
abbrev Strings (S : Finset (List Bytes × Bytes)) : Type := (v : S) → {s : Bytes // s.length = 16 + v.1.2.length}

/-- The number of blocks of the headers and the plaintext. -/
def boxCost (v : List Bytes × Bytes) : Nat := (v.1.map cmacBlocks).sum + cmacBlocks v.2

section
variable {R : Type}

/-- The same strategy if the answers are obtained from other answers. -/
private def mapAns {V A B : Type} (h : V → B → A) : Asker V A R → Asker V B R
  | .done r => .done r
  | .ask v next => .ask v fun b => mapAns h (next (h v b))

private theorem mapAns_run {V A B : Type} (h : V → B → A) (F : V → B) (D : Asker V A R) :
    (mapAns h D).run F = D.run fun v => h v (F v) := by
  induction D with
  | done r => rfl
  | ask v next ih => exact ih _

private theorem mapAns_cost {V A B : Type} (h : V → B → A) (cost : V → Nat) (D : Asker V A R) (c : Nat)
    (hc : D.CostLe cost (fun _ => 0) c) : (mapAns h D).CostLe cost (fun _ => 0) c := by
  induction D generalizing c with
  | done r => exact hc
  | ask v next ih => exact ⟨hc.1, fun b => ih _ _ (hc.2 _)⟩

private theorem mapAns_within {V A B : Type} (h : V → B → A) (P : V → Prop) (D : Asker V A R) (hw : D.Within P) :
    (mapAns h D).Within P := by
  induction D with
  | done r => trivial
  | ask v next ih => exact ⟨hw.1, fun b => ih _ (hw.2 _)⟩

private theorem run_congr {V A : Type} {P : V → Prop} {g g' : V → A} (h : ∀ v, P v → g v = g' v) (D : Asker V A R)
    (hw : D.Within P) : D.run g = D.run g' := by
  induction D with
  | done r => rfl
  | ask v next ih =>
    change Asker.run g (next (g v)) = Asker.run g' (next (g' v))
    rw [h v hw.1]
    exact ih _ (hw.2 _)

/-- The modules as functions on blocks with xor as addition. -/
private def blkTwo (keyOk : Bytes → Bool) (key1 : Bytes) (f : (Blk → Blk) × (Blk → Blk)) : CipherLib where
  keyOk := keyOk
  blockSize := 16
  enc k s := if k = key1 then onBytes f.1 s else onBytes f.2 s

private theorem blkTwo_lawful (keyOk : Bytes → Bool) (key1 : Bytes) (f : (Blk → Blk) × (Blk → Blk)) :
    LawfulCipher (blkTwo keyOk key1 f) := ⟨rfl, fun k s _ => by
  change (if k = key1 then onBytes f.1 s else onBytes f.2 s).length = 16
  split <;> exact length_ofBlk _⟩

private theorem blkTwo_one (keyOk : Bytes → Bool) (key1 : Bytes) (f : (Blk → Blk) × (Blk → Blk)) :
    (blkTwo keyOk key1 f).enc key1 = onBytes f.1 := by
  funext s
  exact if_pos rfl

private theorem blkTwo_two (keyOk : Bytes → Bool) (key1 key2 : Bytes) (h : key1 ≠ key2) (f : (Blk → Blk) × (Blk → Blk)) :
    (blkTwo keyOk key1 f).enc key2 = onBytes f.2 := by
  funext s
  exact if_neg (Ne.symm h)

private theorem quiet_sub {aes : CipherLib} (h : LawfulCipher aes) {key : Bytes} (hk : aes.keyOk key = true)
    (hq : Quiet aes key) : GoodSubkeys (aes.enc key) := by
  have h1 := hq (List.replicate 16 0)
  have h2 := hq []
  rw [cmac_err aes h key _ hk] at h1 h2
  constructor
  · by_contra hc
    rw [if_pos (by
      rw [cmacErr, if_pos (by simp), subErr]
      exact decide_eq_true (by omega))] at h1
    obtain ⟨t, ht⟩ := h1
    cases ht
  · by_contra hc
    rw [if_pos (by
      rw [cmacErr, if_neg (by simp), subErr]
      exact decide_eq_true (by omega))] at h2
    obtain ⟨t, ht⟩ := h2
    cases ht

/-- The ciphertext for a synthetic IV. -/
private def withIv (f : Blk → Blk) (v : Box) (b : Blk) : Py Bytes :=
  .ok (ofBlk b ++ xorBytes v.2 (ctrStream (onBytes f) (sivQ (ofBlk b)) ((v.2.length + 15) / 16)))

private theorem encrypt_value (keyOk : Bytes → Bool) (key1 key2 : Bytes) (hl : key1.length = key2.length)
    (hne : key1 ≠ key2) (hk1 : keyOk key1 = true) (hk2 : keyOk key2 = true) (f : (Blk → Blk) × (Blk → Blk))
    (hq : Quiet (blkTwo keyOk key1 f) key1) (v : Box) (hv : v.2.length ≤ 2 ^ 66) :
    Model.sivEncrypt (blkTwo keyOk key1 f) (key1 ++ key2) v.2 v.1 =
      withIv f.2 v (cmacBlk f.1 (locS (cmacBlk f.1) v)) := by
  rw [C16_siv_encrypt_rfc5297 _ (blkTwo_lawful keyOk key1 f) key1 key2 hl hk1 hk2
    (quiet_sub (blkTwo_lawful keyOk key1 f) hk1 hq) v.1 v.2 (by omega), blkTwo_one, blkTwo_two _ _ _ hne, withIv]
  have e : Spec.s2v (cmac (onBytes f.1)) (v.1 ++ [v.2]) = ofBlk (cmacBlk f.1 (locS (cmacBlk f.1) v)) := by
    rw [← s2v_locS]
    exact congrArg (fun F => Spec.s2v F (v.1 ++ [v.2])) (funext fun M => cmac_place f.1 M)
  rw [Spec.sivEncrypt, e]

private theorem boxCost_eq (v : Box) : boxBlocks v = boxCost v := by
  have h (M : Bytes) : Prf.blocks M = cmacBlocks M := by
    rw [Prf.blocks, place_length, cmacBlocks]
    simp only [List.length_nil]
    omega
  rw [boxBlocks, h, List.map_congr_left fun M _ => h M, boxCost]

/-- The bound for functions on blocks with xor as addition. -/
private theorem privacy (keyOk : Bytes → Bool) (key1 key2 : Bytes) (hl : key1.length = key2.length) (hne : key1 ≠ key2)
    (hk1 : keyOk key1 = true) (hk2 : keyOk key2 = true) (D : Asker (List Bytes × Bytes) (Py Bytes) R) (accept : R → Prop)
    (c : Nat) (hc : D.CostLe boxCost (fun _ => 0) c) (S : Finset (List Bytes × Bytes))
    (hn : ∀ v ∈ S, v.1.length ≤ 126 ∧ v.2.length ≤ 2 ^ 66) (hS : D.Within (· ∈ S)) :
    2 ^ 128 * cnt (fun f : (Blk → Blk) × (Blk → Blk) => Quiet (blkTwo keyOk key1 f) key1 ∧
        accept (D.run fun v => Model.sivEncrypt (blkTwo keyOk key1 f) (key1 ++ key2) v.2 v.1)) * Nat.card (Strings S) ≤
      2 ^ 128 * cnt (fun r : Strings S => accept (D.run fun v => if h : v ∈ S then .ok (r ⟨v, h⟩).1 else .error .value)) *
        Nat.card ((Blk → Blk) × (Blk → Blk)) +
      3 * (c + 1) ^ 2 * Nat.card ((Blk → Blk) × (Blk → Blk)) * Nat.card (Strings S) := by
  have hcb : D.CostLe boxBlocks (fun _ => 0) c := costLe_weaken (fun v => (boxCost_eq v).le) le_rfl hc
  have hcn : D.CostLe nb (fun _ => 0) c := costLe_weaken (fun v => by
    rw [boxCost, cmacBlocks.eq_def v.2, nb]
    omega) le_rfl hc
  -- from the functions under the first half to random IVs
  have step1 (f' : Blk → Blk) := card_s2v accept (mapAns (withIv f') D) c (mapAns_cost _ _ D c hcb) S
    (fun v hv => (hn v hv).1) (mapAns_within _ _ D hS)
  have sum1 := Finset.sum_le_sum fun f' (_ : f' ∈ (Finset.univ : Finset (Blk → Blk))) => step1 f'
  simp only [Finset.sum_add_distrib, ← Finset.sum_mul, ← Finset.mul_sum, Finset.sum_const, Finset.card_univ,
    smul_eq_mul] at sum1
  rw [← cnt_prod fun x : (Blk → Blk) × (Blk → Blk) =>
      accept ((mapAns (withIv x.2) D).run fun v => cmacBlk x.1 (locS (cmacBlk x.1) v)),
    ← cnt_prod fun x : (S → Blk) × (Blk → Blk) => accept ((mapAns (withIv x.2) D).run (ext S x.1))] at sum1
  -- from random IVs and counters to random blocks
  have step2 := card_ctr_start (S := S) (ctr := ctrBlk) (n := nb) (pieces S)
    (fun v hv => mem_pieces.mpr ⟨hv, by omega⟩) (fun v hv k hk => mem_pieces.mpr ⟨hv, by omega⟩)
    (fun v hv t k hk k' hk' e => by
      have := (hn v hv).2
      rw [nb] at hk hk'
      exact ctrBits_inj t k k' (by omega) (by omega) e)
    2 ctrBlk_hits accept (byPieces nb outS D) (byPieces_proper nb outS D _) c (byPieces_cost nb outS D c hcn)
    (byPieces_within nb outS (· ∈ S) D hS)
  have e1 : cnt (fun g : S ⊕ Blk → Blk => accept ((byPieces nb outS D).run (piece S ctrBlk g))) =
      cnt fun x : (S → Blk) × (Blk → Blk) => accept ((mapAns (withIv x.2) D).run (ext S x.1)) := by
    rw [← cnt_equiv (Equiv.sumArrowEquivProdArrow S Blk Blk)]
    refine cnt_congr fun g => ?_
    rw [byPieces_run, mapAns_run]
    simp only [outS_piece]
    rfl
  -- from random blocks to random strings
  have step3 := cnt_shift (cts S) (cts_shift S) fun r : Strings S =>
    accept (D.run fun v => if h : v ∈ S then .ok (r ⟨v, h⟩).1 else .error .value)
  have e2 : cnt (fun ρ : pieces S → Blk => accept ((byPieces nb outS D).run (ext (pieces S) ρ))) =
      cnt fun ρ : pieces S → Blk =>
        accept (D.run fun v => if h : v ∈ S then .ok (cts S ρ ⟨v, h⟩).1 else .error .value) := by
    refine cnt_congr fun ρ => ?_
    rw [byPieces_run, run_congr (P := (· ∈ S)) (fun v hv => ?_) D hS]
    rw [dif_pos hv, outS, cts, List.flatMap_map]
  rw [e1, e2] at step2
  -- the real strategy
  have e3 : cnt (fun f : (Blk → Blk) × (Blk → Blk) => Quiet (blkTwo keyOk key1 f) key1 ∧
        accept (D.run fun v => Model.sivEncrypt (blkTwo keyOk key1 f) (key1 ++ key2) v.2 v.1)) ≤
      cnt fun x : (Blk → Blk) × (Blk → Blk) =>
        accept ((mapAns (withIv x.2) D).run fun v => cmacBlk x.1 (locS (cmacBlk x.1) v)) := by
    refine cnt_mono fun f hf => ?_
    rw [mapAns_run, ← run_congr (P := (· ∈ S)) (fun v hv => encrypt_value keyOk key1 key2 hl hne hk1 hk2 f hf.1 v
      (hn v hv).2) D hS]
    exact hf.2
  have hcard : Fintype.card (S ⊕ Blk → Blk) = Fintype.card (S → Blk) * Fintype.card (Blk → Blk) := by
    rw [Fintype.card_congr (Equiv.sumArrowEquivProdArrow S Blk Blk), Fintype.card_prod]
  have hF : Nat.card ((Blk → Blk) × (Blk → Blk)) = Fintype.card (Blk → Blk) * Fintype.card (Blk → Blk) := by
    rw [Nat.card_eq_fintype_card, Fintype.card_prod]
  rw [hcard] at step2
  rw [hF, Nat.card_eq_fintype_card, ← card_blk]
  have hI : 0 < Fintype.card (S → Blk) := Fintype.card_pos_iff.mpr ⟨fun _ => 0⟩
  have hT : 0 < Fintype.card (pieces S → Blk) := Fintype.card_pos_iff.mpr ⟨fun _ => 0⟩
  revert sum1 step2 step3 e3
  generalize Fintype.card (S → Blk) = I at *
  generalize Fintype.card (pieces S → Blk) = T at *
  generalize Fintype.card (Blk → Blk) = F
  generalize Fintype.card Blk = N
  generalize Fintype.card (Strings S) = Y
  generalize cnt (fun f : (Blk → Blk) × (Blk → Blk) => Quiet (blkTwo keyOk key1 f) key1 ∧
        accept (D.run fun v => Model.sivEncrypt (blkTwo keyOk key1 f) (key1 ++ key2) v.2 v.1)) = A
  generalize cnt (fun x : (Blk → Blk) × (Blk → Blk) =>
        accept ((mapAns (withIv x.2) D).run fun v => cmacBlk x.1 (locS (cmacBlk x.1) v))) = A'
  generalize cnt (fun x : (S → Blk) × (Blk → Blk) => accept ((mapAns (withIv x.2) D).run (ext S x.1))) = Bc
  generalize cnt (fun ρ : pieces S → Blk =>
        accept (D.run fun v => if h : v ∈ S then .ok (cts S ρ ⟨v, h⟩).1 else .error .value)) = C
  generalize cnt (fun r : Strings S =>
    accept (D.run fun v => if h : v ∈ S then .ok (r ⟨v, h⟩).1 else .error .value)) = E
  intro sum1 step2 step3 e3
  refine Nat.le_of_mul_le_mul_right ?_ (Nat.mul_pos hI hT)
  have h1 : N * A * Y * (I * T) ≤ N * A' * I * (T * Y) := by
    have := Nat.mul_le_mul_left (N * Y * (I * T)) e3
    nlinarith
  have h2 := Nat.mul_le_mul_right (T * Y) sum1
  have h3 := Nat.mul_le_mul_right (F * Y) step2
  have h4 : N * C * (I * F) * (F * Y) = N * I * F * F * (E * T) := by
    rw [← step3]
    ring
  have h5 : c ^ 2 ≤ (c + 1) ^ 2 := Nat.pow_le_pow_left (Nat.le_succ c) 2
  have h6 := Nat.mul_le_mul_right (2 * (I * F) * T * (F * Y)) h5
  nlinarith
end

/-- C165: whatever can be found out about the ciphertexts of `siv_encrypt` by asking for encryptions, one after the other
depending on the answers before, with headers and plaintexts of at most `c` blocks, is found out as often about random
strings of the same lengths, up to `3 * (c + 1)^2` in `2^128`, if the cipher is a random function under each half of the
key and raises no exception. -/
theorem C165_privacy {R : Type} (keyOk : Bytes → Bool) (key1 key2 : Bytes) (hl : key1.length = key2.length)
    (hne : key1 ≠ key2) (hk1 : keyOk key1 = true) (hk2 : keyOk key2 = true)
    (D : Asker (List Bytes × Bytes) (Py Bytes) R) (accept : R → Prop) (c : Nat) (hc : D.CostLe boxCost (fun _ => 0) c)
    (S : Finset (List Bytes × Bytes)) (hn : ∀ v ∈ S, v.1.length ≤ 126 ∧ v.2.length ≤ 2 ^ 66) (hS : D.Within (· ∈ S)) :
    2 ^ 128 * Nat.card {f : (BitVec 128 → BitVec 128) × (BitVec 128 → BitVec 128) //
        Quiet (twoTables keyOk key1 f) key1 ∧
          accept (D.run fun v => Model.sivEncrypt (twoTables keyOk key1 f) (key1 ++ key2) v.2 v.1)} * Nat.card (Strings S) ≤
      2 ^ 128 * Nat.card {r : Strings S //
          accept (D.run fun v => if h : v ∈ S then .ok (r ⟨v, h⟩).1 else .error .value)} *
        Nat.card ((BitVec 128 → BitVec 128) × (BitVec 128 → BitVec 128)) +
      3 * (c + 1) ^ 2 * Nat.card ((BitVec 128 → BitVec 128) × (BitVec 128 → BitVec 128)) * Nat.card (Strings S) :=
  privacy keyOk key1 key2 hl hne hk1 hk2 D accept c hc S hn hS
/-- A strategy with 4 blocks: are the ciphertexts of two plaintexts of one octet the same after the first 16 octets? -/
example : (Asker.ask ([[7]], [1]) fun t => .ask ([[7]], [2]) fun t' =>
      .done ((t.toOption.getD []).drop 16 == (t'.toOption.getD []).drop 16) :
      Asker (List Bytes × Bytes) (Py Bytes) Bool).CostLe boxCost (fun _ => 0) 4 ∧
    (∀ v ∈ ({([[7]], [1]), ([[7]], [2])} : Finset (List Bytes × Bytes)), v.1.length ≤ 126 ∧ v.2.length ≤ 2 ^ 66) ∧
    (Asker.ask ([[7]], [1]) fun t => .ask ([[7]], [2]) fun t' =>
      .done ((t.toOption.getD []).drop 16 == (t'.toOption.getD []).drop 16) :
      Asker (List Bytes × Bytes) (Py Bytes) Bool).Within
        (· ∈ ({([[7]], [1]), ([[7]], [2])} : Finset (List Bytes × Bytes))) :=
  ⟨⟨by decide, fun _ => ⟨by decide, fun _ => Nat.zero_le _⟩⟩, by decide, by decide, fun _ => ⟨by decide, fun _ => trivial⟩⟩
/-- Some functions raise no exception. -/
example : Quiet (twoTables (fun _ => true) [1] (fun _ => 2 ^ 124, fun b => b)) [1] := by
  have hE : (twoTables (fun _ => true) [1] (fun _ => 2 ^ 124, fun b => b)).enc [1] = fun _ => ofBits (2 ^ 124) := by
    funext s
    change (if ([1] : Bytes) = [1] then ofBits (2 ^ 124) else ofBits (toBits s)) = ofBits (2 ^ 124)
    rw [if_pos rfl]
  intro M
  rw [cmac_err _ ⟨rfl, fun k s _ => ?_⟩ [1] M rfl, hE]
  · have h : subErr (fun _ => ofBits (2 ^ 124)) = (false, false) := by decide +kernel
    rw [h, if_neg (by rw [cmacErr]; split <;> decide)]
    exact ⟨_, rfl⟩
  · change (if k = [1] then ofBits (2 ^ 124) else ofBits (toBits s)).length = 16
    split <;> exact length_ofBits _

/-- One more encryption and its answer. -/
def remember (v : List Bytes × Bytes) (a : Py Bytes) (log : List ((List Bytes × Bytes) × Bytes)) :
    List ((List Bytes × Bytes) × Bytes) :=
  match a with
  | .ok c => (v, c) :: log
  | .error _ => log

/-- The same strategy if decryptions are answered without a key: with the plaintext if the ciphertext was the answer to an
encryption with the same headers, and with the exception of `siv_decrypt` otherwise. -/
def keyless {R : Type} : List ((List Bytes × Bytes) × Bytes) → Asker SivQuery (Py Bytes) R →
    Asker (List Bytes × Bytes) (Py Bytes) R
  | _, .done r => .done r
  | log, .ask (.enc pt ads) next => .ask (ads, pt) fun a =>
    keyless (remember (ads, pt) a log) (next a)
  | log, .ask (.dec c ads) next => keyless log (next
    (match log.find? fun e => e.1.1 = ads ∧ e.2 = c with | some e => .ok e.1.2 | none => .error .stringRaise))

/-- An encryption in the set, or a decryption with few headers of a ciphertext that is not too long. -/
def SivQuery.Fits (S : Finset (List Bytes × Bytes)) : SivQuery → Prop
  | .enc pt ads => (ads, pt) ∈ S
  | .dec c ads => ads.length ≤ 126 ∧ c.length ≤ 2 ^ 66

section
variable {R : Type}

private theorem keyless_run {S : Finset (List Bytes × Bytes)} (g : SivQuery → Py Bytes)
    (hinv : ∀ c ads pt, g (.dec c ads) = .ok pt ↔ g (.enc pt ads) = .ok c)
    (herr : ∀ c ads, SivQuery.Fits S (.dec c ads) → ∀ e, g (.dec c ads) = .error e → e = .stringRaise)
    (D : Asker SivQuery (Py Bytes) R) (hw : D.Within (SivQuery.Fits S)) (pre : List SivQuery)
    (log : List ((List Bytes × Bytes) × Bytes)) (h1 : ∀ e ∈ log, g (.enc e.1.2 e.1.1) = .ok e.2)
    (h2 : ∀ pt ads c, .enc pt ads ∈ pre → g (.enc pt ads) = .ok c → ((ads, pt), c) ∈ log)
    (hf : ¬ ∃ before c ads after, D.asked g = before ++ .dec c ads :: after ∧ (∃ pt, g (.dec c ads) = .ok pt) ∧
      ∀ pt, .enc pt ads ∈ pre ++ before → g (.enc pt ads) ≠ .ok c) :
    (keyless log D).run (fun v => g (.enc v.2 v.1)) = D.run g := by
  induction D generalizing pre log with
  | done r => rfl
  | ask q next ih =>
    have hf' : ¬ ∃ before c ads after, (next (g q)).asked g = before ++ .dec c ads :: after ∧
        (∃ pt, g (.dec c ads) = .ok pt) ∧ ∀ pt, .enc pt ads ∈ (pre ++ [q]) ++ before → g (.enc pt ads) ≠ .ok c := by
      rintro ⟨before, c, ads, after, e1, e2, e3⟩
      refine hf ⟨q :: before, c, ads, after, ?_, e2, fun pt hpt => e3 pt ?_⟩
      · change q :: _ = _
        rw [e1]
        rfl
      · rw [List.append_assoc]
        exact hpt
    change _ = Asker.run g (next (g q))
    rcases q with ⟨pt, ads⟩ | ⟨c, ads⟩
    · rw [keyless]
      change Asker.run _ (keyless (remember (ads, pt) (g (.enc pt ads)) log) (next (g (.enc pt ads)))) = _
      refine ih _ (hw.2 _) (pre ++ [.enc pt ads]) _ ?_ ?_ hf'
      · cases he : g (.enc pt ads) with
        | error e => exact h1
        | ok c =>
          intro e hm
          rcases List.mem_cons.mp hm with rfl | hm
          · exact he
          · exact h1 e hm
      · intro pt' ads' c hm hg
        rcases List.mem_append.mp hm with hm | hm
        · have := h2 pt' ads' c hm hg
          cases he : g (.enc pt ads) with
          | error e => exact this
          | ok c' => exact List.mem_cons_of_mem _ this
        · rw [List.mem_singleton, SivQuery.enc.injEq] at hm
          obtain ⟨rfl, rfl⟩ := hm
          rw [hg]
          exact List.mem_cons_self
    · rw [keyless]
      have ans : (match log.find? fun e => e.1.1 = ads ∧ e.2 = c with
          | some e => .ok e.1.2
          | none => .error .stringRaise) = g (.dec c ads) := by
        cases hl : log.find? fun e => decide (e.1.1 = ads ∧ e.2 = c) with
        | some e =>
          have hm := List.mem_of_find?_eq_some hl
          have hp := List.find?_some hl
          simp only [decide_eq_true_eq] at hp
          obtain ⟨rfl, rfl⟩ := hp
          exact ((hinv _ _ _).mpr (h1 e hm)).symm
        | none =>
          simp only
          cases hg : g (.dec c ads) with
          | error e => rw [herr c ads hw.1 e hg]
          | ok pt =>
            exfalso
            refine hf ⟨[], c, ads, _, rfl, ⟨pt, hg⟩, fun pt' hpt' hc => ?_⟩
            rw [List.append_nil] at hpt'
            have := List.find?_eq_none.mp hl _ (h2 pt' ads c hpt' hc)
            simp at this
      rw [ans]
      refine ih _ (hw.2 _) (pre ++ [.dec c ads]) log h1 (fun pt' ads' c' hm => h2 pt' ads' c' ?_) hf'
      rcases List.mem_append.mp hm with hm | hm
      · exact hm
      · rw [List.mem_singleton] at hm
        cases hm

private theorem keyless_cost (D : Asker SivQuery (Py Bytes) R) (log : List ((List Bytes × Bytes) × Bytes)) (c : Nat)
    (hc : D.CostLe SivQuery.blocks (fun _ => 0) c) : (keyless log D).CostLe boxCost (fun _ => 0) c := by
  induction D generalizing log c with
  | done r => exact hc
  | ask q next ih =>
    rcases q with ⟨pt, ads⟩ | ⟨ct, ads⟩
    · exact ⟨hc.1, fun a => ih _ _ _ (hc.2 a)⟩
    · rw [keyless]
      exact costLe_weaken (fun _ => le_rfl) (Nat.sub_le _ _) (ih _ _ _ (hc.2 _))

private theorem keyless_within {S : Finset (List Bytes × Bytes)} (D : Asker SivQuery (Py Bytes) R)
    (log : List ((List Bytes × Bytes) × Bytes)) (hw : D.Within (SivQuery.Fits S)) : (keyless log D).Within (· ∈ S) := by
  induction D generalizing log with
  | done r => trivial
  | ask q next ih =>
    rcases q with ⟨pt, ads⟩ | ⟨ct, ads⟩
    · exact ⟨hw.1, fun a => ih _ _ (hw.2 a)⟩
    · rw [keyless]
      exact ih _ _ (hw.2 _)

private theorem within_weaken' {M T R : Type} {S S' : M → Prop} {D : Asker M T R} (h : ∀ m, S m → S' m)
    (hD : D.Within S) : D.Within S' := by
  induction D with
  | done r => trivial
  | ask m next ih => exact ⟨h m hD.1, fun t => ih t (hD.2 t)⟩

private theorem stream_ok (aes : CipherLib) (h : LawfulCipher aes) (key2 iv : Bytes) (k i : Nat) (x : Bytes)
    (hk : iv.length = 16 ∨ k = 0) (hi : i + k ≤ 2 ^ 63) :
    ∃ x', Model.sivStream aes key2 iv i k x = .ok x' ∧ x'.length = x.length + 16 * k := by
  induction k generalizing i x with
  | zero => exact ⟨x, rfl, rfl⟩
  | succ k ih =>
    have hiv : iv.length = 16 := hk.resolve_right (by omega)
    rw [Model.sivStream, (C17_siv_counters iv hiv).2 i (by omega)]
    obtain ⟨x', h1, h2⟩ := ih (i + 1) (x ++ aes.enc key2 (ofBits (sivQ iv + BitVec.ofNat 128 i))) (Or.inl hiv) (by omega)
    refine ⟨x', h1, ?_⟩
    rw [h2, List.length_append, h.length key2 _ (length_ofBits _)]
    omega

private theorem halves (key1 key2 : Bytes) (hl : key1.length = key2.length) (h0 : key1 ≠ key2) :
    (key1 ++ key2).take ((key1 ++ key2).length / 2) = key1 ∧
      Py.sliceFrom (key1 ++ key2) (-(((key1 ++ key2).length / 2 : Nat) : Int)) = key2 := by
  have hd : (key1 ++ key2).length / 2 = key1.length := by
    rw [List.length_append]
    omega
  have hpos : 0 < key1.length := by
    by_contra hc
    have e1 : key1 = [] := List.length_eq_zero_iff.mp (by omega)
    have e2 : key2 = [] := List.length_eq_zero_iff.mp (by omega)
    exact h0 (e1.trans e2.symm)
  rw [hd]
  refine ⟨List.take_left, ?_⟩
  simp only [Py.sliceFrom, Py.clampIdx]
  rw [if_pos (by omega)]
  have : (-(key1.length : Int) + ((key1 ++ key2).length : Int)).toNat = key1.length := by
    rw [List.length_append]
    omega
  first
    | rw [this, List.drop_left]
    | (rw [show ((((key1 ++ key2).length : Int) + -(key1.length : Int))).toNat = key1.length by
        rw [List.length_append]; omega, List.drop_left])

private theorem decrypt_error (aes : CipherLib) (h : LawfulCipher aes) (key1 key2 : Bytes)
    (hl : key1.length = key2.length) (hne : key1 ≠ key2) (hk1 : aes.keyOk key1 = true) (hk2 : aes.keyOk key2 = true)
    (hq : Quiet aes key1) (c : Bytes) (hc : c.length ≤ 2 ^ 66) (ads : List Bytes) (e : PyErr)
    (he : sivDecrypt aes (key1 ++ key2) c ads = .error e) : e = .stringRaise := by
  obtain ⟨h1, h2⟩ := halves key1 key2 hl hne
  rw [sivDecrypt] at he
  simp only [h1, h2] at he
  rw [if_pos hk2] at he
  have hlen : (c.drop 16).length ≤ 2 ^ 66 := by
    rw [List.length_drop]
    omega
  obtain ⟨x, hx, hxl⟩ := stream_ok aes h key2 (c.take 16) (((c.drop 16).length + 16 - 1) / 16) 0 [] (by
    rw [List.length_take, List.length_drop]
    omega) (by omega)
  rw [hx] at he
  simp only at he
  rw [xor_eq, if_pos (by
    rw [List.length_take, hxl, List.length_nil]
    omega)] at he
  simp only at he
  rw [(C13_s2v_rfc5297 aes h key1 hk1 _).1 (quiet_sub h hk1 hq)] at he
  simp only at he
  split at he
  · cases he
  · rw [Except.error.injEq] at he
    exact he.symm

end

/-- C165: the same with decryptions: whatever can be found out by asking for encryptions and at most `q` decryptions, with
headers and texts of at most `c` blocks, is found out as often about random strings in place of the ciphertexts and without
a key for the decryptions, up to `5 * (c + 1)^2 + 2 * q` in `2^128`. -/
theorem C165_decryption {R : Type} (keyOk : Bytes → Bool) (key1 key2 : Bytes) (hl : key1.length = key2.length)
    (hne : key1 ≠ key2) (hk1 : keyOk key1 = true) (hk2 : keyOk key2 = true)
    (D : Asker SivQuery (Py Bytes) R) (accept : R → Prop) (c q : Nat)
    (hc : D.CostLe SivQuery.blocks (fun _ => 0) c) (hq : D.CostLe SivQuery.tries (fun _ => 0) q)
    (S : Finset (List Bytes × Bytes)) (hn : ∀ v ∈ S, v.1.length ≤ 126 ∧ v.2.length ≤ 2 ^ 66)
    (hS : D.Within (SivQuery.Fits S)) :
    2 ^ 128 * Nat.card {f : (BitVec 128 → BitVec 128) × (BitVec 128 → BitVec 128) //
        Quiet (twoTables keyOk key1 f) key1 ∧
          accept (D.run (sivAnswer (twoTables keyOk key1 f) (key1 ++ key2)))} * Nat.card (Strings S) ≤
      2 ^ 128 * Nat.card {r : Strings S //
          accept ((keyless [] D).run fun v => if h : v ∈ S then .ok (r ⟨v, h⟩).1 else .error .value)} *
        Nat.card ((BitVec 128 → BitVec 128) × (BitVec 128 → BitVec 128)) +
      (5 * (c + 1) ^ 2 + 2 * q) * Nat.card ((BitVec 128 → BitVec 128) × (BitVec 128 → BitVec 128)) *
        Nat.card (Strings S) := by
  have key : 2 ^ 128 * cnt (fun f : (Blk → Blk) × (Blk → Blk) => Quiet (twoTables keyOk key1 f) key1 ∧
        accept (D.run (sivAnswer (twoTables keyOk key1 f) (key1 ++ key2)))) * Nat.card (Strings S) ≤
      2 ^ 128 * cnt (fun r : Strings S =>
          accept ((keyless [] D).run fun v => if h : v ∈ S then .ok (r ⟨v, h⟩).1 else .error .value)) *
        Nat.card ((Blk → Blk) × (Blk → Blk)) +
      (5 * (c + 1) ^ 2 + 2 * q) * Nat.card ((Blk → Blk) × (Blk → Blk)) * Nat.card (Strings S) := by
    have h1 : 2 ^ 128 * cnt (fun f : (Blk → Blk) × (Blk → Blk) =>
        Fakes (sivAnswer (twoTables keyOk key1 f) (key1 ++ key2)) D) ≤
        2 * ((c + 1) ^ 2 + q) * Nat.card ((Blk → Blk) × (Blk → Blk)) := by
      rw [cnt_prod, Finset.mul_sum, Nat.card_prod, Nat.card_eq_fintype_card, ← mul_assoc]
      refine (Finset.sum_le_sum (g := fun _ => 2 * ((c + 1) ^ 2 + q) * Fintype.card (Blk → Blk)) fun f' _ => ?_).trans ?_
      · have := C163_forgery keyOk key1 key2 hl hne hk1 (fun _ s => ofBits ((f' : Blk → Blk) (toBits s)))
          (fun k s _ => length_ofBits _) D c q hc hq (within_weaken' (fun s hs => ?_) hS)
        · rw [← Nat.card_eq_fintype_card]
          exact this
        · cases s with
          | enc pt ads => exact (hn _ hs).1
          | dec c ads => exact hs.1
      · rw [Finset.sum_const, Finset.card_univ, smul_eq_mul, mul_comm]
    have h2 : 2 ^ 128 * cnt (fun f : (Blk → Blk) × (Blk → Blk) => Quiet (twoTables keyOk key1 f) key1 ∧
          accept ((keyless [] D).run fun v => Model.sivEncrypt (twoTables keyOk key1 f) (key1 ++ key2) v.2 v.1)) *
          Nat.card (Strings S) ≤
        2 ^ 128 * cnt (fun r : Strings S =>
            accept ((keyless [] D).run fun v => if h : v ∈ S then .ok (r ⟨v, h⟩).1 else .error .value)) *
          Nat.card ((Blk → Blk) × (Blk → Blk)) +
        3 * (c + 1) ^ 2 * Nat.card ((Blk → Blk) × (Blk → Blk)) * Nat.card (Strings S) :=
      privacy keyOk key1 key2 hl hne hk1 hk2 (keyless [] D) accept c (keyless_cost D [] c hc) S hn (keyless_within D [] hS)
    have h3 : cnt (fun f : (Blk → Blk) × (Blk → Blk) => Quiet (twoTables keyOk key1 f) key1 ∧
          accept (D.run (sivAnswer (twoTables keyOk key1 f) (key1 ++ key2)))) ≤
        cnt (fun f : (Blk → Blk) × (Blk → Blk) => Fakes (sivAnswer (twoTables keyOk key1 f) (key1 ++ key2)) D) +
        cnt fun f : (Blk → Blk) × (Blk → Blk) => Quiet (twoTables keyOk key1 f) key1 ∧
          accept ((keyless [] D).run fun v => Model.sivEncrypt (twoTables keyOk key1 f) (key1 ++ key2) v.2 v.1) := by
      refine (cnt_mono ?_).trans (cnt_or _ _)
      rintro f ⟨hf1, hf2⟩
      by_cases hF : Fakes (sivAnswer (twoTables keyOk key1 f) (key1 ++ key2)) D
      · exact Or.inl hF
      · refine Or.inr ⟨hf1, ?_⟩
        have lawful : LawfulCipher (twoTables keyOk key1 f) := blkTwo_lawful keyOk key1 f
        have := keyless_run (S := S) (sivAnswer (twoTables keyOk key1 f) (key1 ++ key2))
          (fun c ads pt => C15_siv_accepts_exactly _ lawful _ ads c pt)
          (fun c ads hfit e he => decrypt_error _ lawful key1 key2 hl hne hk1 hk2 hf1 c hfit.2 ads e he)
          D hS [] [] (by simp) (by simp) (by simpa [Fakes] using hF)
        have e : (fun v : List Bytes × Bytes => Model.sivEncrypt (twoTables keyOk key1 f) (key1 ++ key2) v.2 v.1) =
          fun v => sivAnswer (twoTables keyOk key1 f) (key1 ++ key2) (.enc v.2 v.1) := rfl
        rw [e, this]
        exact hf2
    revert h1 h2 h3
    generalize cnt (fun f : (Blk → Blk) × (Blk → Blk) => Quiet (twoTables keyOk key1 f) key1 ∧
        accept (D.run (sivAnswer (twoTables keyOk key1 f) (key1 ++ key2)))) = A
    generalize cnt (fun f : (Blk → Blk) × (Blk → Blk) =>
        Fakes (sivAnswer (twoTables keyOk key1 f) (key1 ++ key2)) D) = A1
    generalize cnt (fun f : (Blk → Blk) × (Blk → Blk) => Quiet (twoTables keyOk key1 f) key1 ∧
          accept ((keyless [] D).run fun v => Model.sivEncrypt (twoTables keyOk key1 f) (key1 ++ key2) v.2 v.1)) = A2
    generalize cnt (fun r : Strings S =>
            accept ((keyless [] D).run fun v => if h : v ∈ S then .ok (r ⟨v, h⟩).1 else .error .value)) = E
    generalize Nat.card ((Blk → Blk) × (Blk → Blk)) = F
    generalize Nat.card (Strings S) = Y
    generalize 2 ^ 128 = N
    intro h1 h2 h3
    have h4 := Nat.mul_le_mul_left (N * Y) h3
    have h5 := Nat.mul_le_mul_right Y h1
    nlinarith
  exact key

/-- A strategy with 4 blocks and one decryption: the answer for two octets with one header is changed and decrypted. -/
example : (Asker.ask (.enc [1, 2] [[3]]) fun t => .ask (.dec ((t.toOption.getD []).reverse.take 18) [[3]])
      fun t' => .done t'.toOption.isSome : Asker SivQuery (Py Bytes) Bool).CostLe SivQuery.blocks (fun _ => 0) 4 ∧
    (Asker.ask (.enc [1, 2] [[3]]) fun t => .ask (.dec ((t.toOption.getD []).reverse.take 18) [[3]])
      fun t' => .done t'.toOption.isSome : Asker SivQuery (Py Bytes) Bool).CostLe SivQuery.tries (fun _ => 0) 1 ∧
    (∀ v ∈ ({([[3]], [1, 2])} : Finset (List Bytes × Bytes)), v.1.length ≤ 126 ∧ v.2.length ≤ 2 ^ 66) ∧
    (Asker.ask (.enc [1, 2] [[3]]) fun t => .ask (.dec ((t.toOption.getD []).reverse.take 18) [[3]])
      fun t' => .done t'.toOption.isSome : Asker SivQuery (Py Bytes) Bool).Within
        (SivQuery.Fits {([[3]], [1, 2])}) := by
  have h1 : SivQuery.blocks (.enc [1, 2] [[3]]) = 2 := by decide
  have h2 (t : Bytes) : SivQuery.blocks (.dec (t.take 18) [[3]]) = 2 := by
    rw [SivQuery.blocks, cmacBlocks.eq_def (List.drop _ _), List.length_drop, List.length_take]
    have : (List.map cmacBlocks [[3]]).sum = 1 := by decide
    omega
  refine ⟨⟨by rw [h1]; decide, fun t => ⟨by rw [h1, h2], fun t' => Nat.zero_le _⟩⟩, ⟨by decide, fun t =>
    ⟨le_rfl, fun t' => Nat.zero_le _⟩⟩, by decide, Finset.mem_singleton_self _, fun t => ⟨⟨?_, ?_⟩, fun t' => trivial⟩⟩
  · change 1 ≤ 126
    decide
  · rw [List.length_take]
    omega

section

theorem small_blk : cnt (fun b : Blk => (show BitVec 128 from b).toNat < 2 ^ 120) ≤ 2 ^ 120 := by
  rw [cnt]
  refine (Nat.card_le_card_of_injective (β := Fin (2 ^ 120))
    (fun b => ⟨(show BitVec 128 from b.1).toNat, b.2⟩) ?_).trans (Nat.card_fin _).le
  rintro ⟨a, ha⟩ ⟨b, hb⟩ e
  rw [Fin.mk.injEq] at e
  exact Subtype.ext (BitVec.eq_of_toNat_eq e)

theorem cnt_inj {X : Type} [Fintype X] (e : X → X) (he : Function.Injective e) (P : X → Prop) :
    cnt (fun x => P (e x)) ≤ cnt P := by
  rw [cnt, cnt]
  refine Nat.card_le_card_of_injective (fun x => ⟨e x.1, x.2⟩) ?_
  rintro ⟨a, ha⟩ ⟨b, hb⟩ h
  exact Subtype.ext (he (Subtype.mk.inj h))

private theorem cnt_at_zero (P : Blk → Prop) :
    Fintype.card Blk * cnt (fun f : Blk → Blk => P (f 0)) = cnt P * Fintype.card (Blk → Blk) := by
  classical
  rw [cnt_split _ fun f : Blk → Blk => f 0, cnt_eq P, Finset.card_filter, Finset.mul_sum, Finset.sum_mul]
  refine Finset.sum_congr rfl fun b _ => ?_
  by_cases h : P b
  · rw [if_pos h, one_mul, ← card_zero b]
    congr 1
    exact cnt_congr fun f => ⟨fun h => h.2, fun e => ⟨e ▸ h, e⟩⟩
  · rw [if_neg h, zero_mul, mul_eq_zero]
    exact Or.inr (cnt_false fun f hf => h (hf.2 ▸ hf.1))

end

/-- C165: exceptions are raised for at most one in 128 of all functions. -/
theorem C165_exceptions (keyOk : Bytes → Bool) (key : Bytes) (hk : keyOk key = true) (g : Bytes → Bytes → Bytes)
    (hg : ∀ k s, s.length = 16 → (g k s).length = 16) :
    128 * Nat.card {f : BitVec 128 → BitVec 128 // ¬ Quiet (splitLib keyOk key f g) key} ≤
      Nat.card (BitVec 128 → BitVec 128) := by
  have main : 128 * cnt (fun f : Blk → Blk => ¬ Quiet (splitLib keyOk key f g) key) ≤ Nat.card (Blk → Blk) := by
    have small (e : Blk → Blk) (he : Function.Injective e) :
        cnt (fun b : Blk => (show BitVec 128 from e b).toNat < 2 ^ 120) ≤ 2 ^ 120 :=
      (cnt_inj e he fun b : Blk => (show BitVec 128 from b).toNat < 2 ^ 120).trans small_blk
    have h1 : cnt (fun f : Blk → Blk => ¬ Quiet (splitLib keyOk key f g) key) ≤
        cnt (fun f : Blk → Blk => (show BitVec 128 from dblHom (f 0)).toNat < 2 ^ 120) +
        cnt (fun f : Blk → Blk => (show BitVec 128 from dblHom (dblHom (f 0))).toNat < 2 ^ 120) := by
      refine (cnt_mono ?_).trans (cnt_or _ _)
      intro f hf
      by_contra hc
      refine hf fun M => ?_
      rw [not_or] at hc
      have lawful : LawfulCipher (splitLib keyOk key f g) := ⟨rfl, fun k s hs => by
        change (if k = key then ofBits (f (toBits s)) else g k s).length = 16
        split
        · exact length_ofBits _
        · exact hg k s hs⟩
      have enc : (splitLib keyOk key f g).enc key = onBytes f := by
        funext s
        exact if_pos rfl
      rw [cmac_err _ lawful key M hk, enc, subErr, onBytes_K1, onBytes_K2, if_neg]
      · exact ⟨_, rfl⟩
      · rw [cmacErr]
        split
        · exact fun h => hc.1 (of_decide_eq_true h)
        · exact fun h => hc.2 (of_decide_eq_true h)
    have h2 := cnt_at_zero fun b => (show BitVec 128 from dblHom b).toNat < 2 ^ 120
    have h3 := cnt_at_zero fun b => (show BitVec 128 from dblHom (dblHom b)).toNat < 2 ^ 120
    have h4 := small (fun b => dblHom b) fun a b h => dblHom_inj h
    have h5 := small (fun b => dblHom (dblHom b)) fun a b h => dblHom_inj (dblHom_inj h)
    have h6 := Nat.mul_le_mul_right (Fintype.card (Blk → Blk)) h4
    have h7 := Nat.mul_le_mul_right (Fintype.card (Blk → Blk)) h5
    rw [← h2] at h6
    rw [← h3] at h7
    rw [card_blk] at h6 h7
    rw [Nat.card_eq_fintype_card]
    revert h1 h6 h7
    generalize cnt (fun f : Blk → Blk => ¬ Quiet (splitLib keyOk key f g) key) = a
    generalize cnt (fun f : Blk → Blk => (show BitVec 128 from dblHom (f 0)).toNat < 2 ^ 120) = b
    generalize cnt (fun f : Blk → Blk => (show BitVec 128 from dblHom (dblHom (f 0))).toNat < 2 ^ 120) = d
    generalize Fintype.card (Blk → Blk) = F
    intro h1 h6 h7
    omega
  exact main
/-- Some functions do: if zero is mapped to zero, both subkeys are zero. -/
example : ¬ Quiet (splitLib (fun _ => true) [1] (fun b => b) fun _ s => s) [1] := by
  intro h
  obtain ⟨t, ht⟩ := h []
  have : (aesCmac (splitLib (fun _ => true) [1] (fun b => b) fun _ s => s)
    (splitLib (fun _ => true) [1] (fun b => b) fun _ s => s) [1] []).toBool = false := by decide +kernel
  rw [ht] at this
  cases this

end Cryptopy
