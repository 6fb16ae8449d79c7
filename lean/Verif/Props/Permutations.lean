import Verif.Lemmas.SivReads
import Verif.Props.SivPrivacy

/-!
C166: the bounds of C161, C163 and C165 for permutations in place of AES.
-/

namespace Cryptopy
open Model (CipherLib aesCmac sivDecrypt)
open Spec Prf

/-- C166: whatever is found out about a function on 16-octet blocks by asking for at most `q` values, one after the other, is
found out as often about all permutations as about all functions, up to `q * (q - 1) / 2` in `2^128`. -/
theorem C166_switching {R : Type} (D : Asker (BitVec 128) (BitVec 128) R) (accept : R → Prop) (q : Nat)
    (hq : D.CostLe (fun _ => 1) (fun _ => 0) q) :
    2 ^ 128 * Nat.card {π : Equiv.Perm (BitVec 128) // accept (D.run π)} * Nat.card (BitVec 128 → BitVec 128) ≤
      2 ^ 128 * Nat.card {f : BitVec 128 → BitVec 128 // accept (D.run f)} * Nat.card (Equiv.Perm (BitVec 128)) +
      q.choose 2 * Nat.card (BitVec 128 → BitVec 128) * Nat.card (Equiv.Perm (BitVec 128)) := by
  have h := switch (B := Blk) accept D q hq
  rw [card_blk, ← Nat.card_eq_fintype_card, ← Nat.card_eq_fintype_card] at h
  exact h
/-- A strategy with two questions: is one value the same as the other? -/
example : (Asker.ask 0 fun a => .ask 1 fun b => .done (a = b) : Asker (BitVec 128) (BitVec 128) Prop).CostLe
    (fun _ => 1) (fun _ => 0) 2 ∧
    ∀ π : Equiv.Perm (BitVec 128), ¬ (Asker.ask 0 fun a => .ask 1 fun b => .done (a = b) :
      Asker (BitVec 128) (BitVec 128) Prop).run π :=
  ⟨⟨by decide, fun _ => ⟨by decide, fun _ => Nat.zero_le _⟩⟩, fun π h => absurd (π.injective h) (by decide)⟩

section
variable {R : Type}

/-- The strategy asks for the last message as well. -/
private def andAsk {V A : Type} (m : R → V) : Asker V A R → Asker V A R
  | .done r => .ask (m r) fun _ => .done r
  | .ask v next => .ask v fun a => andAsk m (next a)

private theorem andAsk_asked {V A : Type} (m : R → V) (g : V → A) (D : Asker V A R) :
    (andAsk m D).asked g = D.asked g ++ [m (D.run g)] := by
  induction D with
  | done r => rfl
  | ask v next ih => exact congrArg (v :: ·) (ih _)

private theorem andAsk_run {V A : Type} (m : R → V) (g : V → A) (D : Asker V A R) : (andAsk m D).run g = D.run g := by
  induction D with
  | done r => rfl
  | ask v next ih => exact ih _

private theorem andAsk_cost {V A : Type} (m : R → V) (cost : V → Nat) (D : Asker V A R) (c : Nat)
    (hc : D.CostLe cost (fun r => cost (m r)) c) : (andAsk m D).CostLe cost (fun _ => 0) c := by
  induction D generalizing c with
  | done r => exact ⟨hc, fun _ => Nat.zero_le _⟩
  | ask v next ih => exact ⟨hc.1, fun a => ih a _ (hc.2 a)⟩

private theorem within_true {V A : Type} (D : Asker V A R) : D.Within fun _ => True := by
  induction D with
  | done r => trivial
  | ask v next ih => exact ⟨trivial, fun a => ih a⟩

private theorem blocks_eq (M : Bytes) : Prf.blocks M = cmacBlocks M := by
  rw [Prf.blocks, place_length, cmacBlocks]
  simp only [List.length_nil]
  omega

private theorem boxBlocks_eq (v : List Bytes × Bytes) : boxBlocks v = boxCost v := by
  rw [boxBlocks, blocks_eq, List.map_congr_left fun M _ => blocks_eq M, boxCost]

private theorem finish {F p : Nat} (hF : 0 < F) {N x y b e : Nat} (h1 : N * x * F ≤ N * y * p + e * F * p)
    (h2 : N * y ≤ b * F) : N * x ≤ (b + e) * p := by
  refine Nat.le_of_mul_le_mul_right (h1.trans ?_) hF
  have := Nat.mul_le_mul_right p h2
  calc N * y * p + e * F * p ≤ b * F * p + e * F * p := Nat.add_le_add_right this _
    _ = _ := by ring

private theorem finish2 {F p : Nat} (hF : 0 < F) {N x y z s b e : Nat} (h1 : N * x * F ≤ N * y * p + e * F * p)
    (h2 : N * y * s ≤ N * z * F + b * F * s) : N * x * s ≤ N * z * p + (b + e) * p * s := by
  have h3 := Nat.mul_le_mul_right s h1
  have h4 := Nat.mul_le_mul_right p h2
  refine Nat.le_of_mul_le_mul_right ?_ hF
  calc N * x * s * F = N * x * F * s := by ring
    _ ≤ _ := h3
    _ = N * y * s * p + e * F * p * s := by ring
    _ ≤ _ := Nat.add_le_add_right h4 _
    _ = _ := by ring

private theorem pos_funs : 0 < Fintype.card (Blk → Blk) := Fintype.card_pos_iff.mpr ⟨fun _ => 0⟩

private theorem table_enc (keyOk : Bytes → Bool) (key : Bytes) (f : Blk → Blk) : (tableLib keyOk f).enc key = onBytes f :=
  funext fun _ => rfl

private theorem cmac_reads (keyOk : Bytes → Bool) (key : Bytes) (hk : keyOk key = true) (L : Blk) (M : Bytes) :
    Reads (fun f : Blk → Blk => True ∧ f 0 = L) (cmacBlocks M) fun f => aesCmac (tableLib keyOk f) (tableLib keyOk f) key M := by
  rw [← blocks_eq]
  exact aesCmac_reads (lib := fun f => tableLib keyOk f) (fun f => tableLib_lawful keyOk f) (fun f => hk)
    (table_enc keyOk key) (fun f hf => hf.2) M

/-- If the questions with the answers are the same, either both are forgeries or none. -/
private theorem forges_of_asked {g g' : Bytes → Py Bytes} (D : Asker Bytes (Py Bytes) (Bytes × Bytes))
    (h : ((andAsk Prod.fst D).asked g).map (fun v => (v, g v)) = ((andAsk Prod.fst D).asked g').map fun v => (v, g' v)) :
    Forges g D = Forges g' D := by
  have h1 := run_of_asked _ h
  obtain ⟨h2, h3⟩ := asked_of_asked _ h
  rw [andAsk_run, andAsk_run] at h1
  rw [andAsk_asked] at h3
  rw [andAsk_asked, andAsk_asked] at h2
  rw [Forges, Forges, (List.append_inj' h2 rfl).1, ← h1, h3 _ (by simp)]

/-- If the questions with the answers are the same, either both have a fake or none. -/
private theorem fakes_of_asked {g g' : SivQuery → Py Bytes} (D : Asker SivQuery (Py Bytes) R)
    (h : (D.asked g).map (fun v => (v, g v)) = (D.asked g').map fun v => (v, g' v)) : Fakes g D = Fakes g' D := by
  obtain ⟨h2, h3⟩ := asked_of_asked _ h
  rw [Fakes, Fakes, ← h2]
  refine propext ?_
  have (before : List SivQuery) (c : Bytes) (ads : List Bytes) (after : List SivQuery)
      (e : D.asked g = before ++ .dec c ads :: after) :
      ((∃ pt, g (.dec c ads) = .ok pt) ∧ ∀ pt, .enc pt ads ∈ before → g (.enc pt ads) ≠ .ok c) ↔
        (∃ pt, g' (.dec c ads) = .ok pt) ∧ ∀ pt, .enc pt ads ∈ before → g' (.enc pt ads) ≠ .ok c := by
    rw [h3 (.dec c ads) (by simp [e])]
    refine and_congr_right fun _ => forall_congr' fun pt => forall_congr' fun hp => ?_
    rw [h3 (.enc pt ads) (by simp [e, hp])]
  exact exists_congr fun before => exists_congr fun c => exists_congr fun ads => exists_congr fun after =>
    and_congr_right fun e => this before c ads after e

/-- The modules for functions on blocks with xor as addition. -/
private def spl (keyOk : Bytes → Bool) (key1 : Bytes) (g : Bytes → Bytes → Bytes) (f : Blk → Blk) : CipherLib :=
  splitLib keyOk key1 f g

private def two (keyOk : Bytes → Bool) (key1 : Bytes) (f : (Blk → Blk) × (Blk → Blk)) : CipherLib := twoTables keyOk key1 f

private theorem opened_length {aes : CipherLib} {key2 c pt : Bytes} (h : sivOpened aes key2 c = .ok pt) :
    pt.length = (c.drop 16).length := by
  rw [sivOpened] at h
  split at h
  · split at h
    · cases h
    · rw [xor_eq] at h
      split at h
      · next he =>
        rw [Except.ok.injEq] at h
        rw [← h, length_xorBytes]
        omega
      · cases h
  · cases h

private theorem split_lawful (keyOk : Bytes → Bool) (key1 : Bytes) (g : Bytes → Bytes → Bytes)
    (hg : ∀ k s, s.length = 16 → (g k s).length = 16) (f : Blk → Blk) : LawfulCipher (spl keyOk key1 g f) :=
  ⟨rfl, fun k s hs => by
    change (if k = key1 then ofBits (f (toBits s)) else g k s).length = 16
    split
    · exact length_ofBits _
    · exact hg k s hs⟩

private theorem split_enc1 (keyOk : Bytes → Bool) (key1 : Bytes) (g : Bytes → Bytes → Bytes) (f : Blk → Blk) :
    (spl keyOk key1 g f).enc key1 = onBytes f := by
  funext s
  exact if_pos rfl

private theorem split_enc2 (keyOk : Bytes → Bool) (key1 key2 : Bytes) (hne : key1 ≠ key2) (g : Bytes → Bytes → Bytes)
    (f : Blk → Blk) : (spl keyOk key1 g f).enc key2 = g key2 := by
  funext s
  exact if_neg (Ne.symm hne)

/-- The number of blocks that `s2v` works on. -/
private theorem answer_reads1 (keyOk : Bytes → Bool) (key1 key2 : Bytes) (hl : key1.length = key2.length)
    (hne : key1 ≠ key2) (hk : keyOk key1 = true) (g : Bytes → Bytes → Bytes)
    (hg : ∀ k s, s.length = 16 → (g k s).length = 16) {P : (Blk → Blk) → Prop} {L Z : Blk}
    (hP : ∀ f, P f → f 0 = L ∧ cmacBlk f zeroBlock = Z) (s : SivQuery) :
    Reads P s.blocks fun f => sivAnswer (spl keyOk key1 g f) (key1 ++ key2) s := by
  have : Nonempty (Py Bytes) := ⟨.ok []⟩
  have hr (ads : List Bytes) (pt : Bytes) := s2v_reads (lib := fun f => spl keyOk key1 g f)
    (split_lawful keyOk key1 g hg) (fun _ => hk) (split_enc1 keyOk key1 g) hP (ads, pt)
  have hst (f f' : Blk → Blk) := sivStream_congr (spl keyOk key1 g f) (spl keyOk key1 g f') key2
    ((split_enc2 keyOk key1 key2 hne g f).trans (split_enc2 keyOk key1 key2 hne g f').symm)
  cases s with
  | enc pt ads =>
    have := hr ads pt
    rw [boxBlocks_eq] at this
    refine this.of fun f f' _ _ e => ?_
    simp only at e
    rw [sivAnswer, sivAnswer, sivEncrypt_eq _ key1 key2 hl hne, sivEncrypt_eq _ key1 key2 hl hne, e]
    generalize Model.s2v (spl keyOk key1 g f') key1 (ads ++ [pt]) = s
    cases s with
    | error er => rfl
    | ok iv =>
      rw [sivSealed, sivSealed, hst f f']
      rfl
  | dec c ads =>
    have ho (f f' : Blk → Blk) : sivOpened (spl keyOk key1 g f) key2 c = sivOpened (spl keyOk key1 g f') key2 c := by
      rw [sivOpened, sivOpened, hst f f']
      rfl
    cases hc : sivOpened (spl keyOk key1 g 0) key2 c with
    | error er =>
      refine ⟨.done (.error er), Nat.zero_le _, fun f _ => ?_⟩
      beta_reduce
      rw [sivAnswer, sivDecrypt_eq _ key1 key2 hl hne, ho f 0, hc]
      rfl
    | ok pt =>
      have := hr ads pt
      rw [boxBlocks_eq] at this
      have hlen : cmacBlocks pt = cmacBlocks (c.drop 16) := by rw [cmacBlocks, cmacBlocks, opened_length hc]
      rw [SivQuery.blocks, ← hlen]
      refine this.of fun f f' _ _ e => ?_
      rw [sivAnswer, sivAnswer, sivDecrypt_eq _ key1 key2 hl hne, sivDecrypt_eq _ key1 key2 hl hne, ho f 0, ho f' 0, hc]
      simp only
      rw [e]

/-- What is found out depends on few values of the function under the first half of the key. -/
private theorem reads1 (keyOk : Bytes → Bool) (key1 key2 : Bytes) (hl : key1.length = key2.length)
    (hne : key1 ≠ key2) (hk : keyOk key1 = true) (g : Bytes → Bytes → Bytes)
    (hg : ∀ k s, s.length = 16 → (g k s).length = 16) {X : Type} [Nonempty X] (D : Asker SivQuery (Py Bytes) R) (c : Nat)
    (hc : D.CostLe SivQuery.blocks (fun _ => 0) c) (E : (Blk → Blk) → X)
    (hE : ∀ f f' : Blk → Blk, f 0 = f' 0 →
      (D.asked (sivAnswer (spl keyOk key1 g f) (key1 ++ key2))).map
        (fun v => (v, sivAnswer (spl keyOk key1 g f) (key1 ++ key2) v)) =
      (D.asked (sivAnswer (spl keyOk key1 g f') (key1 ++ key2))).map
        (fun v => (v, sivAnswer (spl keyOk key1 g f') (key1 ++ key2) v)) → E f = E f') :
    Reads (fun _ => True) (c + 2) E := by
  have := (Reads.value (fun _ : Blk → Blk => True) 0).after (E' := E) (q' := 1 + c) fun L => by
    have h2 := cmacBlk_reads (P := fun f => True ∧ f 0 = L) (fun f hf => hf.2) zeroBlock
    rw [blocks_zeroBlock] at h2
    exact h2.after fun Z => (Reads.asked (S := fun _ => True) (fun v _ => answer_reads1 keyOk key1 key2 hl hne hk g hg
      (fun f hf => ⟨hf.1.2, hf.2⟩) v) D hc (within_true D)).of fun f f' h h' e => hE f f' (h.1.2.trans h'.1.2.symm) e
  exact this.mono (by omega)

end

/-- C166: at most `3 * (c * (c + 1) / 2 + 1) + c * (c + 1) / 2` in `2^128` of all permutations in place of AES allow to give a
message that was not asked for together with its tag, if all messages together have at most `c` blocks. -/
theorem C166_cmac_forgery (keyOk : Bytes → Bool) (key : Bytes) (hk : keyOk key = true)
    (D : Asker Bytes (Py Bytes) (Bytes × Bytes)) (c : Nat) (hc : D.CostLe cmacBlocks (fun r => cmacBlocks r.1) c) :
    2 ^ 128 * Nat.card {π : Equiv.Perm (BitVec 128) //
        Forges (aesCmac (tableLib keyOk π) (tableLib keyOk π) key) D} ≤
      (3 * ((c + 1).choose 2 + 1) + (c + 1).choose 2) * Nat.card (Equiv.Perm (BitVec 128)) := by
  have hr : Reads (fun _ => True) (1 + c) fun f : Blk → Blk => Forges (aesCmac (tableLib keyOk f) (tableLib keyOk f) key) D :=
    (Reads.value (fun _ : Blk → Blk => True) 0).after fun L => (Reads.asked (S := fun _ => True)
      (fun M _ => cmac_reads keyOk key hk L M) _ (andAsk_cost Prod.fst cmacBlocks D c hc) (within_true _)).of
      fun f f' _ _ e => forges_of_asked D e
  have h := hr.switch
  rw [card_blk, add_comm 1 c] at h
  have h2 := C161_forgery keyOk key hk D c hc
  have := finish pos_funs h (by
    rw [← Nat.card_eq_fintype_card]
    exact h2)
  rw [← Nat.card_eq_fintype_card] at this
  exact this
/-- A strategy with two blocks: the tag of one octet is given for another. -/
example : (Asker.ask [1] fun t => .done ([2], t.toOption.getD []) : Asker Bytes (Py Bytes) (Bytes × Bytes)).CostLe
    cmacBlocks (fun r => cmacBlocks r.1) 2 := ⟨by decide, fun _ => show cmacBlocks [2] ≤ 2 - cmacBlocks [1] by decide⟩

/-- C166: as long as no exception is raised, whatever can be found out about `aes_cmac` with a permutation in place of AES by
asking for tags of at most `c` blocks is found out as often about a random function on the messages, up to `c * (c + 1)` in
`2^128`. -/
theorem C166_cmac_random_function (keyOk : Bytes → Bool) (key : Bytes) (hk : keyOk key = true) {R : Type}
    (D : Asker Bytes (Py Bytes) R) (accept : R → Prop) (c : Nat) (hc : D.CostLe cmacBlocks (fun _ => 0) c)
    (S : Finset Bytes) (hS : D.Within (· ∈ S)) :
    2 ^ 128 * Nat.card {π : Equiv.Perm (BitVec 128) // Quiet (tableLib keyOk π) key ∧
          accept (D.run (aesCmac (tableLib keyOk π) (tableLib keyOk π) key))} * Nat.card (S → BitVec 128) ≤
      2 ^ 128 * Nat.card {r : S → BitVec 128 //
          accept (D.run fun M => if h : M ∈ S then .ok (ofBits (r ⟨M, h⟩)) else .error .value)} *
        Nat.card (Equiv.Perm (BitVec 128)) +
      2 * (c + 1).choose 2 * Nat.card (Equiv.Perm (BitVec 128)) * Nat.card (S → BitVec 128) := by
  have hr : Reads (fun _ => True) (1 + c) fun f : Blk → Blk => Quiet (tableLib keyOk f) key ∧
      accept (D.run (aesCmac (tableLib keyOk f) (tableLib keyOk f) key)) :=
    (Reads.value (fun _ : Blk → Blk => True) 0).after fun L => (Reads.asked (S := fun _ => True)
      (fun M _ => cmac_reads keyOk key hk L M) D hc (within_true _)).of
      fun f f' h h' e => by
        rw [run_of_asked D e, Quiet, Quiet, quiet_of_zero (lib := fun f => tableLib keyOk f)
          (fun f => tableLib_lawful keyOk f) (fun f => hk) (table_enc keyOk key) (h.2.trans h'.2.symm)]
  have h := hr.switch
  rw [card_blk, add_comm 1 c] at h
  have h2 := C161_random_function keyOk key hk D accept c hc S hS
  rw [← Nat.card_eq_fintype_card, ← Nat.card_eq_fintype_card] at h
  have hF : 0 < Nat.card (Blk → Blk) := by
    rw [Nat.card_eq_fintype_card]
    exact pos_funs
  rw [two_mul]
  exact finish2 hF h h2
/-- A strategy with two blocks: are the tags of two messages of one octet the same? -/
example : (Asker.ask [1] fun t => .ask [2] fun t' => .done (t = t') : Asker Bytes (Py Bytes) Prop).CostLe
    cmacBlocks (fun _ => 0) 2 ∧
    (Asker.ask [1] fun t => .ask [2] fun t' => .done (t = t') : Asker Bytes (Py Bytes) Prop).Within
      (· ∈ ({[1], [2]} : Finset Bytes)) :=
  ⟨⟨by decide, fun _ => ⟨by decide, fun _ => Nat.zero_le _⟩⟩, by decide, fun _ => ⟨by decide, fun _ => trivial⟩⟩

/-- C166: at most `2 * ((c + 1)^2 + q) + (c + 1) * (c + 2) / 2` in `2^128` of all permutations in place of AES under the first
half of the key let `siv_decrypt` accept a ciphertext that `siv_encrypt` did not return before for the same headers. -/
theorem C166_siv_forgery {R : Type} (keyOk : Bytes → Bool) (key1 key2 : Bytes) (hl : key1.length = key2.length)
    (hne : key1 ≠ key2) (hk : keyOk key1 = true) (g : Bytes → Bytes → Bytes)
    (hg : ∀ k s, s.length = 16 → (g k s).length = 16) (D : Asker SivQuery (Py Bytes) R) (c q : Nat)
    (hc : D.CostLe SivQuery.blocks (fun _ => 0) c) (hq : D.CostLe SivQuery.tries (fun _ => 0) q)
    (hn : D.Within fun s => s.ads.length ≤ 126) :
    2 ^ 128 * Nat.card {π : Equiv.Perm (BitVec 128) //
        Fakes (sivAnswer (splitLib keyOk key1 π g) (key1 ++ key2)) D} ≤
      (2 * ((c + 1) ^ 2 + q) + (c + 2).choose 2) * Nat.card (Equiv.Perm (BitVec 128)) := by
  have h := (reads1 keyOk key1 key2 hl hne hk g hg D c hc
    (fun f => Fakes (sivAnswer (spl keyOk key1 g f) (key1 ++ key2)) D) fun f f' _ e => fakes_of_asked D e).switch
  rw [card_blk] at h
  have h2 := C163_forgery keyOk key1 key2 hl hne hk g hg D c q hc hq hn
  have := finish pos_funs h (by
    rw [← Nat.card_eq_fintype_card]
    exact h2)
  rw [← Nat.card_eq_fintype_card] at this
  exact this
/-- A strategy with 4 blocks and one decryption: the answer for two octets with one header is changed and decrypted. -/
example : (Asker.ask (.enc [1, 2] [[3]]) fun t => .ask (.dec ((t.toOption.getD []).reverse.take 18) [[3]])
      fun t' => .done t'.toOption.isSome : Asker SivQuery (Py Bytes) Bool).CostLe SivQuery.blocks (fun _ => 0) 4 ∧
    (Asker.ask (.enc [1, 2] [[3]]) fun t => .ask (.dec ((t.toOption.getD []).reverse.take 18) [[3]])
      fun t' => .done t'.toOption.isSome : Asker SivQuery (Py Bytes) Bool).CostLe SivQuery.tries (fun _ => 0) 1 ∧
    (Asker.ask (.enc [1, 2] [[3]]) fun t => .ask (.dec ((t.toOption.getD []).reverse.take 18) [[3]])
      fun t' => .done t'.toOption.isSome : Asker SivQuery (Py Bytes) Bool).Within fun s => s.ads.length ≤ 126 := by
  have h1 : SivQuery.blocks (.enc [1, 2] [[3]]) = 2 := by decide
  have h2 (t : Bytes) : SivQuery.blocks (.dec (t.take 18) [[3]]) = 2 := by
    rw [SivQuery.blocks, cmacBlocks.eq_def (List.drop _ _), List.length_drop, List.length_take]
    have : (List.map cmacBlocks [[3]]).sum = 1 := by decide
    omega
  refine ⟨⟨by rw [h1]; decide, fun t => ⟨by rw [h1, h2], fun t' => Nat.zero_le _⟩⟩, ⟨by decide, fun t =>
    ⟨le_rfl, fun t' => Nat.zero_le _⟩⟩, by decide, fun t => ⟨by change 1 ≤ 126; decide, fun t' => trivial⟩⟩

section
variable {R : Type}

/-- Two permutations in place of two functions. -/
private theorem switch_two (E : (Blk → Blk) × (Blk → Blk) → Prop) (q1 q2 : Nat)
    (h1 : ∀ f2, Reads (fun _ => True) q1 fun f1 => E (f1, f2)) (h2 : ∀ f1, Reads (fun _ => True) q2 fun f2 => E (f1, f2)) :
    2 ^ 128 * cnt (fun π : Equiv.Perm Blk × Equiv.Perm Blk => E (π.1, π.2)) * Nat.card ((Blk → Blk) × (Blk → Blk)) ≤
      2 ^ 128 * cnt E * Nat.card (Equiv.Perm Blk × Equiv.Perm Blk) +
      (q1.choose 2 + q2.choose 2) * Nat.card ((Blk → Blk) × (Blk → Blk)) * Nat.card (Equiv.Perm Blk × Equiv.Perm Blk) := by
  have swap {X Y : Type} [Fintype X] [Fintype Y] (Q : X × Y → Prop) : cnt Q = ∑ x, cnt fun y => Q (x, y) := by
    rw [← cnt_equiv (Equiv.prodComm Y X) Q, cnt_prod]
    rfl
  have s1 : 2 ^ 128 * cnt (fun π : Equiv.Perm Blk × Equiv.Perm Blk => E (π.1, π.2)) * Fintype.card (Blk → Blk) ≤
      2 ^ 128 * cnt (fun x : (Blk → Blk) × Equiv.Perm Blk => E (x.1, x.2)) * Fintype.card (Equiv.Perm Blk) +
      Fintype.card (Equiv.Perm Blk) * (q1.choose 2 * Fintype.card (Blk → Blk) * Fintype.card (Equiv.Perm Blk)) := by
    rw [cnt_prod, cnt_prod, Finset.mul_sum, Finset.sum_mul, Finset.mul_sum, Finset.sum_mul]
    have := Finset.sum_le_sum fun (π : Equiv.Perm Blk) (_ : π ∈ Finset.univ) => (h1 π).switch
    rw [Finset.sum_add_distrib, Finset.sum_const, Finset.card_univ, smul_eq_mul, card_blk] at this
    exact this
  have s2 : 2 ^ 128 * cnt (fun x : (Blk → Blk) × Equiv.Perm Blk => E (x.1, x.2)) * Fintype.card (Blk → Blk) ≤
      2 ^ 128 * cnt E * Fintype.card (Equiv.Perm Blk) +
      Fintype.card (Blk → Blk) * (q2.choose 2 * Fintype.card (Blk → Blk) * Fintype.card (Equiv.Perm Blk)) := by
    rw [swap, swap E, Finset.mul_sum, Finset.sum_mul, Finset.mul_sum, Finset.sum_mul]
    have := Finset.sum_le_sum fun (f : Blk → Blk) (_ : f ∈ Finset.univ) => (h2 f).switch
    rw [Finset.sum_add_distrib, Finset.sum_const, Finset.card_univ, smul_eq_mul, card_blk] at this
    exact this
  rw [Nat.card_prod, Nat.card_prod, Nat.card_eq_fintype_card, Nat.card_eq_fintype_card]
  generalize Fintype.card (Blk → Blk) = F at s1 s2 ⊢
  generalize Fintype.card (Equiv.Perm Blk) = p at s1 s2 ⊢
  generalize cnt (fun x : (Blk → Blk) × Equiv.Perm Blk => E (x.1, x.2)) = B at s1 s2
  generalize cnt (fun π : Equiv.Perm Blk × Equiv.Perm Blk => E (π.1, π.2)) = A at s1 ⊢
  generalize cnt E = C at s2 ⊢
  generalize 2 ^ 128 = N at s1 s2 ⊢
  have t1 := Nat.mul_le_mul_right F s1
  have t2 := Nat.mul_le_mul_right p s2
  calc N * A * (F * F) = N * A * F * F := by ring
    _ ≤ _ := t1
    _ = N * B * F * p + q1.choose 2 * (F * F) * (p * p) := by ring
    _ ≤ _ := Nat.add_le_add_right t2 _
    _ = _ := by ring

/-- The number of blocks of the key stream. -/
private theorem answer_reads2 (keyOk : Bytes → Bool) (key1 key2 : Bytes) (hl : key1.length = key2.length)
    (hne : key1 ≠ key2) (hk : keyOk key1 = true) (f1 : Blk → Blk) {P : (Blk → Blk) → Prop} (s : SivQuery) :
    Reads P s.blocks fun f => sivAnswer (two keyOk key1 (f1, f)) (key1 ++ key2) s := by
  have : Nonempty (Py Bytes) := ⟨.ok []⟩
  have enc2 (f : Blk → Blk) : (two keyOk key1 (f1, f)).enc key2 = onBytes f :=
    split_enc2 keyOk key1 key2 hne (fun _ => onBytes f) f1
  have lawful (f : Blk → Blk) : LawfulCipher (two keyOk key1 (f1, f)) :=
    split_lawful keyOk key1 (fun _ => onBytes f) (fun _ _ _ => length_ofBits _) f1
  have hs (f f' : Blk → Blk) (ads : List Bytes) (pt : Bytes) : Model.s2v (two keyOk key1 (f1, f)) key1 (ads ++ [pt]) =
      Model.s2v (two keyOk key1 (f1, f')) key1 (ads ++ [pt]) := by
    have (f : Blk → Blk) := s2v_err (two keyOk key1 (f1, f)) key1 (subErr (onBytes f1)) (cmacBlk f1) (fun M => by
      rw [cmac_err _ (lawful f) key1 M hk]
      have e : (two keyOk key1 (f1, f)).enc key1 = onBytes f1 :=
        split_enc1 keyOk key1 (fun _ => onBytes f) f1
      rw [e, cmac_place]
      rfl) ads pt
    rw [this f, this f']
  have hstr (iv : Bytes) (n : Nat) := stream_reads (P := P) (lib := fun f => two keyOk key1 (f1, f)) enc2 iv 0 n []
  cases s with
  | enc pt ads =>
    cases hc : Model.s2v (two keyOk key1 (f1, f1)) key1 (ads ++ [pt]) with
    | error er =>
      refine ⟨.done (.error er), Nat.zero_le _, fun f _ => ?_⟩
      beta_reduce
      rw [sivAnswer, sivEncrypt_eq _ key1 key2 hl hne, hs f f1, hc]
      rfl
    | ok iv =>
      refine ((hstr iv ((pt.length + 16 - 1) / 16)).of fun f f' _ _ e => ?_).mono ?_
      · rw [sivAnswer, sivAnswer, sivEncrypt_eq _ key1 key2 hl hne, sivEncrypt_eq _ key1 key2 hl hne, hs f f1, hs f' f1, hc,
          sivSealed, sivSealed, e]
        rfl
      · rw [SivQuery.blocks, cmacBlocks.eq_def pt]
        omega
  | dec c ads =>
    refine ((hstr (c.take 16) (((c.drop 16).length + 16 - 1) / 16)).of fun f f' _ _ e => ?_).mono ?_
    · have ho : sivOpened (two keyOk key1 (f1, f)) key2 c = sivOpened (two keyOk key1 (f1, f')) key2 c := by
        rw [sivOpened, sivOpened, e]
        rfl
      rw [sivAnswer, sivAnswer, sivDecrypt_eq _ key1 key2 hl hne, sivDecrypt_eq _ key1 key2 hl hne, ho]
      simp only [hs f f']
    · rw [SivQuery.blocks, cmacBlocks.eq_def (c.drop 16)]
      omega

/-- The bound for permutations from the one for functions. -/
private theorem by_switching (keyOk : Bytes → Bool) (key1 key2 : Bytes) (hl : key1.length = key2.length)
    (hne : key1 ≠ key2) (hk : keyOk key1 = true) (D : Asker SivQuery (Py Bytes) R) (accept : R → Prop) (c : Nat)
    (hc : D.CostLe SivQuery.blocks (fun _ => 0) c) {z b s : Nat}
    (h : 2 ^ 128 * cnt (fun f : (Blk → Blk) × (Blk → Blk) => Quiet (two keyOk key1 f) key1 ∧
        accept (D.run (sivAnswer (two keyOk key1 f) (key1 ++ key2)))) * s ≤
      2 ^ 128 * z * Nat.card ((Blk → Blk) × (Blk → Blk)) + b * Nat.card ((Blk → Blk) × (Blk → Blk)) * s) :
    2 ^ 128 * cnt (fun π : Equiv.Perm Blk × Equiv.Perm Blk => Quiet (two keyOk key1 (π.1, π.2)) key1 ∧
        accept (D.run (sivAnswer (two keyOk key1 (π.1, π.2)) (key1 ++ key2)))) * s ≤
      2 ^ 128 * z * Nat.card (Equiv.Perm Blk × Equiv.Perm Blk) +
      (b + (c + 1) ^ 2) * Nat.card (Equiv.Perm Blk × Equiv.Perm Blk) * s := by
  have hsw := switch_two (fun f => Quiet (two keyOk key1 f) key1 ∧
    accept (D.run (sivAnswer (two keyOk key1 f) (key1 ++ key2)))) (c + 2) c
    (fun f2 => reads1 keyOk key1 key2 hl hne hk (fun _ => onBytes f2) (fun _ _ _ => length_ofBits _) D c hc _ fun f f' h e => by
      have e2 := quiet_of_zero (lib := fun f => two keyOk key1 (f, f2))
        (split_lawful keyOk key1 (fun _ => onBytes f2) fun _ _ _ => length_ofBits _) (fun _ => hk)
        (split_enc1 keyOk key1 fun _ => onBytes f2) h
      have e1 : D.run (sivAnswer (two keyOk key1 (f, f2)) (key1 ++ key2)) =
        D.run (sivAnswer (two keyOk key1 (f', f2)) (key1 ++ key2)) := run_of_asked D e
      rw [e1, Quiet, Quiet]
      exact congrArg (· ∧ _) e2)
    (fun f1 => (Reads.asked (S := fun _ => True) (fun v _ => answer_reads2 keyOk key1 key2 hl hne hk f1 v) D hc
      (within_true D)).of fun f f' _ _ e => by
        have e2 : Quiet (two keyOk key1 (f1, f)) key1 = Quiet (two keyOk key1 (f1, f')) key1 := by
          have (f : Blk → Blk) (M : Bytes) : aesCmac (two keyOk key1 (f1, f)) (two keyOk key1 (f1, f)) key1 M =
              if cmacErr (subErr (onBytes f1)) M then .error .assertion else .ok (ofBlk (cmacBlk f1 M)) :=
            lib_cmac (lib := fun f1 => two keyOk key1 (f1, f))
              (split_lawful keyOk key1 (fun _ => onBytes f) fun _ _ _ => length_ofBits _) (fun _ => hk)
              (split_enc1 keyOk key1 fun _ => onBytes f) f1 M
          rw [Quiet, Quiet]
          simp only [this]
        rw [run_of_asked D e, e2])
  have hF : 0 < Nat.card ((Blk → Blk) × (Blk → Blk)) := by
    rw [Nat.card_eq_fintype_card]
    exact Fintype.card_pos_iff.mpr ⟨(fun _ => 0, fun _ => 0)⟩
  have := finish2 hF hsw h
  refine this.trans (Nat.add_le_add_left (Nat.mul_le_mul_right _ (Nat.mul_le_mul_right _ (Nat.add_le_add_left ?_ _))) _)
  have h3 : (c + 2).choose 2 * 2 = (c + 2) * (c + 1) := by
    rw [Nat.choose_two_right, Nat.div_mul_cancel]
    · rfl
    · exact (Nat.even_mul_pred_self _).two_dvd
  have h4 : c.choose 2 * 2 ≤ c * c := by
    rw [Nat.choose_two_right, Nat.div_mul_cancel (Nat.even_mul_pred_self _).two_dvd]
    exact Nat.mul_le_mul_left _ (Nat.sub_le _ _)
  nlinarith

/-- The same strategy with encryptions as questions. -/
private def asEnc : Asker (List Bytes × Bytes) (Py Bytes) R → Asker SivQuery (Py Bytes) R
  | .done r => .done r
  | .ask v next => .ask (.enc v.2 v.1) fun a => asEnc (next a)

private theorem asEnc_run (g : SivQuery → Py Bytes) (D : Asker (List Bytes × Bytes) (Py Bytes) R) :
    (asEnc D).run g = D.run fun v => g (.enc v.2 v.1) := by
  induction D with
  | done r => rfl
  | ask v next ih => exact ih _

private theorem asEnc_cost (D : Asker (List Bytes × Bytes) (Py Bytes) R) (c : Nat) (hc : D.CostLe boxCost (fun _ => 0) c) :
    (asEnc D).CostLe SivQuery.blocks (fun _ => 0) c := by
  induction D generalizing c with
  | done r => exact hc
  | ask v next ih => exact ⟨hc.1, fun a => ih a _ (hc.2 a)⟩

end

/-- C166: whatever encryptions are asked for with headers and plaintexts of at most `c` blocks, what is concluded about
`siv_encrypt` with two permutations in place of AES is concluded as often about random strings, up to `4 * (c + 1)^2` in
`2^128`, as long as no exception is raised. -/
theorem C166_privacy {R : Type} (keyOk : Bytes → Bool) (key1 key2 : Bytes) (hl : key1.length = key2.length)
    (hne : key1 ≠ key2) (hk1 : keyOk key1 = true) (hk2 : keyOk key2 = true)
    (D : Asker (List Bytes × Bytes) (Py Bytes) R) (accept : R → Prop) (c : Nat) (hc : D.CostLe boxCost (fun _ => 0) c)
    (S : Finset (List Bytes × Bytes)) (hn : ∀ v ∈ S, v.1.length ≤ 126 ∧ v.2.length ≤ 2 ^ 66) (hS : D.Within (· ∈ S)) :
    2 ^ 128 * Nat.card {π : Equiv.Perm (BitVec 128) × Equiv.Perm (BitVec 128) //
        Quiet (twoTables keyOk key1 (π.1, π.2)) key1 ∧
          accept (D.run fun v => Model.sivEncrypt (twoTables keyOk key1 (π.1, π.2)) (key1 ++ key2) v.2 v.1)} *
        Nat.card (Strings S) ≤
      2 ^ 128 * Nat.card {r : Strings S //
          accept (D.run fun v => if h : v ∈ S then .ok (r ⟨v, h⟩).1 else .error .value)} *
        Nat.card (Equiv.Perm (BitVec 128) × Equiv.Perm (BitVec 128)) +
      4 * (c + 1) ^ 2 * Nat.card (Equiv.Perm (BitVec 128) × Equiv.Perm (BitVec 128)) * Nat.card (Strings S) := by
  have h := C165_privacy keyOk key1 key2 hl hne hk1 hk2 D accept c hc S hn hS
  have := by_switching keyOk key1 key2 hl hne hk1 (asEnc D) accept c (asEnc_cost D c hc) (s := Nat.card (Strings S)) (by
    simp only [asEnc_run]
    exact h)
  simp only [asEnc_run] at this
  rw [show 4 * (c + 1) ^ 2 = 3 * (c + 1) ^ 2 + (c + 1) ^ 2 by ring]
  exact this
/-- Many permutations raise no exception: all those that map zero to `2^124`. -/
example (keyOk : Bytes → Bool) (key1 : Bytes) (hk1 : keyOk key1 = true)
    (π : Equiv.Perm (BitVec 128) × Equiv.Perm (BitVec 128)) (h : π.1 0 = 2 ^ 124) :
    Quiet (twoTables keyOk key1 (π.1, π.2)) key1 := by
  intro M
  have h1 := lib_cmac (lib := spl keyOk key1 fun _ => onBytes ⇑π.2)
    (split_lawful keyOk key1 (fun _ => onBytes ⇑π.2) fun _ _ _ => length_ofBits _) (fun _ => hk1)
    (split_enc1 keyOk key1 fun _ => onBytes ⇑π.2) ⇑π.1 M
  have h2 : subErr (onBytes ⇑π.1) = subErr fun _ => ofBits (2 ^ 124) :=
    subErr_of_zero (f := ⇑π.1) (f' := fun _ => (2 ^ 124 : BitVec 128)) h
  rw [h2, show subErr (fun _ => ofBits (2 ^ 124)) = (false, false) by decide +kernel,
    if_neg (by rw [cmacErr]; split <;> decide)] at h1
  exact ⟨_, h1⟩
/-- There are such permutations, and the questions of C165 are among those allowed. -/
example : (Equiv.swap (0 : BitVec 128) (2 ^ 124)) 0 = 2 ^ 124 ∧
    (Asker.ask ([[7]], [1]) fun t => .ask ([[7]], [2]) fun t' =>
      .done ((t.toOption.getD []).drop 16 == (t'.toOption.getD []).drop 16) :
      Asker (List Bytes × Bytes) (Py Bytes) Bool).CostLe boxCost (fun _ => 0) 4 ∧
    (Asker.ask ([[7]], [1]) fun t => .ask ([[7]], [2]) fun t' =>
      .done ((t.toOption.getD []).drop 16 == (t'.toOption.getD []).drop 16) :
      Asker (List Bytes × Bytes) (Py Bytes) Bool).Within
        (· ∈ ({([[7]], [1]), ([[7]], [2])} : Finset (List Bytes × Bytes))) :=
  ⟨Equiv.swap_apply_left _ _, ⟨by decide, fun _ => ⟨by decide, fun _ => Nat.zero_le _⟩⟩, by decide,
    fun _ => ⟨by decide, fun _ => trivial⟩⟩

/-- C166: decryptions can be answered without a key as well if two permutations take the place of AES, up to
`6 * (c + 1)^2 + 2 * q` in `2^128`. -/
theorem C166_decryption {R : Type} (keyOk : Bytes → Bool) (key1 key2 : Bytes) (hl : key1.length = key2.length)
    (hne : key1 ≠ key2) (hk1 : keyOk key1 = true) (hk2 : keyOk key2 = true)
    (D : Asker SivQuery (Py Bytes) R) (accept : R → Prop) (c q : Nat)
    (hc : D.CostLe SivQuery.blocks (fun _ => 0) c) (hq : D.CostLe SivQuery.tries (fun _ => 0) q)
    (S : Finset (List Bytes × Bytes)) (hn : ∀ v ∈ S, v.1.length ≤ 126 ∧ v.2.length ≤ 2 ^ 66)
    (hS : D.Within (SivQuery.Fits S)) :
    2 ^ 128 * Nat.card {π : Equiv.Perm (BitVec 128) × Equiv.Perm (BitVec 128) //
        Quiet (twoTables keyOk key1 (π.1, π.2)) key1 ∧
          accept (D.run (sivAnswer (twoTables keyOk key1 (π.1, π.2)) (key1 ++ key2)))} * Nat.card (Strings S) ≤
      2 ^ 128 * Nat.card {r : Strings S //
          accept ((keyless [] D).run fun v => if h : v ∈ S then .ok (r ⟨v, h⟩).1 else .error .value)} *
        Nat.card (Equiv.Perm (BitVec 128) × Equiv.Perm (BitVec 128)) +
      (6 * (c + 1) ^ 2 + 2 * q) * Nat.card (Equiv.Perm (BitVec 128) × Equiv.Perm (BitVec 128)) *
        Nat.card (Strings S) := by
  have h := C165_decryption keyOk key1 key2 hl hne hk1 hk2 D accept c q hc hq S hn hS
  have := by_switching keyOk key1 key2 hl hne hk1 D accept c hc h
  rw [show 6 * (c + 1) ^ 2 + 2 * q = 5 * (c + 1) ^ 2 + 2 * q + (c + 1) ^ 2 by ring]
  exact this
/-- A single decryption of an empty ciphertext meets the conditions with one block. -/
example : (Asker.ask (.dec [] []) fun t => .done t : Asker SivQuery (Py Bytes) (Py Bytes)).CostLe SivQuery.blocks (fun _ => 0) 1 ∧
    (Asker.ask (.dec [] []) fun t => .done t : Asker SivQuery (Py Bytes) (Py Bytes)).CostLe SivQuery.tries (fun _ => 0) 1 ∧
    (Asker.ask (.dec [] []) fun t => .done t : Asker SivQuery (Py Bytes) (Py Bytes)).Within (SivQuery.Fits {([[3]], [1, 2])}) :=
  ⟨⟨by decide, fun _ => Nat.zero_le _⟩, ⟨by decide, fun _ => Nat.zero_le _⟩, ⟨by decide, Nat.zero_le _⟩, fun _ => trivial⟩

/-- C166: exceptions are raised for at most one in 128 of all permutations. -/
theorem C166_exceptions (keyOk : Bytes → Bool) (key : Bytes) (hk : keyOk key = true) (g : Bytes → Bytes → Bytes)
    (hg : ∀ k s, s.length = 16 → (g k s).length = 16) :
    128 * Nat.card {π : Equiv.Perm (BitVec 128) // ¬ Quiet (splitLib keyOk key π g) key} ≤
      Nat.card (Equiv.Perm (BitVec 128)) := by
  have main : 128 * cnt (fun π : Equiv.Perm Blk => ¬ Quiet (spl keyOk key g π) key) ≤ Nat.card (Equiv.Perm Blk) := by
    have h1 : cnt (fun π : Equiv.Perm Blk => ¬ Quiet (spl keyOk key g π) key) ≤
        cnt (fun π : Equiv.Perm Blk => (show BitVec 128 from dblHom (π 0)).toNat < 2 ^ 120) +
        cnt (fun π : Equiv.Perm Blk => (show BitVec 128 from dblHom (dblHom (π 0))).toNat < 2 ^ 120) := by
      refine (cnt_mono ?_).trans (cnt_or _ _)
      intro π hπ
      by_contra hc
      refine hπ fun M => ?_
      rw [not_or] at hc
      rw [lib_cmac (lib := spl keyOk key g) (split_lawful keyOk key g hg) (fun _ => hk) (split_enc1 keyOk key g) π M,
        subErr_zero, if_neg]
      · exact ⟨_, rfl⟩
      · rw [cmacErr]
        split
        · exact fun h => hc.1 (of_decide_eq_true h)
        · exact fun h => hc.2 (of_decide_eq_true h)
    have small (e : Blk → Blk) (he : Function.Injective e) :
        cnt (fun b : Blk => (show BitVec 128 from e b).toNat < 2 ^ 120) ≤ 2 ^ 120 :=
      (cnt_inj e he fun b : Blk => (show BitVec 128 from b).toNat < 2 ^ 120).trans small_blk
    have h2 := perms_zero fun b => (show BitVec 128 from dblHom b).toNat < 2 ^ 120
    have h3 := perms_zero fun b => (show BitVec 128 from dblHom (dblHom b)).toNat < 2 ^ 120
    have h4 := small (fun b => dblHom b) fun a b h => dblHom_inj h
    have h5 := small (fun b => dblHom (dblHom b)) fun a b h => dblHom_inj (dblHom_inj h)
    have h6 := Nat.mul_le_mul_right (Fintype.card (Equiv.Perm Blk)) h4
    have h7 := Nat.mul_le_mul_right (Fintype.card (Equiv.Perm Blk)) h5
    rw [← h2] at h6
    rw [← h3] at h7
    rw [card_blk] at h6 h7
    rw [Nat.card_eq_fintype_card]
    revert h1 h6 h7
    generalize cnt (fun π : Equiv.Perm Blk => ¬ Quiet (spl keyOk key g π) key) = a
    generalize cnt (fun π : Equiv.Perm Blk => (show BitVec 128 from dblHom (π 0)).toNat < 2 ^ 120) = b
    generalize cnt (fun π : Equiv.Perm Blk => (show BitVec 128 from dblHom (dblHom (π 0))).toNat < 2 ^ 120) = d
    generalize Fintype.card (Equiv.Perm Blk) = F
    intro h1 h6 h7
    omega
  exact main
/-- The identity is one of them. -/
example : ¬ Quiet (splitLib (fun _ => true) [1] (Equiv.refl (BitVec 128)) fun _ s => s) [1] := by
  intro h
  obtain ⟨t, ht⟩ := h []
  have : (aesCmac (splitLib (fun _ => true) [1] (Equiv.refl (BitVec 128)) fun _ s => s)
    (splitLib (fun _ => true) [1] (Equiv.refl (BitVec 128)) fun _ s => s) [1] []).toBool = false := by decide +kernel
  rw [ht] at this
  cases this

end Cryptopy
