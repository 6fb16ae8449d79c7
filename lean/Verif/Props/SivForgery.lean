import Verif.Lemmas.SivPrf
import Verif.Props.CmacForgery

/-!
C163: ciphertexts of `siv_encrypt` can not be made up if the cipher under the first half of the key is a random function.
-/

namespace Cryptopy
open Model (CipherLib aesCmac sivDecrypt)
open Spec Prf

/-- A cipher module that is a table of 128-bit blocks under one key and anything under the others. -/
def splitLib (keyOk : Bytes → Bool) (key1 : Bytes) (f : BitVec 128 → BitVec 128) (g : Bytes → Bytes → Bytes) :
    CipherLib where
  keyOk := keyOk
  blockSize := 16
  enc k s := if k = key1 then ofBits (f (toBits s)) else g k s

/-- What can be asked for: the encryption of a plaintext or the decryption of a ciphertext, with headers. -/
inductive SivQuery where
  | enc (pt : Bytes) (ads : List Bytes)
  | dec (c : Bytes) (ads : List Bytes)

/-- The headers. -/
def SivQuery.ads : SivQuery → List Bytes
  | .enc _ ads => ads
  | .dec _ ads => ads

/-- The number of blocks of the headers and the plaintext, with the empty message as one block. -/
def SivQuery.blocks : SivQuery → Nat
  | .enc pt ads => (ads.map cmacBlocks).sum + cmacBlocks pt
  | .dec c ads => (ads.map cmacBlocks).sum + cmacBlocks (c.drop 16)

/-- One for a decryption. -/
def SivQuery.tries : SivQuery → Nat
  | .enc _ _ => 0
  | .dec _ _ => 1

/-- The answers of `siv_encrypt` and `siv_decrypt`. -/
def sivAnswer (aes : CipherLib) (key : Bytes) : SivQuery → Py Bytes
  | .enc pt ads => Model.sivEncrypt aes key pt ads
  | .dec c ads => sivDecrypt aes key c ads

/-- At some time a ciphertext is accepted that was not the answer to an encryption with these headers before. -/
def Fakes {R : Type} (g : SivQuery → Py Bytes) (D : Asker SivQuery (Py Bytes) R) : Prop :=
  ∃ before c ads after, D.asked g = before ++ .dec c ads :: after ∧ (∃ pt, g (.dec c ads) = .ok pt) ∧
    ∀ pt, .enc pt ads ∈ before → g (.enc pt ads) ≠ .ok c

section
variable {R : Type}

/-- The part of `siv_encrypt` after `s2v`. -/
def sivSealed (aes : CipherLib) (key2 pt : Bytes) (s : Py Bytes) : Py Bytes :=
  match s with
  | .error e => .error e
  | .ok iv =>
    if aes.keyOk key2 then
      match Model.sivStream aes key2 iv 0 ((pt.length + 16 - 1) / 16) [] with
      | .error e => .error e
      | .ok x =>
        match Model.xor pt (x.take pt.length) with
        | .error e => .error e
        | .ok ct => .ok (iv ++ ct)
    else .error .value

/-- The part of `siv_decrypt` before `s2v`. -/
def sivOpened (aes : CipherLib) (key2 c : Bytes) : Py Bytes :=
  if aes.keyOk key2 then
    match Model.sivStream aes key2 (c.take 16) 0 (((c.drop 16).length + 16 - 1) / 16) [] with
    | .error e => .error e
    | .ok x => Model.xor (c.drop 16) (x.take (c.drop 16).length)
  else .error .value

/-- The part of `siv_decrypt` after `s2v`. -/
def sivChecked (c pt : Bytes) (s : Py Bytes) : Py Bytes :=
  match s with
  | .error e => .error e
  | .ok t => if t = c.take 16 then .ok pt else .error .stringRaise

private theorem opened_length {aes : CipherLib} {key2 c pt : Bytes} (h : sivOpened aes key2 c = .ok pt) :
    pt.length = (c.drop 16).length := by
  rw [sivOpened] at h
  split at h
  · split at h
    · cases h
    · rw [xor_eq] at h
      split at h
      · next he =>
        rw [Except.ok.injEq] at h
        rw [← h, length_xorBytes]
        omega
      · cases h
  · cases h

private theorem halves (key1 key2 : Bytes) (hl : key1.length = key2.length) (h0 : key1 ≠ key2) :
    (key1 ++ key2).take ((key1 ++ key2).length / 2) = key1 ∧
      Py.sliceFrom (key1 ++ key2) (-(((key1 ++ key2).length / 2 : Nat) : Int)) = key2 := by
  have hd : (key1 ++ key2).length / 2 = key1.length := by
    rw [List.length_append]
    omega
  have hpos : 0 < key1.length := by
    by_contra hc
    have e1 : key1 = [] := List.length_eq_zero_iff.mp (by omega)
    have e2 : key2 = [] := List.length_eq_zero_iff.mp (by omega)
    exact h0 (e1.trans e2.symm)
  rw [hd]
  refine ⟨List.take_left, ?_⟩
  simp only [Py.sliceFrom, Py.clampIdx]
  rw [if_pos (by omega)]
  have : (-(key1.length : Int) + ((key1 ++ key2).length : Int)).toNat = key1.length := by
    rw [List.length_append]
    omega
  first
    | rw [this, List.drop_left]
    | (rw [show ((((key1 ++ key2).length : Int) + -(key1.length : Int))).toNat = key1.length by
        rw [List.length_append]; omega, List.drop_left])

theorem sivEncrypt_eq (aes : CipherLib) (key1 key2 : Bytes) (hl : key1.length = key2.length) (h0 : key1 ≠ key2)
    (pt : Bytes) (ads : List Bytes) : Model.sivEncrypt aes (key1 ++ key2) pt ads =
      sivSealed aes key2 pt (Model.s2v aes key1 (ads ++ [pt])) := by
  obtain ⟨h1, h2⟩ := halves key1 key2 hl h0
  rw [Model.sivEncrypt]
  simp only [h1, h2]
  rfl

theorem sivDecrypt_eq (aes : CipherLib) (key1 key2 : Bytes) (hl : key1.length = key2.length) (h0 : key1 ≠ key2)
    (c : Bytes) (ads : List Bytes) : sivDecrypt aes (key1 ++ key2) c ads =
      match sivOpened aes key2 c with
      | .error e => .error e
      | .ok pt => sivChecked c pt (Model.s2v aes key1 (ads ++ [pt])) := by
  obtain ⟨h1, h2⟩ := halves key1 key2 hl h0
  rw [sivDecrypt]
  simp only [h1, h2]
  rw [sivOpened]
  by_cases hk : aes.keyOk key2 = true
  · rw [if_pos hk, if_pos hk]
    generalize Model.sivStream aes key2 (List.take 16 c) 0 (((c.drop 16).length + 16 - 1) / 16) [] = s
    cases s with
    | error e => rfl
    | ok x => rfl
  · rw [if_neg hk, if_neg hk]

theorem sivStream_congr (aes aes' : CipherLib) (key2 : Bytes) (h : aes.enc key2 = aes'.enc key2) (iv : Bytes)
    (i k : Nat) (x : Bytes) : Model.sivStream aes key2 iv i k x = Model.sivStream aes' key2 iv i k x := by
  induction k generalizing i x with
  | zero => rfl
  | succ k ih =>
    rw [Model.sivStream, Model.sivStream, h]
    split
    · rfl
    · exact ih _ _

/-- The module as a function on blocks with xor as addition. -/
private def blkSplit (keyOk : Bytes → Bool) (key1 : Bytes) (g : Bytes → Bytes → Bytes) (f : Blk → Blk) : CipherLib where
  keyOk := keyOk
  blockSize := 16
  enc k s := if k = key1 then onBytes f s else g k s

/-- A strategy against SIV as a strategy against S2V, if it is known what raises an exception. It ends when the first
ciphertext is accepted that was not seen. -/
private def simS (lib : CipherLib) (key2 : Bytes) (e : Bool × Bool) :
    List Box → Asker SivQuery (Py Bytes) R → Asker Box Blk Bool
  | _, .done _ => .done false
  | seen, .ask (.enc pt ads) next =>
    if boxErr e (ads, pt) then simS lib key2 e seen (next (sivSealed lib key2 pt (.error .assertion)))
    else .ask (ads, pt) fun b => simS lib key2 e ((ads, pt) :: seen) (next (sivSealed lib key2 pt (.ok (ofBlk b))))
  | seen, .ask (.dec c ads) next =>
    match sivOpened lib key2 c with
    | .error er => simS lib key2 e seen (next (.error er))
    | .ok pt =>
      if boxErr e (ads, pt) then simS lib key2 e seen (next (.error .assertion))
      else .ask (ads, pt) fun b =>
        if ofBlk b = c.take 16 then
          if (ads, pt) ∈ seen then simS lib key2 e seen (next (.ok pt)) else .done true
        else simS lib key2 e seen (next (.error .stringRaise))

private def FakesFrom (g : SivQuery → Py Bytes) (pre : List SivQuery) (D : Asker SivQuery (Py Bytes) R) : Prop :=
  ∃ before c ads after, D.asked g = before ++ .dec c ads :: after ∧ (∃ pt, g (.dec c ads) = .ok pt) ∧
    ∀ pt, .enc pt ads ∈ pre ++ before → g (.enc pt ads) ≠ .ok c

private theorem fakes_next {g : SivQuery → Py Bytes} {pre : List SivQuery} {q : SivQuery}
    {next : Py Bytes → Asker SivQuery (Py Bytes) R} (h : FakesFrom g pre (.ask q next)) :
    (∃ c ads, q = .dec c ads ∧ (∃ pt, g (.dec c ads) = .ok pt) ∧
      ∀ pt, .enc pt ads ∈ pre → g (.enc pt ads) ≠ .ok c) ∨ FakesFrom g (pre ++ [q]) (next (g q)) := by
  obtain ⟨before, c, ads, after, h1, h2, h3⟩ := h
  change q :: Asker.asked g (next (g q)) = _ at h1
  cases before with
  | nil =>
    rw [List.nil_append, List.cons.injEq] at h1
    exact Or.inl ⟨c, ads, h1.1, h2, by simpa using h3⟩
  | cons q' before =>
    rw [List.cons_append, List.cons.injEq] at h1
    refine Or.inr ⟨before, c, ads, after, h1.2, h2, fun pt hpt => h3 pt ?_⟩
    rw [← h1.1]
    simpa using hpt

private theorem simS_run (lib : CipherLib) (key2 : Bytes) (e : Bool × Bool) (g : SivQuery → Py Bytes) (h : Box → Blk)
    (he : ∀ pt ads, g (.enc pt ads) = sivSealed lib key2 pt
      (if boxErr e (ads, pt) then .error .assertion else .ok (ofBlk (h (ads, pt)))))
    (hd : ∀ c ads, g (.dec c ads) = match sivOpened lib key2 c with
      | .error e => .error e
      | .ok pt => sivChecked c pt (if boxErr e (ads, pt) then .error .assertion else .ok (ofBlk (h (ads, pt)))))
    (hi : ∀ c ads pt, g (.dec c ads) = .ok pt → g (.enc pt ads) = .ok c)
    (D : Asker SivQuery (Py Bytes) R) (pre : List SivQuery) (seen : List Box)
    (hs : ∀ v ∈ seen, .enc v.2 v.1 ∈ pre) (hD : FakesFrom g pre D) : (simS lib key2 e seen D).run h = true := by
  induction D generalizing pre seen with
  | done r =>
    obtain ⟨before, c, ads, after, h1, -⟩ := hD
    exact absurd h1 (by simp [Asker.asked])
  | ask q next ih =>
    have hs' : ∀ v ∈ seen, .enc v.2 v.1 ∈ pre ++ [q] := fun v hv => List.mem_append_left _ (hs v hv)
    rcases q with ⟨pt, ads⟩ | ⟨c, ads⟩
    · rcases fakes_next hD with ⟨c, ads, hq, -⟩ | hD
      · cases hq
      · rw [simS]
        have hg := he pt ads
        by_cases hb : boxErr e (ads, pt) = true
        · rw [if_pos hb] at hg ⊢
          rw [hg] at hD
          exact ih _ _ _ hs' hD
        · rw [if_neg hb] at hg ⊢
          rw [hg] at hD
          refine ih _ _ _ (fun v hv => ?_) hD
          rcases List.mem_cons.mp hv with rfl | hv
          · simp
          · exact hs' v hv
    · rw [simS]
      have hg := hd c ads
      cases ho : sivOpened lib key2 c with
      | error er =>
        rw [ho] at hg
        simp only at hg ⊢
        rcases fakes_next hD with ⟨c', ads', hq, ⟨pt, h2⟩, -⟩ | hD
        · rw [← hq, hg] at h2
          cases h2
        · rw [hg] at hD
          exact ih _ _ _ hs' hD
      | ok pt =>
        rw [ho] at hg
        simp only at hg ⊢
        by_cases hb : boxErr e (ads, pt) = true
        · rw [if_pos hb] at hg ⊢
          rcases fakes_next hD with ⟨c', ads', hq, ⟨pt, h2⟩, -⟩ | hD
          · rw [← hq, hg] at h2
            cases h2
          · rw [hg] at hD
            exact ih _ _ _ hs' hD
        · rw [if_neg hb] at hg ⊢
          rw [run_ask]
          by_cases ht : ofBlk (h (ads, pt)) = c.take 16
          · rw [sivChecked] at hg
            rw [if_pos ht] at hg ⊢
            by_cases hm : (ads, pt) ∈ seen
            · rw [if_pos hm]
              rcases fakes_next hD with ⟨c', ads', hq, h2, h3⟩ | hD
              · cases hq
                exact absurd (hi c ads pt hg) (h3 pt (hs _ hm))
              · rw [hg] at hD
                exact ih _ _ _ hs' hD
            · rw [if_neg hm]
              rfl
          · rw [sivChecked] at hg
            rw [if_neg ht] at hg ⊢
            rcases fakes_next hD with ⟨c', ads', hq, ⟨pt, h2⟩, -⟩ | hD
            · rw [← hq, hg] at h2
              cases h2
            · rw [hg] at hD
              exact ih _ _ _ hs' hD

private theorem blocks_eq (M : Bytes) : Prf.blocks M = cmacBlocks M := by
  rw [Prf.blocks, place_length, cmacBlocks]
  simp only [List.length_nil]
  omega

private theorem boxBlocks_eq (v : Box) : boxBlocks v = (v.1.map cmacBlocks).sum + cmacBlocks v.2 := by
  rw [boxBlocks, blocks_eq, List.map_congr_left fun M _ => blocks_eq M]

private theorem simS_cost (lib : CipherLib) (key2 : Bytes) (e : Bool × Bool) (seen : List Box)
    (D : Asker SivQuery (Py Bytes) R) (c : Nat) (hc : D.CostLe SivQuery.blocks (fun _ => 0) c) :
    (simS lib key2 e seen D).CostLe boxBlocks (fun _ => 0) c := by
  induction D generalizing seen c with
  | done r => exact Nat.zero_le _
  | ask q next ih =>
    obtain ⟨h1, h2⟩ := hc
    rcases q with ⟨pt, ads⟩ | ⟨ct, ads⟩
    · rw [simS]
      split
      · exact costLe_weaken (fun _ => le_rfl) (Nat.sub_le _ _) (ih _ _ _ (h2 _))
      · refine ⟨?_, fun b => ?_⟩
        · rw [boxBlocks_eq]
          exact h1
        · rw [boxBlocks_eq]
          exact ih _ _ _ (h2 _)
    · rw [simS]
      cases ho : sivOpened lib key2 ct with
      | error er => exact costLe_weaken (fun _ => le_rfl) (Nat.sub_le _ _) (ih _ _ _ (h2 _))
      | ok pt =>
        simp only
        split
        · exact costLe_weaken (fun _ => le_rfl) (Nat.sub_le _ _) (ih _ _ _ (h2 _))
        · have hb : boxBlocks (ads, pt) = SivQuery.blocks (.dec ct ads) := by
            rw [boxBlocks_eq, SivQuery.blocks, cmacBlocks, opened_length ho, cmacBlocks]
          refine ⟨by rw [hb]; exact h1, fun b => ?_⟩
          rw [hb]
          beta_reduce
          split
          · split
            · exact ih _ _ _ (h2 _)
            · exact Nat.zero_le _
          · exact ih _ _ _ (h2 _)

private theorem simS_within (lib : CipherLib) (key2 : Bytes) (e : Bool × Bool) (seen : List Box)
    (D : Asker SivQuery (Py Bytes) R) (P : List Bytes → Prop) (hw : D.Within fun q => P q.ads) :
    (simS lib key2 e seen D).Within fun v => P v.1 := by
  induction D generalizing seen with
  | done r => trivial
  | ask q next ih =>
    obtain ⟨h1, h2⟩ := hw
    rcases q with ⟨pt, ads⟩ | ⟨ct, ads⟩
    · rw [simS]
      split
      · exact ih _ _ (h2 _)
      · exact ⟨h1, fun b => ih _ _ (h2 _)⟩
    · rw [simS]
      cases ho : sivOpened lib key2 ct with
      | error er => exact ih _ _ (h2 _)
      | ok pt =>
        simp only
        split
        · exact ih _ _ (h2 _)
        · refine ⟨h1, fun b => ?_⟩
          beta_reduce
          split
          · split
            · exact ih _ _ (h2 _)
            · trivial
          · exact ih _ _ (h2 _)

private theorem within_weaken {M T R : Type} {S S' : M → Prop} {D : Asker M T R} (h : ∀ m, S m → S' m)
    (hD : D.Within S) : D.Within S' := by
  induction D with
  | done r => trivial
  | ask m next ih => exact ⟨h m hD.1, fun t => ih t (hD.2 t)⟩

private theorem within_finite {M R : Type} [DecidableEq M] {P : M → Prop} (D : Asker M Blk R) (hD : D.Within P) :
    ∃ S : Finset M, (∀ m ∈ S, P m) ∧ D.Within (· ∈ S) := by
  induction D with
  | done r => exact ⟨∅, by simp, trivial⟩
  | ask m next ih =>
    choose S hS hS' using fun t => ih t (hD.2 t)
    refine ⟨insert m (Finset.univ.biUnion S), fun m' hm' => ?_, Finset.mem_insert_self _ _, fun t =>
      within_weaken (fun m' hm' => ?_) (hS' t)⟩
    · rcases Finset.mem_insert.mp hm' with rfl | hm'
      · exact hD.1
      · obtain ⟨t, -, ht⟩ := Finset.mem_biUnion.mp hm'
        exact hS t _ ht
    · exact Finset.mem_insert_of_mem (Finset.mem_biUnion.mpr ⟨t, Finset.mem_univ _, hm'⟩)

/-- A value of a random function is guessed at most once in `2^128` times. -/
private theorem guessS (lib : CipherLib) (key2 : Bytes) (e : Bool × Bool) (S : Finset Box)
    (D : Asker SivQuery (Py Bytes) R) (seen : List Box) (q : Nat) (hq : D.CostLe SivQuery.tries (fun _ => 0) q)
    (τ : Box → Blk) (hs : seen.toFinset ⊆ S) (hw : (simS lib key2 e seen D).Within (· ∈ S)) :
    Fintype.card Blk ^ (seen.toFinset.card + 1) * cnt (fun σ : S → Blk =>
      (∀ m ∈ seen.toFinset, ext S σ m = τ m) ∧ (simS lib key2 e seen D).run (ext S σ) = true) ≤
        q * Fintype.card (S → Blk) := by
  induction D generalizing seen τ q with
  | done r =>
    rw [cnt_false]
    · simp
    · rintro ρ ⟨-, h⟩
      cases h
  | ask qu next ih =>
    obtain ⟨hq1, hq2⟩ := hq
    rcases qu with ⟨pt, ads⟩ | ⟨c, ads⟩
    · rw [simS] at hw ⊢
      split at hw
      · next h =>
        rw [if_pos h]
        exact ih _ _ _ (hq2 _) _ hs hw
      · next h =>
        rw [if_neg h]
        obtain ⟨hw1, hw2⟩ := hw
        by_cases hM : (ads, pt) ∈ seen.toFinset
        · have hl : ((ads, pt) :: seen).toFinset = seen.toFinset := by
            rw [List.toFinset_cons, Finset.insert_eq_of_mem hM]
          have := ih (sivSealed lib key2 pt (.ok (ofBlk (τ (ads, pt))))) ((ads, pt) :: seen) _ (hq2 _) τ
            (by rw [hl]; exact hs) (hw2 (τ (ads, pt)))
          rw [hl] at this
          refine le_trans (Nat.mul_le_mul_left _ (cnt_mono ?_)) this
          rintro ρ ⟨h1, h2⟩
          rw [run_ask, h1 _ hM] at h2
          exact ⟨h1, h2⟩
        · have hN : 0 < Fintype.card Blk := Fintype.card_pos_iff.mpr ⟨0⟩
          have hl : ((ads, pt) :: seen).toFinset = insert (ads, pt) seen.toFinset := List.toFinset_cons
          have h2 : ∀ t, _ := fun t => ih (sivSealed lib key2 pt (.ok (ofBlk t))) ((ads, pt) :: seen) _ (hq2 _)
            (Function.update τ (ads, pt) t) (by rw [hl]; exact Finset.insert_subset hw1 hs) (hw2 t)
          rw [hl, Finset.card_insert_of_notMem hM] at h2
          have h3 := Finset.sum_le_sum fun t (_ : t ∈ (Finset.univ : Finset Blk)) => h2 t
          rw [← Finset.mul_sum, Finset.sum_const, Finset.card_univ, smul_eq_mul, pow_succ', mul_assoc] at h3
          refine le_trans (Nat.mul_le_mul_left _ ?_) (Nat.le_of_mul_le_mul_left h3 hN)
          rw [cnt_split _ fun ρ => ext S ρ (ads, pt)]
          refine Finset.sum_le_sum fun t _ => cnt_mono ?_
          rintro ρ ⟨⟨h1, h2⟩, rfl⟩
          refine ⟨fun m hm => ?_, h2⟩
          rcases Finset.mem_insert.mp hm with rfl | hm'
          · rw [Function.update_self]
          · rw [h1 m hm', Function.update_of_ne]
            rintro rfl
            exact hM hm'
    · rw [simS] at hw ⊢
      have weaker (a : Py Bytes) (ha : (simS lib key2 e seen (next a)).Within (· ∈ S)) :=
        le_trans (ih a seen _ (hq2 a) τ hs ha) (Nat.mul_le_mul_right (Fintype.card (S → Blk)) (Nat.sub_le q _))
      cases ho : sivOpened lib key2 c with
      | error er =>
        rw [ho] at hw
        exact weaker _ hw
      | ok pt =>
        rw [ho] at hw
        simp only at hw ⊢
        split at hw
        · next h =>
          rw [if_pos h]
          exact weaker _ hw
        · next h =>
          rw [if_neg h]
          obtain ⟨hw1, hw2⟩ := hw
          have hw2 : ∀ b : Blk, (if ofBlk b = c.take 16 then
              if (ads, pt) ∈ seen then simS lib key2 e seen (next (.ok pt)) else .done true
            else simS lib key2 e seen (next (.error .stringRaise))).Within (· ∈ S) := hw2
          have run : ∀ ρ : S → Blk, Asker.run (ext S ρ) (.ask (ads, pt) fun b => if ofBlk b = c.take 16 then
              if (ads, pt) ∈ seen then simS lib key2 e seen (next (.ok pt)) else .done true
            else simS lib key2 e seen (next (.error .stringRaise))) = if ofBlk (ext S ρ (ads, pt)) = c.take 16 then
              if (ads, pt) ∈ seen then (simS lib key2 e seen (next (.ok pt))).run (ext S ρ) else true
            else (simS lib key2 e seen (next (.error .stringRaise))).run (ext S ρ) := by
            intro ρ
            rw [run_ask]
            split
            · split <;> rfl
            · rfl
          by_cases hM : (ads, pt) ∈ seen
          · have hM' := List.mem_toFinset.mpr hM
            have hb := hw2 (τ (ads, pt))
            by_cases ht : ofBlk (τ (ads, pt)) = c.take 16
            · rw [if_pos ht, if_pos hM] at hb
              refine le_trans (Nat.mul_le_mul_left _ (cnt_mono ?_)) (weaker _ hb)
              rintro ρ ⟨h1, h2⟩
              rw [run, h1 _ hM', if_pos ht, if_pos hM] at h2
              exact ⟨h1, h2⟩
            · rw [if_neg ht] at hb
              refine le_trans (Nat.mul_le_mul_left _ (cnt_mono ?_)) (weaker _ hb)
              rintro ρ ⟨h1, h2⟩
              rw [run, h1 _ hM', if_neg ht] at h2
              exact ⟨h1, h2⟩
          · have hM' : (ads, pt) ∉ seen.toFinset := fun h' => hM (List.mem_toFinset.mp h')
            have key := card_ext (Function.update τ (ads, pt) (toBlk (c.take 16))) S (insert (ads, pt) seen.toFinset)
              (Finset.insert_subset hw1 hs)
            rw [Finset.card_insert_of_notMem hM'] at key
            obtain ⟨b, hb⟩ : ∃ b : Blk, ofBlk b ≠ c.take 16 := by
              by_contra hall
              push Not at hall
              have e : (0 : Blk) = (1#128 : BitVec 128) := ofBlk_inj ((hall 0).trans (hall _).symm)
              exact absurd e (show (0#128 : BitVec 128) ≠ 1#128 by decide)
            have hrej := hw2 b
            rw [if_neg hb] at hrej
            have h3 := ih (.error .stringRaise) seen _ (hq2 _) τ hs hrej
            have h4 : cnt (fun σ : S → Blk => (∀ m ∈ seen.toFinset, ext S σ m = τ m) ∧
                Asker.run (ext S σ) (.ask (ads, pt) fun b => if ofBlk b = c.take 16 then
                  if (ads, pt) ∈ seen then simS lib key2 e seen (next (.ok pt)) else .done true
                else simS lib key2 e seen (next (.error .stringRaise))) = true) ≤
                cnt (fun σ : S → Blk => ∀ m ∈ insert (ads, pt) seen.toFinset,
                  ext S σ m = Function.update τ (ads, pt) (toBlk (c.take 16)) m) +
                cnt fun σ : S → Blk => (∀ m ∈ seen.toFinset, ext S σ m = τ m) ∧
                  (simS lib key2 e seen (next (.error .stringRaise))).run (ext S σ) = true := by
              refine (cnt_mono ?_).trans (cnt_or _ _)
              rintro ρ ⟨h1, h2⟩
              rw [run] at h2
              by_cases ht : ofBlk (ext S ρ (ads, pt)) = c.take 16
              · refine Or.inl fun m hm => ?_
                rcases Finset.mem_insert.mp hm with rfl | hm
                · rw [Function.update_self, ← ht, toBlk_ofBlk]
                · rw [h1 m hm, Function.update_of_ne]
                  rintro rfl
                  exact hM' hm
              · rw [if_neg ht] at h2
                exact Or.inr ⟨h1, h2⟩
            refine (Nat.mul_le_mul_left _ h4).trans ?_
            rw [mul_add, key]
            have hq1 : 1 ≤ q := hq1
            have : q * Fintype.card (S → Blk) = Fintype.card (S → Blk) + (q - 1) * Fintype.card (S → Blk) := by
              conv_lhs => rw [show q = 1 + (q - 1) by omega, add_mul, one_mul]
            rw [this]
            exact Nat.add_le_add_left h3 _

end

/-- C163: whatever encryptions and decryptions are asked for, one after the other depending on the answers (or exceptions)
before, at most `2 * ((c + 1)^2 + q)` in `2^128` of all functions in place of AES under the first half of the key let
`siv_decrypt` accept a ciphertext that `siv_encrypt` did not return before for the same headers, if all headers and
plaintexts together have at most `c` blocks, there are at most `q` decryptions, and never more than 126 headers. Under
the other half of the key the cipher is arbitrary. -/
theorem C163_forgery {R : Type} (keyOk : Bytes → Bool) (key1 key2 : Bytes) (hl : key1.length = key2.length)
    (hne : key1 ≠ key2) (hk : keyOk key1 = true) (g : Bytes → Bytes → Bytes)
    (hg : ∀ k s, s.length = 16 → (g k s).length = 16) (D : Asker SivQuery (Py Bytes) R) (c q : Nat)
    (hc : D.CostLe SivQuery.blocks (fun _ => 0) c) (hq : D.CostLe SivQuery.tries (fun _ => 0) q)
    (hn : D.Within fun s => s.ads.length ≤ 126) :
    2 ^ 128 * Nat.card {f : BitVec 128 → BitVec 128 //
        Fakes (sivAnswer (splitLib keyOk key1 f g) (key1 ++ key2)) D} ≤
      2 * ((c + 1) ^ 2 + q) * Nat.card (BitVec 128 → BitVec 128) := by
  have lawful (f : Blk → Blk) : LawfulCipher (blkSplit keyOk key1 g f) := ⟨rfl, fun k s hs => by
    change (if k = key1 then onBytes f s else g k s).length = 16
    split
    · exact length_ofBlk _
    · exact hg k s hs⟩
  have enc1 (f : Blk → Blk) : (blkSplit keyOk key1 g f).enc key1 = onBytes f := by
    funext s
    exact if_pos rfl
  have enc2 (f : Blk → Blk) : (blkSplit keyOk key1 g f).enc key2 = (blkSplit keyOk key1 g 0).enc key2 := by
    funext s
    change (if key2 = key1 then _ else _) = if key2 = key1 then _ else _
    rw [if_neg (Ne.symm hne), if_neg (Ne.symm hne)]
  have hs2v (f : Blk → Blk) (ads : List Bytes) (pt : Bytes) := s2v_err (blkSplit keyOk key1 g f) key1 (subErr (onBytes f))
    (cmacBlk f) (fun M => by
      have := cmac_err (blkSplit keyOk key1 g f) (lawful f) key1 M hk
      rw [enc1, cmac_place] at this
      exact this) ads pt
  have hopen (f : Blk → Blk) (c : Bytes) :
      sivOpened (blkSplit keyOk key1 g f) key2 c = sivOpened (blkSplit keyOk key1 g 0) key2 c := by
    rw [sivOpened, sivOpened, sivStream_congr _ _ key2 (enc2 f)]
    rfl
  have hseal (f : Blk → Blk) (pt : Bytes) (s : Py Bytes) :
      sivSealed (blkSplit keyOk key1 g f) key2 pt s = sivSealed (blkSplit keyOk key1 g 0) key2 pt s := by
    cases s with
    | error e => rfl
    | ok iv =>
      rw [sivSealed, sivSealed]
      rw [sivStream_congr _ _ key2 (enc2 f)]
      rfl
  have one (e : Bool × Bool) : Fintype.card Blk * cnt (fun f : Blk → Blk =>
      (simS (blkSplit keyOk key1 g 0) key2 e [] D).run (fun v => cmacBlk f (locS (cmacBlk f) v)) = true) ≤
      ((c + 1) ^ 2 + q) * Fintype.card (Blk → Blk) := by
    obtain ⟨S, hS, hS'⟩ := within_finite _ (simS_within (blkSplit keyOk key1 g 0) key2 e [] D (fun l => l.length ≤ 126) hn)
    have h1 := card_s2v (· = true) _ c (simS_cost (blkSplit keyOk key1 g 0) key2 e [] D c hc) S hS hS'
    have h2 := guessS (blkSplit keyOk key1 g 0) key2 e S D [] q hq (fun _ => 0) (by simp) hS'
    simp only [List.toFinset_nil, Finset.card_empty, zero_add, pow_one, Finset.notMem_empty, false_implies, implies_true,
      true_and] at h2
    have hpos : 0 < Fintype.card (S → Blk) := Fintype.card_pos_iff.mpr ⟨fun _ => 0⟩
    refine Nat.le_of_mul_le_mul_right (h1.trans ?_) hpos
    rw [add_mul, add_mul, add_comm]
    refine Nat.add_le_add_left ?_ _
    rw [mul_right_comm q]
    exact Nat.mul_le_mul_right _ h2
  have key : Fintype.card Blk * cnt (fun f : Blk → Blk => Fakes (sivAnswer (blkSplit keyOk key1 g f) (key1 ++ key2)) D) ≤
      2 * ((c + 1) ^ 2 + q) * Fintype.card (Blk → Blk) := by
    have some (e : Bool × Bool) : Fintype.card Blk * cnt (fun f : Blk → Blk =>
        Fakes (sivAnswer (blkSplit keyOk key1 g f) (key1 ++ key2)) D ∧ subErr (onBytes f) = e) ≤
        ((c + 1) ^ 2 + q) * Fintype.card (Blk → Blk) := by
      refine le_trans (Nat.mul_le_mul_left _ (cnt_mono ?_)) (one e)
      rintro f ⟨⟨before, ct, ads, after, h1, h2, h3⟩, rfl⟩
      refine simS_run _ key2 _ (sivAnswer (blkSplit keyOk key1 g f) (key1 ++ key2)) _ ?_ ?_ ?_ D [] [] (by simp)
        ⟨before, ct, ads, after, h1, h2, by simpa using h3⟩
      · intro pt ads
        rw [sivAnswer, sivEncrypt_eq _ key1 key2 hl hne, hs2v f, hseal]
      · intro c ads
        rw [sivAnswer, sivDecrypt_eq _ key1 key2 hl hne, hopen]
        simp only [hs2v f]
      · intro c ads pt h
        exact (C15_siv_accepts_exactly _ (lawful f) _ ads c pt).mp h
    have none (e : Bool) : cnt (fun f : Blk → Blk =>
        Fakes (sivAnswer (blkSplit keyOk key1 g f) (key1 ++ key2)) D ∧ subErr (onBytes f) = (true, e)) = 0 := by
      refine cnt_false ?_
      rintro f ⟨⟨before, ct, ads, after, -, ⟨pt, h2⟩, -⟩, hf⟩
      rw [sivAnswer, sivDecrypt_eq _ key1 key2 hl hne] at h2
      split at h2
      · cases h2
      · rw [hs2v f, hf, if_pos (by simp [boxErr])] at h2
        cases h2
    rw [cnt_split _ fun f : Blk → Blk => subErr (onBytes f), Fintype.sum_prod_type, Fintype.sum_bool, Fintype.sum_bool,
      Fintype.sum_bool, none, none]
    have h1 := some (false, true)
    have h2 := some (false, false)
    rw [mul_add, mul_add, mul_add, mul_zero]
    linarith
  rw [card_blk] at key
  rw [← Nat.card_eq_fintype_card] at key
  exact key

/-- A strategy with 4 blocks and one decryption: it asks for the encryption of two octets with one header, and then for the
decryption of the answer with another header. -/
example : (Asker.ask (.enc [1, 2] [[3]]) fun t => .ask (.dec ((t.toOption.getD []).take 18) [[4]]) fun t' => .done t' :
      Asker SivQuery (Py Bytes) (Py Bytes)).CostLe SivQuery.blocks (fun _ => 0) 4 ∧
    (Asker.ask (.enc [1, 2] [[3]]) fun t => .ask (.dec ((t.toOption.getD []).take 18) [[4]]) fun t' => .done t' :
      Asker SivQuery (Py Bytes) (Py Bytes)).CostLe SivQuery.tries (fun _ => 0) 1 ∧
    (Asker.ask (.enc [1, 2] [[3]]) fun t => .ask (.dec ((t.toOption.getD []).take 18) [[4]]) fun t' => .done t' :
      Asker SivQuery (Py Bytes) (Py Bytes)).Within fun s => s.ads.length ≤ 126 := by
  have h1 : SivQuery.blocks (.enc [1, 2] [[3]]) = 2 := by decide
  have h2 (t : Bytes) : SivQuery.blocks (.dec (t.take 18) [[4]]) = 2 := by
    rw [SivQuery.blocks, cmacBlocks.eq_def (List.drop _ _), List.length_drop, List.length_take]
    have : (List.map cmacBlocks [[4]]).sum = 1 := by decide
    omega
  refine ⟨⟨by rw [h1]; decide, fun t => ⟨by rw [h1, h2], fun t' => Nat.zero_le _⟩⟩, ⟨by decide, fun t =>
    ⟨le_rfl, fun t' => Nat.zero_le _⟩⟩, ?_, fun t => ⟨?_, fun t' => trivial⟩⟩
  · change 1 ≤ 126
    decide
  · change 1 ≤ 126
    decide
/-- Some functions do allow it: if all blocks are mapped to `2^124`, this is the IV of everything. -/
example : Fakes (sivAnswer (splitLib (fun _ => true) [1] (fun _ => 2 ^ 124) fun _ s => s) ([1] ++ [2]))
    (Asker.ask (.dec (ofBits (2 ^ 124) ++ [5]) []) fun t => .done t) := by
  have h : (sivAnswer (splitLib (fun _ => true) [1] (fun _ => 2 ^ 124) fun _ s => s) ([1] ++ [2])
      (.dec (ofBits (2 ^ 124) ++ [5]) [])).toBool = true := by decide +kernel
  refine ⟨[], _, _, _, rfl, ?_, by simp⟩
  cases e : sivAnswer (splitLib (fun _ => true) [1] (fun _ => 2 ^ 124) fun _ s => s) ([1] ++ [2])
      (.dec (ofBits (2 ^ 124) ++ [5]) []) with
  | error er =>
    rw [e] at h
    cases h
  | ok pt => exact ⟨pt, rfl⟩

section
variable {R : Type}

/-- A strategy against `s2v` that raises no exception. -/
private def simV : Asker (List Bytes × Bytes) (Py Bytes) R → Asker Box Blk R
  | .done r => .done r
  | .ask v next => .ask v fun b => simV (next (.ok (ofBlk b)))

private theorem simV_run (g : Box → Py Bytes) (h : Box → Blk) (S : Box → Prop)
    (hg : ∀ v, S v → g v = .ok (ofBlk (h v))) (D : Asker Box (Py Bytes) R) (hw : D.Within S) :
    (simV D).run h = D.run g := by
  induction D with
  | done r => rfl
  | ask v next ih =>
    change Asker.run h (simV (next (.ok (ofBlk (h v))))) = Asker.run g (next (g v))
    rw [hg v hw.1]
    exact ih _ (hw.2 _)

private theorem simV_cost (D : Asker Box (Py Bytes) R) (c : Nat)
    (hc : D.CostLe (fun v => (v.1.map cmacBlocks).sum + cmacBlocks v.2) (fun _ => 0) c) :
    (simV D).CostLe boxBlocks (fun _ => 0) c := by
  induction D generalizing c with
  | done r => exact Nat.zero_le _
  | ask v next ih =>
    refine ⟨?_, fun b => ?_⟩
    · rw [boxBlocks_eq]
      exact hc.1
    · rw [boxBlocks_eq]
      exact ih _ _ (hc.2 _)

private theorem simV_within {S : Box → Prop} (D : Asker Box (Py Bytes) R) (hw : D.Within S) : (simV D).Within S := by
  induction D with
  | done r => trivial
  | ask v next ih => exact ⟨hw.1, fun b => ih _ (hw.2 _)⟩

private def blkTable (keyOk : Bytes → Bool) (f : Blk → Blk) : CipherLib where
  keyOk := keyOk
  blockSize := 16
  enc _ := onBytes f

end

/-- C163: as long as no exception is raised, whatever can be found out about `s2v` with at most 126 headers by asking for
values of at most `c` blocks is found out as often about a random function on headers and plaintexts, up to `(c + 1)^2` in
`2^128`. -/
theorem C163_random_function {R : Type} (keyOk : Bytes → Bool) (key : Bytes) (hk : keyOk key = true)
    (D : Asker (List Bytes × Bytes) (Py Bytes) R) (accept : R → Prop) (c : Nat)
    (hc : D.CostLe (fun v => (v.1.map cmacBlocks).sum + cmacBlocks v.2) (fun _ => 0) c)
    (S : Finset (List Bytes × Bytes)) (hn : ∀ v ∈ S, v.1.length ≤ 126) (hS : D.Within (· ∈ S)) :
    2 ^ 128 * Nat.card {f : BitVec 128 → BitVec 128 //
        (∀ v ∈ S, ∃ t, Model.s2v (tableLib keyOk f) key (v.1 ++ [v.2]) = .ok t) ∧
          accept (D.run fun v => Model.s2v (tableLib keyOk f) key (v.1 ++ [v.2]))} * Nat.card (S → BitVec 128) ≤
      2 ^ 128 * Nat.card {r : S → BitVec 128 //
          accept (D.run fun v => if h : v ∈ S then .ok (ofBits (r ⟨v, h⟩)) else .error .value)} *
        Nat.card (BitVec 128 → BitVec 128) +
      (c + 1) ^ 2 * Nat.card (BitVec 128 → BitVec 128) * Nat.card (S → BitVec 128) := by
  have key : 2 ^ 128 * cnt (fun f : Blk → Blk =>
        (∀ v ∈ S, ∃ t, Model.s2v (blkTable keyOk f) key (v.1 ++ [v.2]) = .ok t) ∧
          accept (D.run fun v => Model.s2v (blkTable keyOk f) key (v.1 ++ [v.2]))) * Nat.card (S → Blk) ≤
      2 ^ 128 * cnt (fun r : S → Blk =>
          accept (D.run fun v => if h : v ∈ S then .ok (ofBlk (r ⟨v, h⟩)) else .error .value)) * Nat.card (Blk → Blk) +
      (c + 1) ^ 2 * Nat.card (Blk → Blk) * Nat.card (S → Blk) := by
    have h := card_s2v accept (simV D) c (simV_cost D c hc) S hn (simV_within D hS)
    rw [card_blk, ← Nat.card_eq_fintype_card, ← Nat.card_eq_fintype_card] at h
    refine le_trans (Nat.mul_le_mul_right _ (Nat.mul_le_mul_left _ (cnt_mono ?_))) (h.trans (Nat.add_le_add_right
      (Nat.mul_le_mul_right _ (Nat.mul_le_mul_left _ (cnt_mono ?_))) _))
    · rintro f ⟨h1, h2⟩
      have lawful : LawfulCipher (blkTable keyOk f) := ⟨rfl, fun _ _ _ => length_ofBlk _⟩
      rw [simV_run (fun v => Model.s2v (blkTable keyOk f) key (v.1 ++ [v.2])) _ (· ∈ S) (fun v hv => ?_) D hS]
      · exact h2
      · obtain ⟨t, ht⟩ := h1 v hv
        have hs := s2v_err (blkTable keyOk f) key (subErr (onBytes f)) (cmacBlk f) (fun M => by
          have := cmac_err (blkTable keyOk f) lawful key M hk
          rw [show (blkTable keyOk f).enc key = onBytes f from rfl, cmac_place] at this
          exact this) v.1 v.2
        rw [ht] at hs ⊢
        split at hs
        · cases hs
        · exact hs
    · intro r h
      rw [simV_run _ (ext S r) (· ∈ S) (fun v hv => ?_) D hS] at h
      · exact h
      · rw [dif_pos hv, ext, dif_pos hv]
  exact key
/-- A strategy with 6 blocks and its set of headers and plaintexts: is the value for two headers that of the headers in
the other order? -/
example : (Asker.ask ([[7], [8]], []) fun t => .ask ([[8], [7]], []) fun t' => .done (t == t') :
      Asker (List Bytes × Bytes) (Py Bytes) Bool).CostLe (fun v => (v.1.map cmacBlocks).sum + cmacBlocks v.2)
        (fun _ => 0) 6 ∧
    (∀ v ∈ ({([[7], [8]], []), ([[8], [7]], [])} : Finset (List Bytes × Bytes)), v.1.length ≤ 126) ∧
    (Asker.ask ([[7], [8]], []) fun t => .ask ([[8], [7]], []) fun t' => .done (t == t') :
      Asker (List Bytes × Bytes) (Py Bytes) Bool).Within
        (· ∈ ({([[7], [8]], []), ([[8], [7]], [])} : Finset (List Bytes × Bytes))) :=
  ⟨⟨by decide, fun _ => ⟨by decide, fun _ => Nat.zero_le _⟩⟩, by decide, by decide, fun _ => ⟨by decide, fun _ => trivial⟩⟩

end Cryptopy
