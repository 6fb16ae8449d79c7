import Verif.Props.Permutations

/-!
C176: when the SIV functions raise `AssertionError` because of a short subkey, and how often.
-/

namespace Cryptopy
open Model (CipherLib aesCmac sivDecrypt sivStream)
open Spec Prf

/-- Does S2V use the second subkey of CMAC for these headers and a plaintext of `n` octets?  It does so for a header that is empty
or not made of whole blocks, and for a plaintext of more than one block, not whole. -/
def UsesK2 (ads : List Bytes) (n : Nat) : Prop :=
  (∃ s ∈ ads, s = [] ∨ s.length % 16 ≠ 0) ∨ (16 ≤ n ∧ n % 16 ≠ 0)

/-- Is a subkey that is used by S2V below `2^120`? -/
def ShortSubkey (E : Bytes → Bytes) (ads : List Bytes) (n : Nat) : Prop :=
  (cmacK1 E).toNat < 2 ^ 120 ∨ (UsesK2 ads n ∧ (cmacK2 E).toNat < 2 ^ 120)

private theorem boxErr_cases (a b : Bool) (ads : List Bytes) (pt : Bytes) :
    boxErr (a, b) (ads, pt) = true ↔ a = true ∨ (UsesK2 ads pt.length ∧ b = true) := by
  have h0 : ∀ s : Bytes, s = [] ↔ s.length = 0 := fun s => List.length_eq_zero_iff.symm
  have hc : ∀ s : Bytes, cmacErr (false, b) s = true ↔ (s = [] ∨ s.length % 16 ≠ 0) ∧ b = true := by
    intro s
    rw [cmacErr, h0]
    split
    · next h => exact ⟨fun h' => (nomatch h'), fun h' => by omega⟩
    · next h => exact ⟨fun h' => ⟨by omega, h'⟩, fun h' => h'.2⟩
  cases a with
  | true => exact ⟨fun _ => Or.inl rfl, fun _ => rfl⟩
  | false =>
    rw [boxErr, UsesK2]
    simp only [Bool.or_eq_true, Bool.and_eq_true, decide_eq_true_eq, List.any_eq_true, hc, Bool.false_eq_true, false_or]
    constructor
    · rintro (⟨s, h1, h2, h3⟩ | ⟨h1, h2, h3⟩)
      · exact ⟨Or.inl ⟨s, h1, h2⟩, h3⟩
      · refine ⟨Or.inr ⟨h1, ?_⟩, h3⟩
        rcases h2 with h2 | h2
        · rw [h0] at h2
          omega
        · exact h2
    · rintro ⟨⟨s, h1, h2⟩ | ⟨h1, h2⟩, h3⟩
      · exact Or.inl ⟨s, h1, h2, h3⟩
      · exact Or.inr ⟨h1, Or.inr h2, h3⟩

private theorem boxErr_iff (E : Bytes → Bytes) (ads : List Bytes) (pt : Bytes) :
    boxErr (subErr E) (ads, pt) = true ↔ ShortSubkey E ads pt.length := by
  rw [subErr, boxErr_cases, ShortSubkey, decide_eq_true_eq, decide_eq_true_eq]

theorem s2v_exact (aes : CipherLib) (h : LawfulCipher aes) (key : Bytes) (hk : aes.keyOk key = true) (ads : List Bytes)
    (pt : Bytes) :
    (ShortSubkey (aes.enc key) ads pt.length → Model.s2v aes key (ads ++ [pt]) = .error .assertion) ∧
      (¬ ShortSubkey (aes.enc key) ads pt.length →
        Model.s2v aes key (ads ++ [pt]) = .ok (Spec.s2v (cmac (aes.enc key)) (ads ++ [pt]))) := by
  have he := s2v_err aes key (subErr (aes.enc key)) (fun M => toBlk (cmac (aes.enc key) M)) (fun M => by
    rw [cmac_err aes h key M hk, show ofBlk (toBlk (cmac (aes.enc key) M)) = cmac (aes.enc key) M from
      ofBits_toBits (length_cmacFrom aes h key _ _ _ _ (by simp))]) ads pt
  constructor
  · intro hs
    rw [he, if_pos ((boxErr_iff _ _ _).mpr hs)]
  · intro hs
    rw [if_neg fun h' => hs ((boxErr_iff _ _ _).mp h')] at he
    rw [he, ← (C13_s2v_rfc5297 aes h key hk (ads ++ [pt])).2.1 _ he]

/-- C176: `siv_encrypt` raises `AssertionError` if a subkey that it uses is below `2^120`; otherwise it is SIV of RFC 5297. -/
theorem C176_encrypt (aes : CipherLib) (h : LawfulCipher aes) (k1 k2 : Bytes) (hl : k1.length = k2.length)
    (hk1 : aes.keyOk k1 = true) (hk2 : aes.keyOk k2 = true) (ads : List Bytes) (pt : Bytes)
    (hpt : (pt.length + 15) / 16 ≤ 2 ^ 63) :
    (ShortSubkey (aes.enc k1) ads pt.length → Model.sivEncrypt aes (k1 ++ k2) pt ads = .error .assertion) ∧
      (¬ ShortSubkey (aes.enc k1) ads pt.length →
        Model.sivEncrypt aes (k1 ++ k2) pt ads = .ok (Spec.sivEncrypt (aes.enc k1) (aes.enc k2) ads pt)) := by
  obtain ⟨h1, h2⟩ := s2v_exact aes h k1 hk1 ads pt
  refine ⟨fun hs => ?_, fun hs => sivEncrypt_of_s2v aes h k1 k2 hl hk2 ads pt hpt (h2 hs)⟩
  have e1 : (k1 ++ k2).take ((k1 ++ k2).length / 2) = k1 := by
    have : (k1 ++ k2).length / 2 = k1.length := by simp; omega
    rw [this]; simp
  rw [Model.sivEncrypt]
  simp only [e1]
  rw [h1 hs]

/-- C176: `siv_decrypt` raises `AssertionError` for every ciphertext of a length and with headers for which a subkey that it uses is
below `2^120`, also for those that another implementation of RFC 5297 has made.  Otherwise it accepts exactly these, and raises its
own exception for all others. -/
theorem C176_decrypt (aes : CipherLib) (h : LawfulCipher aes) (k1 k2 : Bytes) (hl : k1.length = k2.length)
    (hk1 : aes.keyOk k1 = true) (hk2 : aes.keyOk k2 = true) (ads : List Bytes) (c : Bytes)
    (hc : (c.length + 15) / 16 ≤ 2 ^ 63) :
    (ShortSubkey (aes.enc k1) ads (c.length - 16) → sivDecrypt aes (k1 ++ k2) c ads = .error .assertion) ∧
      (¬ ShortSubkey (aes.enc k1) ads (c.length - 16) →
        (∀ pt, c = Spec.sivEncrypt (aes.enc k1) (aes.enc k2) ads pt → sivDecrypt aes (k1 ++ k2) c ads = .ok pt) ∧
        ((∀ pt, c ≠ Spec.sivEncrypt (aes.enc k1) (aes.enc k2) ads pt) →
          sivDecrypt aes (k1 ++ k2) c ads = .error .stringRaise)) := by
  have e1 : (k1 ++ k2).take ((k1 ++ k2).length / 2) = k1 := by
    have : (k1 ++ k2).length / 2 = k1.length := by simp; omega
    rw [this]; simp
  have e2 : Py.sliceFrom (k1 ++ k2) (-(((k1 ++ k2).length / 2 : Nat) : Int)) = k2 := by
    have : (k1 ++ k2).length / 2 = k1.length := by simp; omega
    rw [this, Py.sliceFrom, Py.clampIdx]
    split
    · have : ((((k1 ++ k2).length : Nat) : Int) + -(k1.length : Int)).toNat = k1.length := by
        simp; omega
      rw [this]; simp
    · next hn =>
      have h0 : k1 = [] := List.length_eq_zero_iff.mp (by omega)
      have h0' : k2 = [] := List.length_eq_zero_iff.mp (by subst h0; simpa using hl.symm)
      subst h0; subst h0'; simp
  have hstream : ∃ x, sivStream aes k2 (c.take 16) 0 (((c.drop 16).length + 16 - 1) / 16) [] = .ok x ∧
      (c.drop 16).length ≤ x.length := by
    by_cases h16 : 16 ≤ c.length
    · refine ⟨_, sivStream_eq aes k2 _ (by simpa using h16) _ _ _ (by rw [List.length_drop]; omega), ?_⟩
      rw [List.nil_append, List.length_flatMap, List.map_congr_left (g := fun _ => 16) fun i _ => h.length _ _ (by simp),
        List.map_const', List.sum_replicate, List.length_range', smul_eq_mul]
      omega
    · have : c.drop 16 = [] := List.drop_eq_nil_of_le (by omega)
      rw [this]
      exact ⟨[], rfl, le_refl _⟩
  obtain ⟨x, hx, hxl⟩ := hstream
  have hlen : (c.drop 16).length = (x.take (c.drop 16).length).length := by rw [List.length_take]; omega
  have hpl : (xorBytes (c.drop 16) (x.take (c.drop 16).length)).length = c.length - 16 := by
    rw [length_xorBytes, ← hlen, Nat.min_self, List.length_drop]
  obtain ⟨h1, h2⟩ := s2v_exact aes h k1 hk1 ads (xorBytes (c.drop 16) (x.take (c.drop 16).length))
  rw [hpl] at h1 h2
  have hdec : sivDecrypt aes (k1 ++ k2) c ads =
      match Model.s2v aes k1 (ads ++ [xorBytes (c.drop 16) (x.take (c.drop 16).length)]) with
      | .error e => .error e
      | .ok t => if t = c.take 16 then .ok (xorBytes (c.drop 16) (x.take (c.drop 16).length)) else .error .stringRaise := by
    rw [sivDecrypt]
    simp only [e1, e2]
    rw [if_pos hk2, hx]
    simp only
    rw [xor_eq, if_pos hlen]
    rfl
  refine ⟨fun hs => by rw [hdec, h1 hs], fun hs => ⟨fun pt e => ?_, fun hn => ?_⟩⟩
  · have hcl : c.length = pt.length + 16 := by
      rw [e, Spec.sivEncrypt, List.length_append, length_xorBytes, ctrStream, List.length_flatMap,
        List.map_congr_left (g := fun _ => 16) fun i _ => h.length _ _ (by simp),
        List.map_const', List.sum_replicate, List.length_range, smul_eq_mul]
      have : (Spec.s2v (cmac (aes.enc k1)) (ads ++ [pt])).length = 16 := by
        cases ads ++ [pt] with
        | nil => exact length_cmacFrom aes h k1 _ _ _ _ (by simp)
        | cons S rest => exact length_cmacFrom aes h k1 _ _ _ _ (by simp)
      omega
    have hs' : ¬ ShortSubkey (aes.enc k1) ads pt.length := by
      rw [hcl, Nat.add_sub_cancel] at hs
      exact hs
    refine C14_siv_roundtrip aes h _ ads c pt ?_
    rw [(C176_encrypt aes h k1 k2 hl hk1 hk2 ads pt (by omega)).2 hs', e]
  · rcases hd : sivDecrypt aes (k1 ++ k2) c ads with e | pt
    · rw [hdec, h2 hs] at hd
      simp only at hd
      split at hd
      · cases hd
      · exact hd.symm ▸ rfl
    · exfalso
      have he := (C15_siv_accepts_exactly aes h _ ads c pt).mp hd
      have hcl := (C16_siv_lengths aes h _ ads c pt).1 he
      have hs' : ¬ ShortSubkey (aes.enc k1) ads pt.length := by
        rw [hcl, Nat.add_sub_cancel] at hs
        exact hs
      rw [(C176_encrypt aes h k1 k2 hl hk1 hk2 ads pt (by omega)).2 hs'] at he
      exact hn pt (Except.ok.inj he).symm
example := C176_decrypt (toyCipher 0) (toyCipher_lawful _) (List.replicate 16 0) (List.replicate 16 1) rfl rfl rfl [[4]]
  (List.replicate 20 1) (by decide)

/-! ### How often -/

private theorem cnt_either (P Q : Blk → Prop) : cnt (fun b => P b ∨ Q b) + cnt (fun b => P b ∧ Q b) = cnt P + cnt Q := by
  classical
  have h := Finset.card_union_add_card_inter (Finset.univ.filter P) (Finset.univ.filter Q)
  rw [← Finset.filter_or, ← Finset.filter_and] at h
  rw [cnt_eq, cnt_eq, cnt_eq, cnt_eq]
  convert h

private theorem short_count (ads : List Bytes) (n : Nat) :
    (¬ UsesK2 ads n → cnt (fun b : Blk => BitVec.toNat (w := 128) (dblHom b) < 2 ^ 120 ∨
      (UsesK2 ads n ∧ BitVec.toNat (w := 128) (dblHom (dblHom b)) < 2 ^ 120)) = 2 ^ 120) ∧
    (UsesK2 ads n → cnt (fun b : Blk => BitVec.toNat (w := 128) (dblHom b) < 2 ^ 120 ∨
      (UsesK2 ads n ∧ BitVec.toNat (w := 128) (dblHom (dblHom b)) < 2 ^ 120)) = 3 * 2 ^ 119) := by
  have one : cnt (fun b : Blk => BitVec.toNat (w := 128) (dblHom b) < 2 ^ 120) = 2 ^ 120 := by
    rw [blk_double fun b : Blk => BitVec.toNat (w := 128) b < 2 ^ 120, blk_less _ (by decide)]
  have two : cnt (fun b : Blk => BitVec.toNat (w := 128) (dblHom (dblHom b)) < 2 ^ 120) = 2 ^ 120 := by
    rw [blk_double fun b : Blk => BitVec.toNat (w := 128) (dblHom b) < 2 ^ 120, one]
  have both : cnt (fun b : Blk => BitVec.toNat (w := 128) (dblHom b) < 2 ^ 120 ∧
      BitVec.toNat (w := 128) (dblHom (dblHom b)) < 2 ^ 120) = 2 ^ 119 := by
    rw [blk_double fun b : Blk => BitVec.toNat (w := 128) b < 2 ^ 120 ∧ BitVec.toNat (w := 128) (dblHom b) < 2 ^ 120,
      cnt_congr blk_both_small, blk_less _ (by decide)]
  constructor
  · intro h
    refine Eq.trans (cnt_congr fun b => ?_) one
    exact ⟨fun h' => h'.resolve_right fun h'' => h h''.1, Or.inl⟩
  · intro h
    have e := cnt_either (fun b : Blk => BitVec.toNat (w := 128) (dblHom b) < 2 ^ 120)
      fun b : Blk => BitVec.toNat (w := 128) (dblHom (dblHom b)) < 2 ^ 120
    rw [one, two, both] at e
    rw [cnt_congr (Q := fun b : Blk => BitVec.toNat (w := 128) (dblHom b) < 2 ^ 120 ∨
      BitVec.toNat (w := 128) (dblHom (dblHom b)) < 2 ^ 120) fun b => or_congr_right ⟨fun h' => h'.2, fun h' => ⟨h, h'⟩⟩]
    exact Nat.add_right_cancel (e.trans (by decide +kernel : 2 ^ 120 + 2 ^ 120 = 3 * 2 ^ 119 + 2 ^ 119))

private theorem table_short (keyOk : Bytes → Bool) (key1 : Bytes) (g : Bytes → Bytes → Bytes) (f : BitVec 128 → BitVec 128)
    (ads : List Bytes) (n : Nat) : ShortSubkey ((splitLib keyOk key1 f g).enc key1) ads n ↔
      (dblBits (f 0)).toNat < 2 ^ 120 ∨ (UsesK2 ads n ∧ (dblBits (dblBits (f 0))).toNat < 2 ^ 120) := by
  have h : toBits ((splitLib keyOk key1 f g).enc key1 (List.replicate 16 0)) = f 0 := by
    change toBits (if key1 = key1 then ofBits (f (toBits (List.replicate 16 0))) else _) = f 0
    rw [if_pos rfl, toBits_ofBits, show toBits (List.replicate 16 0) = 0 by decide +kernel]
  rw [ShortSubkey, cmacK2, cmacK1, h]

private theorem split_law (keyOk : Bytes → Bool) (key1 : Bytes) (g : Bytes → Bytes → Bytes)
    (hg : ∀ k s, s.length = 16 → (g k s).length = 16) (f : BitVec 128 → BitVec 128) : LawfulCipher (splitLib keyOk key1 f g) :=
  ⟨rfl, fun k s hs => by
    change (if k = key1 then ofBits (f (toBits s)) else g k s).length = 16
    split
    · simp
    · exact hg k s hs⟩

private theorem shares (ads : List Bytes) (n : Nat) :
    (¬ UsesK2 ads n →
      256 * Nat.card {f : BitVec 128 → BitVec 128 // (dblBits (f 0)).toNat < 2 ^ 120 ∨
        (UsesK2 ads n ∧ (dblBits (dblBits (f 0))).toNat < 2 ^ 120)} = Nat.card (BitVec 128 → BitVec 128) ∧
      256 * Nat.card {π : Equiv.Perm (BitVec 128) // (dblBits (π 0)).toNat < 2 ^ 120 ∨
        (UsesK2 ads n ∧ (dblBits (dblBits (π 0))).toNat < 2 ^ 120)} = Nat.card (Equiv.Perm (BitVec 128))) ∧
    (UsesK2 ads n →
      512 * Nat.card {f : BitVec 128 → BitVec 128 // (dblBits (f 0)).toNat < 2 ^ 120 ∨
        (UsesK2 ads n ∧ (dblBits (dblBits (f 0))).toNat < 2 ^ 120)} = 3 * Nat.card (BitVec 128 → BitVec 128) ∧
      512 * Nat.card {π : Equiv.Perm (BitVec 128) // (dblBits (π 0)).toNat < 2 ^ 120 ∨
        (UsesK2 ads n ∧ (dblBits (dblBits (π 0))).toNat < 2 ^ 120)} = 3 * Nat.card (Equiv.Perm (BitVec 128))) := by
  set E : Blk → Prop := fun b => BitVec.toNat (w := 128) (dblHom b) < 2 ^ 120 ∨
      (UsesK2 ads n ∧ BitVec.toNat (w := 128) (dblHom (dblHom b)) < 2 ^ 120) with hE
  obtain ⟨h1, h2⟩ := short_count ads n
  have hf := funs_zero E
  have hp := perms_zero E
  rw [← Nat.card_eq_fintype_card (α := Blk → Blk), card_blk] at hf
  rw [← Nat.card_eq_fintype_card (α := Equiv.Perm Blk), card_blk] at hp
  have key : (¬ UsesK2 ads n → 256 * cnt (fun f : Blk → Blk => E (f 0)) = Nat.card (Blk → Blk) ∧
      256 * cnt (fun π : Equiv.Perm Blk => E (π 0)) = Nat.card (Equiv.Perm Blk)) ∧
      (UsesK2 ads n → 512 * cnt (fun f : Blk → Blk => E (f 0)) = 3 * Nat.card (Blk → Blk) ∧
      512 * cnt (fun π : Equiv.Perm Blk => E (π 0)) = 3 * Nat.card (Equiv.Perm Blk)) := by
    generalize cnt (fun f : Blk → Blk => E (f 0)) = a at hf ⊢
    generalize cnt (fun π : Equiv.Perm Blk => E (π 0)) = b at hp ⊢
    generalize Nat.card (Blk → Blk) = F at hf ⊢
    generalize Nat.card (Equiv.Perm Blk) = G at hp ⊢
    constructor
    · intro h
      rw [h1 h] at hf hp
      omega
    · intro h
      rw [h2 h] at hf hp
      omega
  exact key

/-- C176: put all functions, or all permutations, of the 16-octet blocks in place of AES under the first half of the key.  If the second
subkey is not used, `siv_encrypt` raises `AssertionError` for exactly one in 256 of them; if it is used, for exactly 3 in 512. -/
theorem C176_encrypt_share (keyOk : Bytes → Bool) (key1 key2 : Bytes) (hl : key1.length = key2.length)
    (hk1 : keyOk key1 = true) (hk2 : keyOk key2 = true) (g : Bytes → Bytes → Bytes)
    (hg : ∀ k s, s.length = 16 → (g k s).length = 16) (ads : List Bytes) (pt : Bytes) (hpt : (pt.length + 15) / 16 ≤ 2 ^ 63) :
    (¬ UsesK2 ads pt.length →
      256 * Nat.card {f : BitVec 128 → BitVec 128 //
        Model.sivEncrypt (splitLib keyOk key1 f g) (key1 ++ key2) pt ads = .error .assertion} =
          Nat.card (BitVec 128 → BitVec 128) ∧
      256 * Nat.card {π : Equiv.Perm (BitVec 128) //
        Model.sivEncrypt (splitLib keyOk key1 π g) (key1 ++ key2) pt ads = .error .assertion} =
          Nat.card (Equiv.Perm (BitVec 128))) ∧
    (UsesK2 ads pt.length →
      512 * Nat.card {f : BitVec 128 → BitVec 128 //
        Model.sivEncrypt (splitLib keyOk key1 f g) (key1 ++ key2) pt ads = .error .assertion} =
          3 * Nat.card (BitVec 128 → BitVec 128) ∧
      512 * Nat.card {π : Equiv.Perm (BitVec 128) //
        Model.sivEncrypt (splitLib keyOk key1 π g) (key1 ++ key2) pt ads = .error .assertion} =
          3 * Nat.card (Equiv.Perm (BitVec 128))) := by
  have iff (f : BitVec 128 → BitVec 128) :
      Model.sivEncrypt (splitLib keyOk key1 f g) (key1 ++ key2) pt ads = .error .assertion ↔
        (dblBits (f 0)).toNat < 2 ^ 120 ∨ (UsesK2 ads pt.length ∧ (dblBits (dblBits (f 0))).toNat < 2 ^ 120) := by
    rw [← table_short keyOk key1 g f]
    obtain ⟨h1, h2⟩ := C176_encrypt _ (split_law keyOk key1 g hg f) key1 key2 hl hk1 hk2 ads pt hpt
    refine ⟨fun h => ?_, h1⟩
    by_contra hc
    rw [h2 hc] at h
    cases h
  rw [Nat.card_congr (Equiv.subtypeEquivRight iff), Nat.card_congr (Equiv.subtypeEquivRight fun π : Equiv.Perm (BitVec 128) => iff π)]
  exact shares ads pt.length

/-- C176: the same shares for `siv_decrypt`, whatever the ciphertext is. -/
theorem C176_decrypt_share (keyOk : Bytes → Bool) (key1 key2 : Bytes) (hl : key1.length = key2.length)
    (hk1 : keyOk key1 = true) (hk2 : keyOk key2 = true) (g : Bytes → Bytes → Bytes)
    (hg : ∀ k s, s.length = 16 → (g k s).length = 16) (ads : List Bytes) (c : Bytes) (hc : (c.length + 15) / 16 ≤ 2 ^ 63) :
    (¬ UsesK2 ads (c.length - 16) →
      256 * Nat.card {f : BitVec 128 → BitVec 128 //
        sivDecrypt (splitLib keyOk key1 f g) (key1 ++ key2) c ads = .error .assertion} =
          Nat.card (BitVec 128 → BitVec 128) ∧
      256 * Nat.card {π : Equiv.Perm (BitVec 128) //
        sivDecrypt (splitLib keyOk key1 π g) (key1 ++ key2) c ads = .error .assertion} =
          Nat.card (Equiv.Perm (BitVec 128))) ∧
    (UsesK2 ads (c.length - 16) →
      512 * Nat.card {f : BitVec 128 → BitVec 128 //
        sivDecrypt (splitLib keyOk key1 f g) (key1 ++ key2) c ads = .error .assertion} =
          3 * Nat.card (BitVec 128 → BitVec 128) ∧
      512 * Nat.card {π : Equiv.Perm (BitVec 128) //
        sivDecrypt (splitLib keyOk key1 π g) (key1 ++ key2) c ads = .error .assertion} =
          3 * Nat.card (Equiv.Perm (BitVec 128))) := by
  have iff (f : BitVec 128 → BitVec 128) :
      sivDecrypt (splitLib keyOk key1 f g) (key1 ++ key2) c ads = .error .assertion ↔
        (dblBits (f 0)).toNat < 2 ^ 120 ∨ (UsesK2 ads (c.length - 16) ∧ (dblBits (dblBits (f 0))).toNat < 2 ^ 120) := by
    rw [← table_short keyOk key1 g f]
    obtain ⟨h1, h2⟩ := C176_decrypt _ (split_law keyOk key1 g hg f) key1 key2 hl hk1 hk2 ads c hc
    refine ⟨fun h => ?_, h1⟩
    by_contra hn
    obtain ⟨h3, h4⟩ := h2 hn
    by_cases hp : ∃ pt, c = Spec.sivEncrypt ((splitLib keyOk key1 f g).enc key1) ((splitLib keyOk key1 f g).enc key2) ads pt
    · obtain ⟨pt, e⟩ := hp
      rw [h3 pt e] at h
      cases h
    · rw [h4 fun pt e => hp ⟨pt, e⟩] at h
      cases h
  rw [Nat.card_congr (Equiv.subtypeEquivRight iff), Nat.card_congr (Equiv.subtypeEquivRight fun π : Equiv.Perm (BitVec 128) => iff π)]
  exact shares ads (c.length - 16)

/-- Both cases occur: no headers and one block; a header of one octet; a plaintext of 17 octets. -/
example : ¬ UsesK2 [] 16 ∧ ¬ UsesK2 [List.replicate 32 1] 3 ∧ UsesK2 [[1]] 16 ∧ UsesK2 [] 17 := by
  refine ⟨?_, ?_, Or.inl ⟨[1], by simp, Or.inr (by decide)⟩, Or.inr ⟨by decide, by decide⟩⟩
  · rintro (⟨s, h, _⟩ | ⟨_, h⟩)
    · cases h
    · exact h rfl
  · rintro (⟨s, h, h'⟩ | ⟨h, _⟩)
    · rw [List.mem_singleton] at h
      subst h
      revert h'
      decide
    · omega

/-- A cipher with a short subkey and one without. -/
example : Model.sivEncrypt (toyCipher 0) (List.replicate 16 0 ++ List.replicate 16 1) [1, 2, 3] [[4]] = .error .assertion :=
  (C176_encrypt (toyCipher 0) (toyCipher_lawful _) (List.replicate 16 0) (List.replicate 16 1) rfl
    (by decide +kernel) (by decide +kernel) [[4]] [1, 2, 3] (by decide)).1
    (Or.inl (by decide +kernel))
example : ∃ c, Model.sivEncrypt (toyCipher 0x11) (List.replicate 16 0 ++ List.replicate 16 1) [1, 2, 3] [[4]] = .ok c :=
  ⟨_, (C176_encrypt (toyCipher 0x11) (toyCipher_lawful _) (List.replicate 16 0) (List.replicate 16 1) rfl
    (by decide +kernel) (by decide +kernel) [[4]] [1, 2, 3] (by decide)).2
    (by rintro (h | ⟨_, h⟩) <;> revert h <;> decide +kernel)⟩

end Cryptopy
