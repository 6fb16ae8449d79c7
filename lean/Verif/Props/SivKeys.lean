import Verif.Props.AesCmac
import Verif.Props.Siv

/-!
C152: which keys the SIV functions accept, and which parts of a key they use.
-/

namespace Cryptopy
open Model Spec

private theorem halves (k1 k2 : Bytes) (mid : Bytes) (hl : k1.length = k2.length) (h0 : k1 ≠ []) (hm : mid.length ≤ 1) :
    (k1 ++ mid ++ k2).take ((k1 ++ mid ++ k2).length / 2) = k1 ∧
    Py.sliceFrom (k1 ++ mid ++ k2) (-(((k1 ++ mid ++ k2).length / 2 : Nat) : Int)) = k2 := by
  have hpos : 0 < k1.length := List.length_pos_iff.mpr h0
  have e : (k1 ++ mid ++ k2).length / 2 = k1.length := by simp only [List.length_append]; omega
  rw [e]
  constructor
  · rw [List.append_assoc, List.take_left']; rfl
  · rw [Py.sliceFrom, Py.clampIdx, if_pos (by omega)]
    have : ((((k1 ++ mid ++ k2).length : Nat) : Int) + -(k1.length : Int)).toNat = (k1 ++ mid).length := by
      simp only [List.length_append]; omega
    rw [this, List.drop_left']; rfl

/-- C152: the middle octet of a key of odd length is not used at all: encryption and decryption are those under the two
halves without it, for every value of it. -/
theorem C152_middle_octet (aes : CipherLib) (k1 k2 : Bytes) (mid : UInt8) (hl : k1.length = k2.length) (h0 : k1 ≠ [])
    (x : Bytes) (ads : List Bytes) :
    Model.sivEncrypt aes (k1 ++ [mid] ++ k2) x ads = Model.sivEncrypt aes (k1 ++ k2) x ads ∧
    sivDecrypt aes (k1 ++ [mid] ++ k2) x ads = sivDecrypt aes (k1 ++ k2) x ads := by
  obtain ⟨h1, h2⟩ := halves k1 k2 [mid] hl h0 (by simp)
  obtain ⟨h3, h4⟩ := halves k1 k2 [] hl h0 (by simp)
  rw [List.append_nil] at h3 h4
  constructor
  · simp only [Model.sivEncrypt, h1, h2, h3, h4]
  · simp only [sivDecrypt, h1, h2, h3, h4]

/-- C152: so a text encrypted under one such key is decrypted under every other. -/
theorem C152_other_middle (aes : CipherLib) (h : LawfulCipher aes) (k1 k2 : Bytes) (mid mid' : UInt8)
    (hl : k1.length = k2.length) (h0 : k1 ≠ []) (pt c : Bytes) (ads : List Bytes)
    (he : Model.sivEncrypt aes (k1 ++ [mid] ++ k2) pt ads = .ok c) :
    sivDecrypt aes (k1 ++ [mid'] ++ k2) c ads = .ok pt := by
  rw [(C152_middle_octet aes k1 k2 mid' hl h0 c ads).2, ← (C152_middle_octet aes k1 k2 mid hl h0 c ads).2]
  exact C14_siv_roundtrip aes h _ ads c pt he
example := C152_other_middle (toyCipher 0x11) (toyCipher_lawful _) (List.replicate 16 0) (List.replicate 16 0) 7 8 rfl (by decide)
  [1, 2, 3]
  ((Model.sivEncrypt (toyCipher 0x11) (List.replicate 16 0 ++ [7] ++ List.replicate 16 0) [1, 2, 3] [[4]]).toOption.getD []) [[4]]
  (by decide +kernel)

private theorem stream_err (aes : CipherLib) (key2 iv : Bytes) (k : Nat) : ∀ i x e,
    sivStream aes key2 iv i k x = .error e → e = .assertion := by
  induction k with
  | zero => intro i x e h; cases h
  | succ k ih =>
    intro i x e h
    rw [sivStream] at h
    cases hb : sivCounterBlock iv i with
    | ok b => rw [hb] at h; exact ih _ _ _ h
    | error e' =>
      rw [hb] at h
      injection h with h
      subst h
      rw [sivCounterBlock] at hb
      generalize (stringToInt iv &&& 0xffffffffffffffff7fffffff7fffffff) + i = n at hb
      have key : ∀ o : Bytes, padToStep o (some 16) = .error e' → e' = .assertion := by
        intro o ho
        rw [padToStep] at ho
        simp only at ho
        split at ho
        · cases ho
        · split at ho
          · cases ho
          · injection ho with ho; exact ho.symm
      rw [intToString] at hb
      split at hb
      · exact key _ hb
      · split at hb
        · exact key _ hb
        · omega

private theorem xor_err (a b : Bytes) (e : PyErr) (h : Model.xor a b = .error e) : e = .assertion := by
  rw [xor_eq] at h
  split at h
  · cases h
  · injection h with h; exact h.symm

/-- The sizes of AES keys. -/
def AesKeySizes (aes : CipherLib) : Prop := ∀ k : Bytes, aes.keyOk k = true ↔ k.length = 16 ∨ k.length = 24 ∨ k.length = 32

private theorem half_lengths (key : Bytes) :
    (key.take (key.length / 2)).length = key.length / 2 ∧
    (2 ≤ key.length → (Py.sliceFrom key (-((key.length / 2 : Nat) : Int))).length = key.length / 2) ∧
    (key.length < 2 → (Py.sliceFrom key (-((key.length / 2 : Nat) : Int))).length < 2) := by
  refine ⟨by rw [List.length_take]; omega, fun h => ?_, fun h => ?_⟩
  · rw [Py.sliceFrom, Py.clampIdx, if_pos (by omega), List.length_drop]; omega
  · rw [Py.sliceFrom, List.length_drop]; omega

/-- C152: with AES the functions raise `ValueError` exactly if the length of the key is not 32, 33, 48, 49, 64 or 65,
whatever the other arguments are. -/
theorem C152_key_sizes (aes : CipherLib) (h : LawfulCipher aes) (hs : AesKeySizes aes) (key x : Bytes) (ads : List Bytes) :
    (Model.sivEncrypt aes key x ads = .error .value ↔ key.length ∉ [32, 33, 48, 49, 64, 65]) ∧
    (sivDecrypt aes key x ads = .error .value ↔ key.length ∉ [32, 33, 48, 49, 64, 65]) := by
  obtain ⟨h1, h2, h3⟩ := half_lengths key
  simp only [List.mem_cons, List.not_mem_nil, or_false, not_or]
  have hk1 := hs (key.take (key.length / 2))
  have hk2 := hs (Py.sliceFrom key (-((key.length / 2 : Nat) : Int)))
  rw [Model.sivEncrypt, sivDecrypt]
  generalize key.take (key.length / 2) = key1 at *
  generalize Py.sliceFrom key (-((key.length / 2 : Nat) : Int)) = key2 at *
  by_cases hlen : key.length / 2 = 16 ∨ key.length / 2 = 24 ∨ key.length / 2 = 32
  · have hok1 := hk1.mpr (by omega)
    have hok2 := hk2.mpr (by have := h2 (by omega); omega)
    obtain ⟨-, -, hse⟩ := C13_s2v_rfc5297 aes h key1 hok1 (ads ++ [x])
    constructor
    · refine iff_of_false ?_ (by omega)
      intro he
      cases hv : Model.s2v aes key1 (ads ++ [x]) with
      | error e =>
        rw [hv] at he
        injection he with he
        rw [he] at hv
        exact absurd (hse _ hv) (by simp)
      | ok iv =>
        rw [hv] at he
        simp only [if_pos hok2] at he
        cases hst : sivStream aes key2 iv 0 ((x.length + 16 - 1) / 16) [] with
        | error e =>
          rw [hst] at he
          injection he with he
          rw [he] at hst
          exact absurd (stream_err _ _ _ _ _ _ _ hst) (by simp)
        | ok z =>
          rw [hst] at he
          simp only at he
          cases hx : Model.xor x (z.take x.length) with
          | error e =>
            rw [hx] at he
            injection he with he
            rw [he] at hx
            exact absurd (xor_err _ _ _ hx) (by simp)
          | ok c => rw [hx] at he; cases he
    · refine iff_of_false ?_ (by omega)
      intro he
      rw [if_pos hok2] at he
      cases hst : sivStream aes key2 (x.take 16) 0 (((x.drop 16).length + 16 - 1) / 16) [] with
      | error e =>
        rw [hst] at he
        injection he with he
        rw [he] at hst
        exact absurd (stream_err _ _ _ _ _ _ _ hst) (by simp)
      | ok z =>
        rw [hst] at he
        simp only at he
        cases hx : Model.xor (x.drop 16) (z.take (x.drop 16).length) with
        | error e =>
          rw [hx] at he
          injection he with he
          rw [he] at hx
          exact absurd (xor_err _ _ _ hx) (by simp)
        | ok pt =>
          rw [hx] at he
          simp only at he
          cases hv : Model.s2v aes key1 (ads ++ [pt]) with
          | error e =>
            rw [hv] at he
            injection he with he
            rw [he] at hv
            exact absurd ((C13_s2v_rfc5297 aes h key1 hok1 (ads ++ [pt])).2.2 _ hv) (by simp)
          | ok t =>
            rw [hv] at he
            simp only at he
            split at he <;> cases he
  · have hno1 : aes.keyOk key1 = false := by
      rw [← Bool.not_eq_true, hk1]; omega
    have hno2 : aes.keyOk key2 = false := by
      rw [← Bool.not_eq_true, hk2]
      rcases Nat.lt_or_ge key.length 2 with h4 | h4
      · have := h3 h4; omega
      · have := h2 h4; omega
    have hcm : ∀ M, aesCmac aes aes key1 M = .error .value := by
      intro M; rw [aesCmac, hno1]; rfl
    constructor
    · refine iff_of_true ?_ (by omega)
      have : Model.s2v aes key1 (ads ++ [x]) = .error .value := by
        rw [Model.s2v]
        split
        · exact hcm _
        · rw [hcm]
      rw [this]
    · refine iff_of_true ?_ (by omega)
      rw [hno2]; rfl

/-- AES itself meets the hypotheses. -/
example : AesKeySizes aesLib ∧ LawfulCipher aesLib := by
  refine ⟨fun k => ?_, C147_lawful⟩
  simp [aesLib, or_assoc]
/-- Two keys of 33 octets that differ only in the middle. -/
example (x : Bytes) (ads : List Bytes) :
    Model.sivEncrypt aesLib (List.replicate 16 1 ++ [7] ++ List.replicate 16 2) x ads =
    Model.sivEncrypt aesLib (List.replicate 16 1 ++ [8] ++ List.replicate 16 2) x ads := by
  rw [(C152_middle_octet aesLib (.replicate 16 1) (.replicate 16 2) 7 rfl (by simp) x ads).1, (C152_middle_octet aesLib (.replicate 16 1) (.replicate 16 2) 8 rfl (by simp) x ads).1]

end Cryptopy
