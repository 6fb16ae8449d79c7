import Verif.Props.CmacTags
import Verif.Lemmas.Aes
import Verif.Model.Sboxes
import Mathlib.Data.Set.Finite.List

/-!
C147: AES itself in place of an arbitrary block cipher.
-/

namespace Cryptopy
open Model (CipherLib aesCmac sivEncrypt sivDecrypt)
open Spec (cmac cmacK1 cmacK2 beBytes)

/-- The module `Crypto.Cipher.AES`: keys of 16, 24 or 32 octets, and the cipher of FIPS 197. -/
def aesLib : CipherLib where
  keyOk k := k.length == 16 || k.length == 24 || k.length == 32
  blockSize := 16
  enc := Spec.Aes.encrypt

/-- AES meets what the other theorems ask of the cipher module. -/
theorem C147_lawful : LawfulCipher aesLib := ⟨rfl, fun key b _ => Spec.Aes.length_encrypt key b⟩

/-- The table of `analysis/sboxes.py` is the one AES uses. -/
theorem C147_table : Model.aesSbox = Spec.Aes.sboxTable.map UInt8.toNat := by decide +kernel

private theorem inj (key : Bytes) : InjectiveOn16 (aesLib.enc key) :=
  fun _ _ ha hb h => Spec.Aes.encrypt_injective key ha hb h

private theorem finite16 : {b : Bytes | b.length = 16}.Finite := by
  have : Finite UInt8 := Finite.of_injective (fun a : UInt8 => (⟨a.toNat, a.toNat_lt⟩ : Fin 256)) fun a b h =>
    UInt8.toNat_inj.mp (Fin.mk.inj h)
  exact List.finite_length_eq UInt8 16

/-- C147: under every key every block is the encryption of exactly one block. -/
theorem C147_permutation (key c : Bytes) (hc : c.length = 16) :
    ∃! b : Bytes, b.length = 16 ∧ aesLib.enc key b = c := by
  have hb := (finite16.injOn_iff_bijOn_of_mapsTo (f := aesLib.enc key)
    (fun b _ => Spec.Aes.length_encrypt key b)).mp fun a ha b hb h => inj key a b ha hb h
  obtain ⟨b, h1, h2⟩ := hb.surjOn hc
  exact ⟨b, ⟨h1, h2⟩, fun b' h => inj key _ _ h.1 h1 (h.2.trans h2.symm)⟩
example := C147_permutation (beBytes 16 5) (List.replicate 16 0xaa) rfl

/-- C147: with AES, two different messages of one block, or of less than one block, never have the same tag. -/
theorem C147_distinct (key M M' t : Bytes) (hM : M.length = 16 ∧ M'.length = 16 ∨ M.length < 16 ∧ M'.length < 16)
    (h : aesCmac aesLib aesLib key M = .ok t) (h' : aesCmac aesLib aesLib key M' = .ok t) : M = M' := by
  rcases hM with ⟨h1, h2⟩ | ⟨h1, h2⟩
  · exact C117_one_block aesLib aesLib C147_lawful C147_lawful key (inj key) [] M M' [] t rfl h1 h2
      (by simpa using h) (by simpa using h')
  · exact C117_last_block aesLib aesLib C147_lawful C147_lawful key (inj key) [] M M' t rfl h1 h2 (.inl rfl)
      (by simpa using h) (by simpa using h')

/-- C147: whoever has the key can complete any whole blocks to a message with any tag, and in one way. -/
theorem C147_choose_tag (key A t : Bytes) (hk : aesLib.keyOk key = true)
    (hg : 2 ^ 120 ≤ (cmacK1 (aesLib.enc key)).toNat) (hA : A.length % 16 = 0) (ht : t.length = 16) :
    ∃! B : Bytes, B.length = 16 ∧ aesCmac aesLib aesLib key (A ++ B) = .ok t := by
  have val : ∀ B : Bytes, B.length = 16 →
      aesCmac aesLib aesLib key (A ++ B) = .ok (cmac (aesLib.enc key) (A ++ B)) := by
    intro B hB
    refine (C09_cmac_rfc4493 aesLib C147_lawful key (A ++ B) hk).1 ?_
    have hl : (A ++ B).length = A.length + 16 := by rw [List.length_append, hB]
    rw [if_pos ⟨by omega, by omega⟩]
    exact hg
  have hi : ∀ B B' : Bytes, B.length = 16 → B'.length = 16 →
      cmac (aesLib.enc key) (A ++ B) = cmac (aesLib.enc key) (A ++ B') → B = B' := by
    intro B B' hB hB' h
    have e := val B hB
    have e' := val B' hB'
    rw [← h] at e'
    exact C117_one_block aesLib aesLib C147_lawful C147_lawful key (inj key) A B B' [] _ hA hB hB'
      (by simpa using e) (by simpa using e')
  have hm : ∀ B : Bytes, B.length = 16 → (cmac (aesLib.enc key) (A ++ B)).length = 16 := by
    intro B _
    exact length_cmacFrom aesLib C147_lawful key _ _ _ _ (by simp)
  have hb := (finite16.injOn_iff_bijOn_of_mapsTo (f := fun B => cmac (aesLib.enc key) (A ++ B))
    (fun b h => hm b h)).mp fun a ha b hb h => hi a b ha hb h
  obtain ⟨B, h1, h2⟩ := hb.surjOn ht
  refine ⟨B, ⟨h1, ?_⟩, fun B' h => ?_⟩
  · rw [val B h1]; exact congrArg _ h2
  · have := h.2
    rw [val B' h.1, Except.ok.injEq] at this
    exact hi _ _ h.1 h1 (this.trans h2.symm)

/-- The CMAC subkeys from the encryption of the zero block. -/
private theorem bits_of (key : Bytes) (n : Nat) (h : aesLib.enc key (List.replicate 16 0) = beBytes 16 n) :
    cmacK1 (aesLib.enc key) = Spec.dblBits (Spec.toBits (beBytes 16 n)) ∧
    cmacK2 (aesLib.enc key) = Spec.dblBits (Spec.dblBits (Spec.toBits (beBytes 16 n))) := by
  constructor <;> simp only [cmacK1, cmacK2, h]

private theorem none_of (key : Bytes) (hk : aesLib.keyOk key = true) (h1 : (cmacK1 (aesLib.enc key)).toNat < 2 ^ 120)
    (h2 : (cmacK2 (aesLib.enc key)).toNat < 2 ^ 120) (M : Bytes) :
    aesCmac aesLib aesLib key M = .error .assertion := by
  refine (C09_cmac_rfc4493 aesLib C147_lawful key M hk).2 ?_
  split
  · exact h1
  · exact h2

private theorem e332 : aesLib.enc (beBytes 16 332) (List.replicate 16 0) =
    beBytes 16 0x803c5470375487fa1b71eb25cdd9a01d := by decide +kernel
private theorem e643 : aesLib.enc (beBytes 16 643) (List.replicate 16 0) =
    beBytes 16 0xc0222cfb7f146ab8e7fe4aedb157ba54 := by decide +kernel
private theorem e1195 : aesLib.enc (beBytes 16 1195) (List.replicate 16 0) =
    beBytes 16 0x0050b88ce2a222f5cf909b4f2a04dc59 := by decide +kernel
private theorem e358 : aesLib.enc (beBytes 24 358) (List.replicate 16 0) =
    beBytes 16 0x0027e72395193a2463d99832e099b70d := by decide +kernel
private theorem e1364 : aesLib.enc (beBytes 32 1364) (List.replicate 16 0) =
    beBytes 16 0x8003f488f3940bae37ae4442b7f78817 := by decide +kernel

/-- C147: there are keys of each size with which `aes_cmac` raises `AssertionError` for every message. -/
theorem C147_no_tag (M : Bytes) :
    aesCmac aesLib aesLib (beBytes 16 332) M = .error .assertion ∧
    aesCmac aesLib aesLib (beBytes 24 358) M = .error .assertion ∧
    aesCmac aesLib aesLib (beBytes 32 1364) M = .error .assertion := by
  refine ⟨none_of _ (by decide +kernel) ?_ ?_ M, none_of _ (by decide +kernel) ?_ ?_ M,
    none_of _ (by decide +kernel) ?_ ?_ M⟩
  · rw [(bits_of _ _ e332).1]; decide +kernel
  · rw [(bits_of _ _ e332).2]; decide +kernel
  · rw [(bits_of _ _ e358).1]; decide +kernel
  · rw [(bits_of _ _ e358).2]; decide +kernel
  · rw [(bits_of _ _ e1364).1]; decide +kernel
  · rw [(bits_of _ _ e1364).2]; decide +kernel

/-- C147: with this key exactly the messages of one or more whole blocks have no tag. -/
theorem C147_no_whole_blocks (M : Bytes) :
    aesCmac aesLib aesLib (beBytes 16 1195) M =
      if M ≠ [] ∧ M.length % 16 = 0 then .error .assertion else .ok (cmac (aesLib.enc (beBytes 16 1195)) M) := by
  have h := C09_cmac_rfc4493 aesLib C147_lawful (beBytes 16 1195) M (by decide +kernel)
  have e : M.length ≠ 0 ↔ M ≠ [] := by rw [Ne, List.length_eq_zero_iff]
  simp only [e] at h
  split
  · next hc =>
    refine h.2 ?_
    rw [if_pos hc, (bits_of _ _ e1195).1]; decide +kernel
  · next hc =>
    refine h.1 ?_
    rw [if_neg hc, (bits_of _ _ e1195).2]; decide +kernel

/-- C147: with this key exactly the messages of one or more whole blocks have a tag. -/
theorem C147_only_whole_blocks (M : Bytes) :
    aesCmac aesLib aesLib (beBytes 16 643) M =
      if M ≠ [] ∧ M.length % 16 = 0 then .ok (cmac (aesLib.enc (beBytes 16 643)) M) else .error .assertion := by
  have h := C09_cmac_rfc4493 aesLib C147_lawful (beBytes 16 643) M (by decide +kernel)
  have e : M.length ≠ 0 ↔ M ≠ [] := by rw [Ne, List.length_eq_zero_iff]
  simp only [e] at h
  split
  · next hc =>
    refine h.1 ?_
    rw [if_pos hc, (bits_of _ _ e643).1]; decide +kernel
  · next hc =>
    refine h.2 ?_
    rw [if_neg hc, (bits_of _ _ e643).2]; decide +kernel

/-- C147: with such a key as its first half `siv_encrypt` encrypts nothing and `siv_decrypt` accepts nothing. -/
theorem C147_siv (k pt c : Bytes) (ad : List Bytes) (hk : k.length = 16) :
    sivEncrypt aesLib (beBytes 16 332 ++ k) pt ad = .error .assertion ∧
    ∀ p, sivDecrypt aesLib (beBytes 16 332 ++ k) c ad ≠ .ok p := by
  have hs : ∀ l : List Bytes, Model.s2v aesLib (beBytes 16 332) l = .error .assertion := by
    intro l
    rw [Model.s2v]
    simp only [(C147_no_tag _).1]
    split <;> rfl
  have e : (beBytes 16 332 ++ k).take ((beBytes 16 332 ++ k).length / 2) = beBytes 16 332 := by
    rw [List.length_append, hk, length_beBytes, List.take_append_of_le_length (by rw [length_beBytes])]
    exact List.take_of_length_le (by rw [length_beBytes])
  constructor
  · simp only [sivEncrypt, e, hs]
  · intro p h
    simp only [sivDecrypt, e, hs] at h
    split at h
    · split at h
      · cases h
      · split at h <;> cases h
    · cases h

/-! Non-trivial cases: FIPS 197 appendix C.1, the subkeys of the all-zero key, and a tag that is chosen. -/

example : aesLib.enc (beBytes 16 0x000102030405060708090a0b0c0d0e0f) (beBytes 16 0x00112233445566778899aabbccddeeff) =
    beBytes 16 0x69c4e0d86a7b0430d8cdb78070b4c55a := by decide +kernel

private theorem e0 : aesLib.enc (beBytes 16 0) (List.replicate 16 0) =
    beBytes 16 0x66e94bd4ef8a2c3b884cfa59ca342b2e := by decide +kernel

example : ∃! B : Bytes, B.length = 16 ∧ aesCmac aesLib aesLib (beBytes 16 0) (List.replicate 32 7 ++ B) =
    .ok (List.replicate 16 0xff) :=
  C147_choose_tag _ _ _ (by decide +kernel) (by rw [(bits_of _ _ e0).1]; decide +kernel) (by decide) (by decide)

/-- The hypotheses of `C147_distinct` hold for the two messages of one block. -/
example (M : Bytes) (hM : M.length = 16) : ∃ t, aesCmac aesLib aesLib (beBytes 16 643) M = .ok t := by
  refine ⟨_, (C147_only_whole_blocks M).trans (if_pos ⟨?_, by omega⟩)⟩
  rintro rfl
  simp at hM

end Cryptopy
