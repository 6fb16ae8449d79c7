import Verif.Lemmas.Gf128

/-!
Properties C09 to C17: AES-CMAC and AES-SIV, for an arbitrary 128-bit block cipher.
-/

namespace Cryptopy
open Polynomial
open Model (CipherLib aesCmac subkey dbl sivCounterBlock sivStream sivDecrypt intToString)
open Spec (beValue beBytes toBits ofBits dblBits cmacK1 cmacK2 cmacFrom cmac pad10 xorBytes
  bitPoly polyOf gf128 sivQ ctrStream Canonical)

/-- Both CMAC subkeys have a non-zero first octet, which is what `aes_cmac` needs to work. -/
def GoodSubkeys (E : Bytes → Bytes) : Prop :=
  2 ^ 120 ≤ (cmacK1 E).toNat ∧ 2 ^ 120 ≤ (cmacK2 E).toNat

/-- A toy 16 octet block cipher used to show that hypotheses can be met: octet-wise xor with a
constant. -/
def toyCipher (c : UInt8) : CipherLib where
  keyOk k := k.length == 16
  blockSize := 16
  enc _ b := b.map (· ^^^ c)

theorem toyCipher_lawful (c : UInt8) : LawfulCipher (toyCipher c) :=
  ⟨rfl, fun _ b h => by simpa [toyCipher] using h⟩

/-- C09: `aes_cmac` is RFC 4493 CMAC, except that it raises `AssertionError` exactly when the
subkey needed for this message is below `2^120`. -/
theorem C09_cmac_rfc4493 (aes : CipherLib) (h : LawfulCipher aes) (key M : Bytes)
    (hk : aes.keyOk key = true) :
    let needed := if M.length ≠ 0 ∧ M.length % 16 = 0 then cmacK1 (aes.enc key)
      else cmacK2 (aes.enc key)
    (2 ^ 120 ≤ needed.toNat → aesCmac aes aes key M = .ok (cmac (aes.enc key) M)) ∧
    (needed.toNat < 2 ^ 120 → aesCmac aes aes key M = .error .assertion) := by
  intro needed
  have e := aesCmac_eq aes aes h h key M hk hk
  constructor
  · intro hn
    rw [e, if_neg (by simpa [needed] using hn)]; rfl
  · intro hn
    rw [e, if_pos (by simpa [needed] using hn)]

/-- C09: a key that the cipher module refuses raises `ValueError`. -/
theorem C09_cmac_bad_key (aes ciph : CipherLib) (key M : Bytes) (hk : ciph.keyOk key = false) :
    aesCmac aes ciph key M = .error .value := by
  simp [aesCmac, hk]

example : LawfulCipher (toyCipher 0x11) ∧ (toyCipher 0x11).keyOk (List.replicate 16 0) = true ∧
    GoodSubkeys ((toyCipher 0x11).enc []) :=
  ⟨toyCipher_lawful _, by decide +kernel, by unfold GoodSubkeys; decide +kernel⟩
/-- With this cipher the subkey `K1` is zero and CMAC of a complete block raises. -/
example : aesCmac (toyCipher 0) (toyCipher 0) (List.replicate 16 0) (List.replicate 16 5) =
    .error .assertion := by decide +kernel
example : aesCmac (toyCipher 0x11) (toyCipher 0x11) (List.replicate 16 0) [7] =
    .ok (cmac ((toyCipher 0x11).enc []) [7]) :=
  (C09_cmac_rfc4493 _ (toyCipher_lawful _) _ _ (by decide +kernel)).1 (by decide +kernel)

private theorem mul_modByMonic_mod (p : (ZMod 2)[X]) (hf : gf128.Monic) :
    (X * (p %ₘ gf128)) %ₘ gf128 = (X * p) %ₘ gf128 := by
  apply Polynomial.modByMonic_eq_of_dvd_sub hf
  have := Polynomial.modByMonic_add_div p gf128
  refine ⟨-(X * (p /ₘ gf128)), ?_⟩
  linear_combination X * this

private theorem gf128_monic : gf128.Monic := by
  have hg : gf128 = X ^ 128 + bitPoly 128 0x87 := by unfold gf128; rw [bitPoly_const]
  rw [hg]; exact monic_X_pow_add (bitPoly_degree_lt _ _)

/-- C10: the subkeys are `x·L` and `x²·L` in `GF(2^128)`, written without leading zero octets. -/
theorem C10_subkeys_gf128 (aes : CipherLib) (h : LawfulCipher aes) (key : Bytes)
    (hk : aes.keyOk key = true) :
    let L := aes.enc key (List.replicate 16 0)
    ∃ s1 s2, subkey aes key = .ok (s1, s2) ∧ Canonical s1 ∧ Canonical s2 ∧
      bitPoly 128 (beValue s1) = (X * polyOf L) %ₘ gf128 ∧
      bitPoly 128 (beValue s2) = (X ^ 2 * polyOf L) %ₘ gf128 ∧
      beValue s1 < 2 ^ 128 ∧ beValue s2 < 2 ^ 128 := by
  intro L
  have hl : L.length = 16 := h.length _ _ (by simp)
  have e1 : Model.dblInt (Model.stringToInt L) = (cmacK1 (aes.enc key)).toNat := by
    rw [stringToInt_eq, ← toBits_toNat hl, dblInt_eq]; rfl
  have e2 : Model.dblInt (cmacK1 (aes.enc key)).toNat = (cmacK2 (aes.enc key)).toNat := by
    rw [dblInt_eq]; rfl
  obtain ⟨s1, h1, c1, v1⟩ := intToString_none (cmacK1 (aes.enc key)).toNat
  obtain ⟨s2, h2, c2, v2⟩ := intToString_none (cmacK2 (aes.enc key)).toNat
  have p1 : bitPoly 128 (beValue s1) = (X * polyOf L) %ₘ gf128 := by
    rw [v1, cmacK1, bitPoly_dblBits, polyOf, ← toBits_toNat hl]
  refine ⟨s1, s2, ?_, c1, c2, p1, ?_, by rw [v1]; exact BitVec.isLt _, by rw [v2]; exact BitVec.isLt _⟩
  · rw [subkey, if_pos hk, if_pos h.blockSize]
    simp only [h.blockSize]
    rw [show aes.enc key (List.replicate 16 0) = L from rfl, e1, h1, e2, h2]
  · rw [v2, cmacK2, bitPoly_dblBits, ← v1, p1, mul_modByMonic_mod _ gf128_monic, pow_two, mul_assoc]

example : subkey (toyCipher 0x80) (List.replicate 16 0) =
    .ok ([1, 1, 1, 1, 1, 1, 1, 1, 1, 1, 1, 1, 1, 1, 1, 0x87],
      [2, 2, 2, 2, 2, 2, 2, 2, 2, 2, 2, 2, 2, 2, 3, 0x0e]) := by decide +kernel

/-- C11: with `CIPH` given, the chaining uses it but the subkeys still come from AES. -/
theorem C11_cmac_substitute_cipher (aes ciph : CipherLib) (ha : LawfulCipher aes)
    (hc : LawfulCipher ciph) (key M : Bytes) (hka : aes.keyOk key = true)
    (hkc : ciph.keyOk key = true) (r : Bytes) (hr : aesCmac aes ciph key M = .ok r) :
    r = cmacFrom (ciph.enc key) (cmacK1 (aes.enc key)) (cmacK2 (aes.enc key))
      (List.replicate 16 0) M := by
  rw [aesCmac_eq aes ciph ha hc key M hka hkc] at hr
  by_cases hlt : (if M.length ≠ 0 ∧ M.length % 16 = 0 then cmacK1 (aes.enc key)
      else cmacK2 (aes.enc key)).toNat < 2 ^ 120
  · rw [if_pos hlt] at hr; simp at hr
  · rw [if_neg hlt] at hr
    exact (Except.ok.inj hr).symm
example := C11_cmac_substitute_cipher (toyCipher 0x11) (toyCipher 0x22) (toyCipher_lawful _) (toyCipher_lawful _)
  (List.replicate 16 0) [7]
  (by decide +kernel) (by decide +kernel) ((aesCmac (toyCipher 0x11) (toyCipher 0x22) (List.replicate 16 0) [7]).toOption.getD [])
  (by decide +kernel)

/-- C11: so the result need not be the CMAC of the substitute cipher. -/
theorem C11_cmac_substitute_differs :
    ∃ (aes ciph : CipherLib) (key M r : Bytes), LawfulCipher aes ∧ LawfulCipher ciph ∧
      aesCmac aes ciph key M = .ok r ∧ r ≠ cmac (ciph.enc key) M := by
  refine ⟨toyCipher 0x11, toyCipher 0x22, List.replicate 16 0, [],
    cmacFrom ((toyCipher 0x22).enc (List.replicate 16 0))
      (cmacK1 ((toyCipher 0x11).enc (List.replicate 16 0)))
      (cmacK2 ((toyCipher 0x11).enc (List.replicate 16 0))) (List.replicate 16 0) [],
    toyCipher_lawful _,
    toyCipher_lawful _, ?_, ?_⟩
  · exact (aesCmac_eq _ _ (toyCipher_lawful _) (toyCipher_lawful _) _ _ (by decide +kernel)
      (by decide +kernel)).trans (if_neg (by decide +kernel))
  · rw [cmac, cmacFrom, if_pos (by decide), cmacFrom, if_pos (by decide)]
    decide +kernel

/-- C12: `dbl` is multiplication by `x` in `GF(2^128)` on 16 octet strings, a bijection there, and
refuses other lengths. -/
theorem C12_dbl (s : Bytes) :
    (s.length ≠ 16 → dbl s = .error .assertion) ∧
    (s.length = 16 →
      (∃ r, dbl s = .ok r ∧ r.length = 16 ∧ polyOf r = (X * polyOf s) %ₘ gf128) ∧
      (∃! t : Bytes, t.length = 16 ∧ dbl t = .ok s)) := by
  constructor
  · intro h; rw [dbl, if_neg h]
  · intro h
    constructor
    · refine ⟨_, dbl_eq s h, by simp, ?_⟩
      rw [polyOf, beValue_ofBits, bitPoly_dblBits, toBits_toNat h, polyOf]
    · obtain ⟨b, hb⟩ := dblBits_surjective (toBits s)
      refine ⟨ofBits b, ⟨by simp, ?_⟩, ?_⟩
      · rw [dbl_eq _ (by simp), toBits_ofBits, hb, ofBits_toBits h]
      · rintro t ⟨ht, he⟩
        rw [dbl_eq t ht] at he
        simp only [Except.ok.injEq] at he
        have : dblBits (toBits t) = dblBits b := by
          rw [hb, ← he, toBits_ofBits]
        rw [← dblBits_injective this, ofBits_toBits ht]

example : dbl (0x80 :: List.replicate 15 0) = .ok (List.replicate 15 0 ++ [0x87]) := by
  decide +kernel

/-! ### S2V -/

section s2v
variable (aes : CipherLib) (h : LawfulCipher aes) (key : Bytes) (hk : aes.keyOk key = true)
include h hk

private theorem cmac_ok_or (M : Bytes) :
    aesCmac aes aes key M = .ok (cmac (aes.enc key) M) ∨
      (aesCmac aes aes key M = .error .assertion ∧ ¬ GoodSubkeys (aes.enc key)) := by
  rw [aesCmac_eq aes aes h h key M hk hk]
  by_cases hlt : (if M.length ≠ 0 ∧ M.length % 16 = 0 then cmacK1 (aes.enc key)
      else cmacK2 (aes.enc key)).toNat < 2 ^ 120
  · right
    refine ⟨if_pos hlt, ?_⟩
    rintro ⟨g1, g2⟩
    split at hlt <;> omega
  · left; rw [if_neg hlt]; rfl

omit hk in
private theorem length_cmac (M : Bytes) : (cmac (aes.enc key) M).length = 16 :=
  length_cmacFrom aes h key _ _ _ _ (by simp)

private theorem s2vLoop_ok_or (l : List Bytes) (d : Bytes) (hd : d.length = 16) :
    (Model.s2vLoop aes key l d = .ok (Spec.s2vChain (cmac (aes.enc key)) d l) ∨
      (Model.s2vLoop aes key l d = .error .assertion ∧ ¬ GoodSubkeys (aes.enc key))) ∧
    (Spec.s2vChain (cmac (aes.enc key)) d l).length = 16 := by
  induction l generalizing d with
  | nil => simp [Model.s2vLoop, Spec.s2vChain, hd]
  | cons S l ih =>
    have hl : (xorBytes (ofBits (dblBits (toBits d))) (cmac (aes.enc key) S)).length = 16 := by
      simp [length_xorBytes, length_cmac aes h key]
    obtain ⟨i1, i2⟩ := ih _ hl
    refine ⟨?_, by rw [Spec.s2vChain]; exact i2⟩
    rw [Model.s2vLoop, dbl_eq d hd]
    simp only
    rcases cmac_ok_or aes h key hk S with hc | ⟨hc, hb⟩
    · rw [hc]
      simp only
      rw [xor_eq, if_pos (by simp [length_cmac aes h key])]
      simp only
      rw [Spec.s2vChain]
      exact i1
    · rw [hc]; exact Or.inr ⟨rfl, hb⟩

private theorem s2v_ok_or (ads : List Bytes) :
    (Model.s2v aes key ads = .ok (Spec.s2v (cmac (aes.enc key)) ads) ∨
      (Model.s2v aes key ads = .error .assertion ∧ ¬ GoodSubkeys (aes.enc key))) ∧
    (Spec.s2v (cmac (aes.enc key)) ads).length = 16 := by
  cases ads with
  | nil =>
    refine ⟨?_, by rw [Spec.s2v]; exact length_cmac aes h key _⟩
    rw [Model.s2v, Spec.s2v]
    simp only [List.getLast?_nil]
    exact cmac_ok_or aes h key hk _
  | cons S rest =>
    refine ⟨?_, by rw [Spec.s2v]; exact length_cmac aes h key _⟩
    rw [Model.s2v, List.getLast?_eq_getLast_of_ne_nil (by simp)]
    simp only
    rcases cmac_ok_or aes h key hk (List.replicate 16 0) with hc | ⟨hc, hb⟩
    · rw [hc]
      simp only
      obtain ⟨i1, i2⟩ := s2vLoop_ok_or aes h key hk (S :: rest).dropLast _ (length_cmac aes h key (List.replicate 16 0))
      rcases i1 with i1 | ⟨i1, hb⟩
      · rw [i1]
        simp only [Spec.s2v]
        set D := Spec.s2vChain (cmac (aes.enc key)) (cmac (aes.enc key) (List.replicate 16 0))
          (S :: rest).dropLast with hD
        set last := (S :: rest).getLast (by simp) with hlast
        by_cases h16 : last.length ≥ 16
        · rw [if_pos h16, if_pos h16]
          have c1 : Py.sliceFrom last (-16) = last.drop (last.length - D.length) := by
            simp only [Py.sliceFrom, Py.clampIdx, i2]
            rw [if_pos (by decide)]
            congr 1
            omega
          have c2 : Py.sliceTo last (-16) = last.take (last.length - D.length) := by
            simp only [Py.sliceTo, Py.clampIdx, i2]
            rw [if_pos (by decide)]
            congr 1
            omega
          rw [c1, c2, xor_eq, if_pos (by simp [i2]; omega)]
          simp only
          exact cmac_ok_or aes h key hk _
        · rw [if_neg h16, if_neg h16, dbl_eq D i2]
          simp only
          rw [xor_eq, pad_eq, if_pos (by rw [length_pad10 _ (by omega)]; simp)]
          simp only
          exact cmac_ok_or aes h key hk _
      · rw [i1]; exact Or.inr ⟨rfl, hb⟩
    · rw [hc]; exact Or.inr ⟨rfl, hb⟩

end s2v

/-- C13: `s2v` is S2V of RFC 5297 over RFC 4493 CMAC.  If both subkeys have a non-zero first octet
it always returns; in any case a returned value is the RFC value and the only exception is
`AssertionError`. -/
theorem C13_s2v_rfc5297 (aes : CipherLib) (h : LawfulCipher aes) (key : Bytes)
    (hk : aes.keyOk key = true) (ads : List Bytes) :
    (GoodSubkeys (aes.enc key) →
      Model.s2v aes key ads = .ok (Spec.s2v (cmac (aes.enc key)) ads)) ∧
    (∀ r, Model.s2v aes key ads = .ok r → r = Spec.s2v (cmac (aes.enc key)) ads) ∧
    (∀ e, Model.s2v aes key ads = .error e → e = .assertion) := by
  obtain ⟨h1, _⟩ := s2v_ok_or aes h key hk ads
  refine ⟨?_, ?_, ?_⟩
  · intro g
    rcases h1 with h1 | ⟨_, hb⟩
    · exact h1
    · exact absurd g hb
  · intro r hr
    rcases h1 with h1 | ⟨h1, _⟩
    · rw [h1] at hr; simpa using hr.symm
    · rw [h1] at hr; simp at hr
  · intro e he
    rcases h1 with h1 | ⟨h1, _⟩
    · rw [h1] at he; simp at he
    · rw [h1] at he; simpa using he.symm

example : GoodSubkeys ((toyCipher 0x11).enc (List.replicate 16 0)) := by
  unfold GoodSubkeys; decide +kernel

/-! ### SIV -/

private theorem cmacLoop_length (C : CipherLib) (h : LawfulCipher C) (key Mp : Bytes) (i k : Nat) (x r : Bytes)
    (hx : x.length = 16) (hr : Model.cmacLoop C key Mp i k x = .ok r) : r.length = 16 := by
  induction k generalizing i x with
  | zero => simp [Model.cmacLoop] at hr; rw [← hr]; exact hx
  | succ k ih =>
    rw [Model.cmacLoop] at hr
    split at hr
    · simp at hr
    · next y hy =>
      rw [xor_eq] at hy
      split at hy
      · simp only [Except.ok.injEq] at hy
        exact ih _ _ (h.length _ _ (by rw [← hy, length_xorBytes]; omega)) hr
      · simp at hy

private theorem aesCmac_keyOk {aes : CipherLib} {key M r : Bytes}
    (hr : aesCmac aes aes key M = .ok r) : aes.keyOk key = true := by
  by_contra hk
  rw [aesCmac, if_neg hk] at hr
  simp at hr

private theorem s2v_length (aes : CipherLib) (h : LawfulCipher aes) (key : Bytes)
    (ads : List Bytes) (r : Bytes) (hr : Model.s2v aes key ads = .ok r) : r.length = 16 := by
  have hk : aes.keyOk key = true := by
    rw [Model.s2v] at hr
    split at hr
    · exact aesCmac_keyOk hr
    · split at hr
      · simp at hr
      · next d hd => exact aesCmac_keyOk hd
  obtain ⟨h1, h2⟩ := s2v_ok_or aes h key hk ads
  rcases h1 with h1 | ⟨h1, _⟩
  · rw [h1] at hr; simp only [Except.ok.injEq] at hr; rw [← hr]; exact h2
  · rw [h1] at hr; simp at hr

/-- C15: decryption returns `pt` exactly for the strings that encryption of `pt` produces. -/
theorem C15_siv_accepts_exactly (aes : CipherLib) (h : LawfulCipher aes) (key : Bytes)
    (ads : List Bytes) (c pt : Bytes) :
    sivDecrypt aes key c ads = .ok pt ↔ Model.sivEncrypt aes key pt ads = .ok c := by
  constructor
  · intro hd
    rw [sivDecrypt] at hd
    try simp only at hd
    split at hd
    · next hk2 =>
      split at hd
      · simp at hd
      · next x hx =>
        rw [xor_eq] at hd
        by_cases hl : (c.drop 16).length = (x.take (c.drop 16).length).length
        · rw [if_pos hl] at hd
          simp only at hd
          split at hd
          · simp at hd
          · next t ht =>
            split at hd
            · next hiv =>
              simp only [Except.ok.injEq] at hd
              have hlen : pt.length = (c.drop 16).length := by
                rw [← hd, length_xorBytes]; omega
              rw [hd] at ht
              rw [Model.sivEncrypt]
              try simp only
              rw [ht]
              simp only
              rw [if_pos hk2, hlen, hiv, hx]
              simp only
              rw [xor_eq, if_pos (by rw [hlen]; exact hl)]
              simp only
              rw [← hd, xorBytes_self_right _ _ (by omega), List.take_append_drop]
            · simp at hd
        · rw [if_neg hl] at hd; simp at hd
    · simp at hd
  · intro he
    rw [Model.sivEncrypt] at he
    try simp only at he
    split at he
    · simp at he
    · next iv hiv =>
      have hivl := s2v_length aes h _ _ _ hiv
      split at he
      · next hk2 =>
        split at he
        · simp at he
        · next x hx =>
          rw [xor_eq] at he
          by_cases hl : pt.length = (x.take pt.length).length
          · rw [if_pos hl] at he
            simp only [Except.ok.injEq] at he
            have hc1 : c.take 16 = iv := by
              rw [← he, List.take_append_of_le_length (by omega), List.take_of_length_le (by omega)]
            have hc2 : c.drop 16 = xorBytes pt (x.take pt.length) := by
              rw [← he, List.drop_append_of_le_length (by omega), List.drop_of_length_le (by omega)]
              simp
            have hlen : (c.drop 16).length = pt.length := by
              rw [hc2, length_xorBytes]; omega
            rw [sivDecrypt]
            try simp only
            rw [if_pos hk2, hlen, hc1, hx]
            simp only
            rw [xor_eq, if_pos (by rw [hlen]; exact hl)]
            simp only
            rw [hc2, xorBytes_self_right _ _ (by omega), hiv]
            simp
          · rw [if_neg hl] at he; simp at he
      · simp at he
example := C15_siv_accepts_exactly (toyCipher 0x11) (toyCipher_lawful _) (List.replicate 32 0)

/-- C14: decryption inverts encryption. -/
theorem C14_siv_roundtrip (aes : CipherLib) (h : LawfulCipher aes) (key : Bytes)
    (ads : List Bytes) (c pt : Bytes) (he : Model.sivEncrypt aes key pt ads = .ok c) :
    sivDecrypt aes key c ads = .ok pt :=
  (C15_siv_accepts_exactly aes h key ads c pt).mpr he

/-- C14 for the object wrapper. -/
theorem C14_aes_siv_object (aes : CipherLib) (h : LawfulCipher aes) (o : Model.AesSiv)
    (ads : List Bytes) (c pt : Bytes) (he : o.encrypt aes pt ads = .ok c) :
    o.decrypt aes c ads = .ok pt :=
  C14_siv_roundtrip aes h o.key ads c pt he
example := C14_aes_siv_object (toyCipher 0x11) (toyCipher_lawful _) ⟨List.replicate 32 0⟩

/-- C15: anything that is not an encryption output raises, and two plaintexts never share a
ciphertext. -/
theorem C15_siv_rejects (aes : CipherLib) (h : LawfulCipher aes) (key : Bytes)
    (ads : List Bytes) (c : Bytes) :
    ((∀ pt, Model.sivEncrypt aes key pt ads ≠ .ok c) ↔ ∃ e, sivDecrypt aes key c ads = .error e) ∧
    (∀ pt pt', Model.sivEncrypt aes key pt ads = .ok c → Model.sivEncrypt aes key pt' ads = .ok c →
      pt = pt') := by
  constructor
  · constructor
    · intro hn
      rcases hd : sivDecrypt aes key c ads with e | pt
      · exact ⟨e, rfl⟩
      · exact absurd ((C15_siv_accepts_exactly aes h key ads c pt).mp hd) (hn pt)
    · rintro ⟨e, he⟩ pt hpt
      rw [(C15_siv_accepts_exactly aes h key ads c pt).mpr hpt] at he
      simp at he
  · intro pt pt' h1 h2
    have e1 := (C15_siv_accepts_exactly aes h key ads c pt).mpr h1
    have e2 := (C15_siv_accepts_exactly aes h key ads c pt').mpr h2
    rw [e1] at e2
    simpa using e2
example := C15_siv_rejects (toyCipher 0x11) (toyCipher_lawful _) (List.replicate 32 0)

/-- C16: length of the ciphertext, and rejection of inputs shorter than the IV. -/
theorem C16_siv_lengths (aes : CipherLib) (h : LawfulCipher aes) (key : Bytes)
    (ads : List Bytes) (c pt : Bytes) :
    (Model.sivEncrypt aes key pt ads = .ok c → c.length = pt.length + 16) ∧
    (c.length < 16 → ∃ e, sivDecrypt aes key c ads = .error e) := by
  have h1 : ∀ pt, Model.sivEncrypt aes key pt ads = .ok c → c.length = pt.length + 16 := by
    intro pt he
    rw [Model.sivEncrypt] at he
    try simp only at he
    split at he
    · simp at he
    · next iv hiv =>
      have hivl := s2v_length aes h _ _ _ hiv
      split at he
      · split at he
        · simp at he
        · next x hx =>
          rw [xor_eq] at he
          by_cases hl : pt.length = (x.take pt.length).length
          · rw [if_pos hl] at he
            simp only [Except.ok.injEq] at he
            rw [← he, List.length_append, length_xorBytes]; omega
          · rw [if_neg hl] at he; simp at he
      · simp at he
  refine ⟨h1 pt, ?_⟩
  intro hc
  rw [← (C15_siv_rejects aes h key ads c).1]
  intro pt hpt
  have := h1 pt hpt
  omega
example := C16_siv_lengths (toyCipher 0x11) (toyCipher_lawful _) (List.replicate 32 0)

private theorem and_mask_toNat (iv : Bytes) (hiv : iv.length = 16) :
    Model.stringToInt iv &&& 0xffffffffffffffff7fffffff7fffffff = (sivQ iv).toNat := by
  have e : sivQ iv = toBits iv &&& 0xffffffffffffffff7fffffff7fffffff#128 := by
    rw [sivQ, BitVec.and_assoc]
    congr 1
  rw [e, BitVec.toNat_and, toBits_toNat hiv, stringToInt_eq]
  rfl

private theorem sivQ_le (iv : Bytes) (hiv : iv.length = 16) :
    (sivQ iv).toNat ≤ 0xffffffffffffffff7fffffff7fffffff := by
  rw [← and_mask_toNat iv hiv]
  exact Nat.and_le_right

private theorem counter_eq (iv : Bytes) (hiv : iv.length = 16) (i : Nat) (hi : i < 2 ^ 63) :
    sivCounterBlock iv i = .ok (ofBits (sivQ iv + BitVec.ofNat 128 i)) := by
  have hq := sivQ_le iv hiv
  rw [sivCounterBlock, and_mask_toNat iv hiv]
  have hlt : (sivQ iv).toNat + i < 256 ^ 16 := by norm_num at hi ⊢; omega
  obtain ⟨r, hr, hl, hv⟩ := (intToString_pad ((sivQ iv).toNat + i) (k := 16) (by norm_num)).1 hlt
  have hr' : intToString (((sivQ iv).toNat + i : Nat) : Int) (some 16) = .ok r := hr
  rw [hr']
  congr 1
  rw [← ofBits_toBits hl, toBits, hv]
  congr 1
  apply BitVec.eq_of_toNat_eq
  simp [BitVec.toNat_add]

/-- C17: counter blocks of one message are pairwise distinct, 16 octets each, and are the RFC 5297
counters. -/
theorem C17_siv_counters (iv : Bytes) (hiv : iv.length = 16) :
    (∀ i j a b, sivCounterBlock iv i = .ok a → sivCounterBlock iv j = .ok b → i ≠ j →
      a ≠ b ∧ a.length = 16) ∧
    (∀ i, i < 2 ^ 63 → sivCounterBlock iv i = .ok (ofBits (sivQ iv + BitVec.ofNat 128 i))) := by
  refine ⟨?_, fun i hi => counter_eq iv hiv i hi⟩
  intro i j a b ha hb hij
  have key : ∀ i a, sivCounterBlock iv i = .ok a →
      a.length = 16 ∧ beValue a = (Model.stringToInt iv &&& 0xffffffffffffffff7fffffff7fffffff) + i := by
    intro i a ha
    rw [sivCounterBlock] at ha
    set n := (Model.stringToInt iv &&& 0xffffffffffffffff7fffffff7fffffff) + i
    obtain ⟨p1, p2⟩ := intToString_pad n (k := 16) (by norm_num)
    by_cases hlt : n < 256 ^ 16
    · obtain ⟨s, hs, hl, hv⟩ := p1 hlt
      have hs' : intToString (n : Int) (some 16) = .ok s := hs
      rw [hs'] at ha
      simp only [Except.ok.injEq] at ha
      subst ha
      exact ⟨hl, hv⟩
    · have hs' : intToString (n : Int) (some 16) = .error .assertion := p2 hlt
      rw [hs'] at ha; simp at ha
  obtain ⟨la, va⟩ := key i a ha
  obtain ⟨lb, vb⟩ := key j b hb
  refine ⟨?_, la⟩
  rintro rfl
  omega
example := C17_siv_counters (List.replicate 16 0xff) rfl

private theorem sivStream_blocks (aes : CipherLib) (key iv : Bytes) (k i : Nat) (x0 x : Bytes)
    (h : sivStream aes key iv i k x0 = .ok x) :
    ∃ bl : List Bytes, bl.length = k ∧ (∀ j (hj : j < bl.length), sivCounterBlock iv (i + j) = .ok bl[j]) ∧
      x = x0 ++ (bl.map (aes.enc key)).flatten := by
  induction k generalizing i x0 with
  | zero =>
    rw [sivStream] at h
    refine ⟨[], rfl, by simp, ?_⟩
    simpa using h.symm
  | succ k ih =>
    rw [sivStream] at h
    split at h
    · simp at h
    · next b hb =>
      obtain ⟨bl, h1, h2, h3⟩ := ih _ _ h
      refine ⟨b :: bl, by simp [h1], ?_, by rw [h3]; simp⟩
      intro j hj
      cases j with
      | zero => exact hb
      | succ j =>
        have := h2 j (by simpa using hj)
        rwa [show i + 1 + j = i + (j + 1) by omega] at this

/-- C17: the octets added to the plaintext are the encryptions of pairwise distinct 16 octet blocks, one
for every 16 octets begun, and the blocks are consecutive counters from the masked IV, which is the first
16 octets of the output. -/
theorem C17_siv_encrypt_blocks (aes : CipherLib) (h : LawfulCipher aes) (key : Bytes) (hkey : 2 ≤ key.length)
    (ads : List Bytes) (c pt : Bytes) (he : Model.sivEncrypt aes key pt ads = .ok c) :
    ∃ bl : List Bytes, bl.length = (pt.length + 15) / 16 ∧ bl.Nodup ∧ (∀ b ∈ bl, b.length = 16) ∧
      (∀ j (hj : j < bl.length), beValue bl[j] = (sivQ (c.take 16)).toNat + j) ∧
      c.drop 16 = xorBytes pt
        ((bl.map (aes.enc (key.drop (key.length - key.length / 2)))).flatten) := by
  rw [Model.sivEncrypt] at he
  try simp only at he
  split at he
  · simp at he
  · next iv hiv =>
    have hivl := s2v_length aes h _ _ _ hiv
    split at he
    · split at he
      · simp at he
      · next x hx =>
        rw [xor_eq] at he
        by_cases hl : pt.length = (x.take pt.length).length
        · rw [if_pos hl] at he
          simp only [Except.ok.injEq] at he
          have hc1 : c.take 16 = iv := by
            rw [← he, List.take_append_of_le_length (by omega), List.take_of_length_le (by omega)]
          have hc2 : c.drop 16 = xorBytes pt (x.take pt.length) := by
            rw [← he, List.drop_append_of_le_length (by omega), List.drop_of_length_le (by omega)]
            simp
          obtain ⟨bl, h1, h2, h3⟩ := sivStream_blocks aes _ _ _ _ _ _ hx
          have h4 : ∀ j (hj : j < bl.length), bl[j].length = 16 ∧
              beValue bl[j] = (sivQ iv).toNat + j := by
            intro j hj
            have h5 := h2 j hj
            rw [Nat.zero_add, sivCounterBlock, and_mask_toNat iv hivl] at h5
            obtain ⟨p1, p2⟩ := intToString_pad ((sivQ iv).toNat + j) (k := 16) (by norm_num)
            by_cases hlt : (sivQ iv).toNat + j < 256 ^ 16
            · obtain ⟨s, hs, hl, hv⟩ := p1 hlt
              have hs' : intToString (((sivQ iv).toNat + j : Nat) : Int) (some 16) = .ok s := hs
              rw [hs'] at h5
              simp only [Except.ok.injEq] at h5
              rw [← h5]
              exact ⟨hl, hv⟩
            · have hs' : intToString (((sivQ iv).toNat + j : Nat) : Int) (some 16) = .error .assertion :=
                p2 hlt
              rw [hs'] at h5; simp at h5
          refine ⟨bl, by rw [h1]; omega, ?_, ?_, ?_, ?_⟩
          · rw [List.nodup_iff_injective_get]
            intro a b hab
            have ha := (h4 a.1 a.2).2
            have hb := (h4 b.1 b.2).2
            simp only [List.get_eq_getElem] at hab
            rw [hab] at ha
            ext
            omega
          · intro b hb
            obtain ⟨j, hj, rfl⟩ := List.getElem_of_mem hb
            exact (h4 j hj).1
          · intro j hj
            rw [hc1]
            exact (h4 j hj).2
          · rw [hc2]
            have hk : Py.sliceFrom key (-((key.length / 2 : Nat) : Int)) =
                key.drop (key.length - key.length / 2) := by
              rw [Py.sliceFrom, Py.clampIdx, if_pos (by omega)]
              congr 1
              omega
            rw [← hk]
            rw [List.nil_append] at h3
            rw [← h3]
            unfold xorBytes
            apply List.ext_getElem
            · simp only [List.length_zipWith, List.length_take]; omega
            · intro n h1 h2
              simp
        · rw [if_neg hl] at he; simp at he
    · simp at he
example := C17_siv_encrypt_blocks (toyCipher 0x11) (toyCipher_lawful _) (List.replicate 32 0) (by decide) [[4]]
  ((Model.sivEncrypt (toyCipher 0x11) (List.replicate 32 0) (List.replicate 20 1) [[4]]).toOption.getD []) (List.replicate 20 1)
  (by decide +kernel)

/-- The key stream of at most `2^63` blocks. -/
theorem sivStream_eq (aes : CipherLib) (key2 iv : Bytes) (hiv : iv.length = 16) (k i : Nat)
    (x : Bytes) (hk : i + k ≤ 2 ^ 63) :
    sivStream aes key2 iv i k x = .ok (x ++ (List.range' i k).flatMap
      (fun i => aes.enc key2 (ofBits (sivQ iv + BitVec.ofNat 128 i)))) := by
  induction k generalizing i x with
  | zero => simp [sivStream]
  | succ k ih =>
    rw [sivStream, counter_eq iv hiv i (by omega)]
    simp only
    rw [ih (i + 1) _ (by omega), List.range'_succ, List.flatMap_cons, List.append_assoc]

/-- Once `s2v` returns, encryption is RFC 5297. -/
theorem sivEncrypt_of_s2v (aes : CipherLib) (h : LawfulCipher aes) (k1 k2 : Bytes)
    (hl : k1.length = k2.length) (hk2 : aes.keyOk k2 = true) (ads : List Bytes) (pt : Bytes)
    (hpt : (pt.length + 15) / 16 ≤ 2 ^ 63)
    (hs : Model.s2v aes k1 (ads ++ [pt]) = .ok (Spec.s2v (cmac (aes.enc k1)) (ads ++ [pt]))) :
    Model.sivEncrypt aes (k1 ++ k2) pt ads =
      .ok (Spec.sivEncrypt (aes.enc k1) (aes.enc k2) ads pt) := by
  have hlen := s2v_length aes h _ _ _ hs
  have e1 : (k1 ++ k2).take ((k1 ++ k2).length / 2) = k1 := by
    have : (k1 ++ k2).length / 2 = k1.length := by simp; omega
    rw [this]; simp
  have e2 : Py.sliceFrom (k1 ++ k2) (-(((k1 ++ k2).length / 2 : Nat) : Int)) = k2 := by
    have : (k1 ++ k2).length / 2 = k1.length := by simp; omega
    rw [this, Py.sliceFrom, Py.clampIdx]
    split
    · have : ((((k1 ++ k2).length : Nat) : Int) + -(k1.length : Int)).toNat = k1.length := by
        simp; omega
      rw [this]; simp
    · next hn =>
      have h0 : k1 = [] := List.length_eq_zero_iff.mp (by omega)
      have h0' : k2 = [] := List.length_eq_zero_iff.mp (by subst h0; simpa using hl.symm)
      subst h0; subst h0'; simp
  rw [Model.sivEncrypt]
  simp only [e1, e2]
  rw [hs]
  simp only
  rw [if_pos hk2, sivStream_eq aes k2 _ hlen _ _ _ (by omega)]
  simp only [List.nil_append]
  set Q := sivQ (Spec.s2v (cmac (aes.enc k1)) (ads ++ [pt])) with hQ
  have hstream : (List.range' 0 ((pt.length + 16 - 1) / 16)).flatMap
      (fun i => aes.enc k2 (ofBits (Q + BitVec.ofNat 128 i))) =
      ctrStream (aes.enc k2) Q ((pt.length + 15) / 16) := by
    rw [ctrStream, List.range_eq_range']
    rfl
  have hsl : (ctrStream (aes.enc k2) Q ((pt.length + 15) / 16)).length =
      (pt.length + 15) / 16 * 16 := by
    rw [ctrStream, List.length_flatMap]
    have : (List.range ((pt.length + 15) / 16)).map
        (fun i => (aes.enc k2 (ofBits (Q + BitVec.ofNat 128 i))).length) =
        (List.range ((pt.length + 15) / 16)).map (fun _ => 16) :=
      List.map_congr_left (fun i _ => h.length _ _ (by simp))
    rw [this]; simp
  rw [hstream, xor_eq, if_pos (by simp [hsl]; omega)]
  simp only [Spec.sivEncrypt]
  congr 2
  rw [← hQ]
  set S := ctrStream (aes.enc k2) Q ((pt.length + 15) / 16)
  have hS : pt.length ≤ S.length := by omega
  clear_value S
  clear hstream hsl hQ hs hpt hlen
  induction pt generalizing S with
  | nil => simp [xorBytes]
  | cons c pt ih =>
    cases S with
    | nil => simp at hS
    | cons d S =>
      simp only [List.length_cons, Nat.add_le_add_iff_right] at hS
      have := ih S hS
      simp only [xorBytes, List.length_cons, List.take_succ_cons, List.zipWith_cons_cons] at this ⊢
      rw [this]

/-- C16: encryption is RFC 5297 and never fails, for every key whose CMAC subkeys have a non-zero
first octet and every plaintext of at most `2^63` blocks. -/
theorem C16_siv_encrypt_rfc5297 (aes : CipherLib) (h : LawfulCipher aes) (k1 k2 : Bytes)
    (hl : k1.length = k2.length) (hk1 : aes.keyOk k1 = true) (hk2 : aes.keyOk k2 = true)
    (hgood : GoodSubkeys (aes.enc k1)) (ads : List Bytes) (pt : Bytes)
    (hpt : (pt.length + 15) / 16 ≤ 2 ^ 63) :
    Model.sivEncrypt aes (k1 ++ k2) pt ads =
      .ok (Spec.sivEncrypt (aes.enc k1) (aes.enc k2) ads pt) :=
  sivEncrypt_of_s2v aes h k1 k2 hl hk2 ads pt hpt ((C13_s2v_rfc5297 aes h k1 hk1 (ads ++ [pt])).1 hgood)

example : ∃ c, Model.sivEncrypt (toyCipher 0x11) (List.replicate 32 0) [1, 2, 3] [[4]] = .ok c ∧
    sivDecrypt (toyCipher 0x11) (List.replicate 32 0) c [[4]] = .ok [1, 2, 3] := by
  have e := C16_siv_encrypt_rfc5297 (toyCipher 0x11) (toyCipher_lawful _) (List.replicate 16 0)
    (List.replicate 16 0) rfl (by decide +kernel) (by decide +kernel)
    (by unfold GoodSubkeys; decide +kernel) [[4]] [1, 2, 3] (by decide)
  rw [← List.replicate_add] at e
  exact ⟨_, e, C14_siv_roundtrip _ (toyCipher_lawful _) _ _ _ _ e⟩

end Cryptopy
