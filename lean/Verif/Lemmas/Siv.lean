import Verif.Lemmas.Encoding
import Verif.Model.Siv
import Verif.Spec.Siv

namespace Cryptopy
open Model Spec

@[simp] theorem length_beBytes (k n : Nat) : (beBytes k n).length = k := by
  induction k with
  | zero => rfl
  | succ k ih => simp [beBytes, ih]

theorem beValue_beBytes (k n : Nat) : beValue (beBytes k n) = n % 256 ^ k := by
  induction k with
  | zero => simp [beBytes, beValue, Nat.mod_one]
  | succ k ih =>
    simp only [beBytes, beValue, length_beBytes, ih]
    rw [pow_succ, Nat.mod_mul]
    simp
    ring

theorem beBytes_beValue (s : Bytes) : beBytes s.length (beValue s) = s := by
  apply beValue_inj
  · simp
  · rw [beValue_beBytes, Nat.mod_eq_of_lt (beValue_lt s)]

@[simp] theorem length_ofBits (b : BitVec 128) : (ofBits b).length = 16 := by simp [ofBits]

theorem beValue_ofBits (b : BitVec 128) : beValue (ofBits b) = b.toNat := by
  rw [ofBits, beValue_beBytes, Nat.mod_eq_of_lt]
  have := b.isLt
  norm_num at this ⊢
  exact this

theorem toBits_ofBits (b : BitVec 128) : toBits (ofBits b) = b := by
  rw [toBits, beValue_ofBits]; simp

theorem beValue_lt16 {s : Bytes} (h : s.length = 16) : beValue s < 2 ^ 128 := by
  have := beValue_lt s
  rw [h] at this
  norm_num at this ⊢
  exact this

theorem toBits_toNat {s : Bytes} (h : s.length = 16) : (toBits s).toNat = beValue s := by
  rw [toBits, BitVec.toNat_ofNat, Nat.mod_eq_of_lt (beValue_lt16 h)]

theorem ofBits_toBits {s : Bytes} (h : s.length = 16) : ofBits (toBits s) = s := by
  rw [ofBits, toBits_toNat h, ← h, beBytes_beValue]

theorem and_msb_eq_zero (d : Nat) :
    (d &&& 0x80000000000000000000000000000000 = 0) ↔ (BitVec.ofNat 128 d).msb = false := by
  have h1 : (0x80000000000000000000000000000000 : Nat) = 2 ^ 127 := by norm_num
  rw [h1, BitVec.msb_eq_getLsbD_last, BitVec.getLsbD_ofNat]
  constructor
  · intro h
    have := congrArg (fun x => Nat.testBit x 127) h
    simp only [Nat.testBit_and, Nat.testBit_two_pow_self, Bool.and_true, Nat.zero_testBit] at this
    simp [this]
  · intro h
    apply Nat.eq_of_testBit_eq
    intro i
    rw [Nat.testBit_and, Nat.testBit_two_pow]
    by_cases hi : 127 = i
    · subst hi; simpa using h
    · simp [hi]

theorem dblInt_eq (b : BitVec 128) : dblInt b.toNat = (dblBits b).toNat := by
  have hand := and_msb_eq_zero b.toNat
  rw [BitVec.ofNat_toNat, BitVec.setWidth_eq] at hand
  unfold dblInt dblBits
  have hmask : (0xFFFFFFFFFFFFFFFFFFFFFFFFFFFFFFFF : Nat) = 2 ^ 128 - 1 := by norm_num
  by_cases h : b.msb = true
  · rw [if_neg (by rw [hand, h]; simp), if_pos h, BitVec.toNat_xor, BitVec.toNat_shiftLeft, hmask,
      Nat.and_two_pow_sub_one_eq_mod]
    rfl
  · have h' : b.msb = false := by simpa using h
    rw [if_pos (hand.mpr h'), if_neg h, BitVec.toNat_shiftLeft, Nat.mod_eq_of_lt]
    have := BitVec.msb_eq_false_iff_two_mul_lt.mp h'
    rw [Nat.shiftLeft_eq]
    omega

/-- An unpadded subkey string has 16 octets exactly when the value is at least `2^120`. -/
theorem intToString_bits (b : BitVec 128) :
    ∃ s, intToString (b.toNat : Int) none = .ok s ∧
      (2 ^ 120 ≤ b.toNat → s = ofBits b) ∧ (b.toNat < 2 ^ 120 → s.length ≠ 16) := by
  obtain ⟨s, hs, hcan, hv⟩ := intToString_none b.toNat
  refine ⟨s, hs, ?_, ?_⟩
  · intro h
    have hlen : s.length = 16 := by
      have h1 := beValue_lt s
      have hb := b.isLt
      rw [hv] at h1
      have : 15 < s.length := by
        by_contra hc
        have : 256 ^ s.length ≤ 256 ^ 15 := Nat.pow_le_pow_right (by norm_num) (by omega)
        norm_num at this h
        omega
      rcases hcan with rfl | ⟨c, t, rfl, hc⟩
      · simp at this
      · have h2 : 256 ^ t.length ≤ beValue (c :: t) := by
          simp only [beValue]
          nlinarith [u8_pos hc, Nat.pow_pos (n := t.length) (show 0 < 256 by norm_num)]
        by_contra hne
        have h3 : 256 ^ 16 ≤ 256 ^ t.length :=
          Nat.pow_le_pow_right (by norm_num) (by simp at this hne; omega)
        norm_num at h3
        norm_num at hb
        omega
    rw [← ofBits_toBits hlen]
    congr 1
    rw [toBits, hv]; simp
  · intro h hlen
    rcases hcan with rfl | ⟨c, t, rfl, hc⟩
    · simp at hlen
    · have h2 : 256 ^ t.length ≤ beValue (c :: t) := by
        simp only [beValue]
        nlinarith [u8_pos hc, Nat.pow_pos (n := t.length) (show 0 < 256 by norm_num)]
      have : t.length = 15 := by simpa using hlen
      rw [this, hv] at h2
      norm_num at h2 h
      omega

/-- A cipher module that behaves like AES: 16 octet blocks in and out. -/
structure LawfulCipher (C : CipherLib) : Prop where
  blockSize : C.blockSize = 16
  length : ∀ key b, b.length = 16 → (C.enc key b).length = 16

theorem subkey_eq (C : CipherLib) (hC : LawfulCipher C) (key : Bytes) (hk : C.keyOk key = true) :
    ∃ s1 s2, subkey C key = .ok (s1, s2) ∧
      (2 ^ 120 ≤ (cmacK1 (C.enc key)).toNat → s1 = ofBits (cmacK1 (C.enc key))) ∧
      ((cmacK1 (C.enc key)).toNat < 2 ^ 120 → s1.length ≠ 16) ∧
      (2 ^ 120 ≤ (cmacK2 (C.enc key)).toNat → s2 = ofBits (cmacK2 (C.enc key))) ∧
      ((cmacK2 (C.enc key)).toNat < 2 ^ 120 → s2.length ≠ 16) := by
  have hl : (C.enc key (List.replicate 16 0)).length = 16 := hC.length _ _ (by simp)
  have e1 : dblInt (stringToInt (C.enc key (List.replicate 16 0))) = (cmacK1 (C.enc key)).toNat := by
    rw [stringToInt_eq, ← toBits_toNat hl, dblInt_eq]; rfl
  have e2 : dblInt (cmacK1 (C.enc key)).toNat = (cmacK2 (C.enc key)).toNat := by
    rw [dblInt_eq]; rfl
  obtain ⟨s1, h1, h1a, h1b⟩ := intToString_bits (cmacK1 (C.enc key))
  obtain ⟨s2, h2, h2a, h2b⟩ := intToString_bits (cmacK2 (C.enc key))
  refine ⟨s1, s2, ?_, h1a, h1b, h2a, h2b⟩
  rw [subkey, if_pos hk, if_pos hC.blockSize]
  simp only [hC.blockSize, e1, e2, h1, h2]

theorem pad_eq (s : Bytes) : pad s = pad10 s := by
  simp only [pad, pad10, Py.repeat, List.append_assoc, List.singleton_append]
  congr 3
  omega

theorem length_pad10 (s : Bytes) (h : s.length < 16) : (pad10 s).length = 16 := by
  simp [pad10]; omega

/-- Chaining over a string that is a whole number of blocks. -/
def cbc (E : Bytes → Bytes) (X Mp : Bytes) : Bytes :=
  if Mp.length < 16 then X else cbc E (E (xorBytes X (Mp.take 16))) (Mp.drop 16)
termination_by Mp.length
decreasing_by simp; omega

theorem cmacLoop_eq (C : CipherLib) (hC : LawfulCipher C) (key Mp : Bytes) (k i : Nat) (x : Bytes)
    (hx : x.length = 16) (hlen : Mp.length = (i + k) * 16) :
    cmacLoop C key Mp i k x = .ok (cbc (C.enc key) x (Mp.drop (i * 16))) := by
  induction k generalizing i x with
  | zero =>
    rw [cmacLoop, cbc, if_pos]
    simp [hlen]
  | succ k ih =>
    have h16 : ((Mp.drop (i * 16)).take 16).length = 16 := by simp [hlen]; omega
    rw [cmacLoop, xor_eq, if_pos (by rw [hx, h16])]
    simp only
    rw [ih (i + 1) _ (hC.length _ _ (by rw [length_xorBytes]; omega)) (by omega)]
    conv_rhs => rw [cbc, if_neg (by simp [hlen]; omega)]
    congr 2
    rw [List.drop_drop]
    congr 1
    ring

theorem cbc_append_one (E : Bytes → Bytes) (X A B : Bytes) (hA : A.length % 16 = 0)
    (hB : B.length = 16) : cbc E X (A ++ B) = E (xorBytes (cbc E X A) B) := by
  induction hn : A.length using Nat.strong_induction_on generalizing A X with
  | _ n ih =>
    by_cases h : A.length < 16
    · have : A = [] := List.length_eq_zero_iff.mp (by omega)
      subst this
      rw [cbc, if_neg (by simp [hB]), cbc, if_pos (by simp [hB])]
      conv_rhs => rw [cbc, if_pos (by simp)]
      simp only [List.nil_append]
      rw [List.take_of_length_le (by omega)]
    · rw [cbc, if_neg (by simp; omega)]
      conv_rhs => rw [cbc, if_neg h]
      rw [List.take_append_of_le_length (by omega), List.drop_append_of_le_length (by omega)]
      exact ih (A.length - 16) (by omega) _ _ (by simp; omega) (by simp)

theorem cmacFrom_eq (E : Bytes → Bytes) (K1 K2 : BitVec 128) (X M : Bytes) :
    cmacFrom E K1 K2 X M =
      if M.length ≠ 0 ∧ M.length % 16 = 0 then
        cbc E X (M.take ((M.length / 16 - 1) * 16) ++
          xorBytes (M.drop ((M.length / 16 - 1) * 16)) (ofBits K1))
      else
        cbc E X (M.take (M.length / 16 * 16) ++
          xorBytes (pad10 (M.drop (M.length / 16 * 16))) (ofBits K2)) := by
  induction hn : M.length using Nat.strong_induction_on generalizing X M with
  | _ n ih =>
    rw [cmacFrom]
    by_cases h1 : M.length < 16
    · rw [if_pos h1, if_neg (by omega)]
      have : n / 16 * 16 = 0 := by omega
      rw [this, cbc_append_one _ _ _ _ (by simp) (by simp [length_xorBytes, length_pad10 M h1])]
      simp only [List.take_zero, List.drop_zero]
      congr 1
      rw [cbc, if_pos (by simp)]
    · by_cases h2 : M.length = 16
      · rw [if_neg h1, if_pos h2, if_pos (by omega)]
        have : (n / 16 - 1) * 16 = 0 := by omega
        rw [this, cbc_append_one _ _ _ _ (by simp) (by simp [length_xorBytes, h2])]
        simp only [List.take_zero, List.drop_zero]
        congr 1
        rw [cbc, if_pos (by simp)]
      · rw [if_neg h1, if_neg h2, ih (n - 16) (by omega) _ _ (by simp [hn])]
        by_cases h3 : n % 16 = 0
        · rw [if_pos (by omega), if_pos (by omega)]
          conv_rhs => rw [cbc, if_neg (by simp [length_xorBytes]; omega)]
          have e : (n / 16 - 1) * 16 = ((n - 16) / 16 - 1) * 16 + 16 := by omega
          rw [List.take_append_of_le_length (by simp; omega),
            List.drop_append_of_le_length (by simp; omega), List.take_take, e, List.drop_take,
            List.drop_drop, Nat.min_eq_left (by omega), Nat.add_sub_cancel, Nat.add_comm 16]
        · rw [if_neg (by omega), if_neg (by omega)]
          have h4 : (M.drop (n / 16 * 16)).length < 16 := by simp; omega
          conv_rhs => rw [cbc, if_neg (by simp [length_xorBytes, length_pad10 _ h4])]
          have e : n / 16 * 16 = (n - 16) / 16 * 16 + 16 := by omega
          rw [List.take_append_of_le_length (by simp; omega),
            List.drop_append_of_le_length (by simp; omega), List.take_take, e, List.drop_take,
            List.drop_drop, Nat.min_eq_left (by omega), Nat.add_sub_cancel, Nat.add_comm 16]

/-- The behaviour of `aes_cmac`: subkeys from `aes`, chaining with `ciph`. -/
theorem aesCmac_eq (aes ciph : CipherLib) (ha : LawfulCipher aes) (hc : LawfulCipher ciph)
    (key M : Bytes) (hka : aes.keyOk key = true) (hkc : ciph.keyOk key = true) :
    aesCmac aes ciph key M =
      if (if M.length ≠ 0 ∧ M.length % 16 = 0 then cmacK1 (aes.enc key)
          else cmacK2 (aes.enc key)).toNat < 2 ^ 120 then .error .assertion
      else .ok (cmacFrom (ciph.enc key) (cmacK1 (aes.enc key)) (cmacK2 (aes.enc key))
        (List.replicate 16 0) M) := by
  obtain ⟨s1, s2, hs, h1a, h1b, h2a, h2b⟩ := subkey_eq aes ha key hka
  rw [aesCmac, if_pos hkc, if_pos hc.blockSize, hs]
  simp only
  by_cases hM : M.length ≠ 0 ∧ M.length % 16 = 0
  · rw [if_pos (by omega : M.length % 16 = 0 ∧ M.length / 16 > 0), if_pos hM]
    have hl : (M.drop ((M.length / 16 - 1) * 16)).length = 16 := by simp; omega
    rw [xor_eq, hl]
    by_cases hk : (cmacK1 (aes.enc key)).toNat < 2 ^ 120
    · rw [if_neg (fun h => h1b hk h.symm), if_pos hk]
    · rw [if_neg hk, h1a (by omega), if_pos (by simp)]
      simp only
      have hlen : (M.take ((M.length / 16 - 1) * 16) ++
          xorBytes (M.drop ((M.length / 16 - 1) * 16)) (ofBits (cmacK1 (aes.enc key)))).length =
          M.length / 16 * 16 := by
        simp [length_xorBytes]; omega
      rw [cmacLoop_eq _ hc _ _ _ _ _ (by simp) (by rw [hlen]; omega), cmacFrom_eq, if_pos hM]
      simp
  · rw [if_neg (by omega : ¬ (M.length % 16 = 0 ∧ M.length / 16 > 0)), if_neg hM]
    have hl0 : (M.drop (M.length / 16 * 16)).length < 16 := by simp; omega
    have hl := length_pad10 _ hl0
    rw [xor_eq, pad_eq, hl]
    by_cases hk : (cmacK2 (aes.enc key)).toNat < 2 ^ 120
    · rw [if_neg (fun h => h2b hk h.symm), if_pos hk]
    · rw [if_neg hk, h2a (by omega), if_pos (by simp)]
      simp only
      have hlen : (M.take (M.length / 16 * 16) ++
          xorBytes (pad10 (M.drop (M.length / 16 * 16))) (ofBits (cmacK2 (aes.enc key)))).length =
          M.length / 16 * 16 + 16 := by
        simp [length_xorBytes, hl]; omega
      rw [cmacLoop_eq _ hc _ _ _ _ _ (by simp) (by rw [hlen]; omega), cmacFrom_eq, if_neg hM]
      simp

theorem length_cmacFrom (C : CipherLib) (hC : LawfulCipher C) (key : Bytes) (K1 K2 : BitVec 128)
    (X M : Bytes) (hX : X.length = 16) : (cmacFrom (C.enc key) K1 K2 X M).length = 16 := by
  induction hn : M.length using Nat.strong_induction_on generalizing X M with
  | _ n ih =>
    rw [cmacFrom]
    split
    · next h => exact hC.length _ _ (by simp [length_xorBytes, length_pad10 _ h, hX])
    · split
      · next h => exact hC.length _ _ (by simp [length_xorBytes, h, hX])
      · exact ih (n - 16) (by omega) _ _ (hC.length _ _ (by simp [length_xorBytes, hX]; omega))
          (by simp [hn])

end Cryptopy
