import Verif.Props.CmacTags

/-!
C125: when two header lists or two plaintexts have the same synthetic IV, for a block cipher that is injective under its
key.
-/

namespace Cryptopy
open Model (CipherLib aesCmac sivDecrypt)
open Spec (cmac cmacFrom pad10 xorBytes ofBits toBits dblBits s2vChain xorend beValue)

namespace S2vTags

theorem beValue_xor (a b : Bytes) (h : a.length = b.length) :
    beValue (xorBytes a b) = beValue a ^^^ beValue b := by
  induction a generalizing b with
  | nil => rw [List.length_eq_zero_iff.mp h.symm]; rfl
  | cons x a ih =>
    cases b with
    | nil => simp at h
    | cons y b =>
      have hl : a.length = b.length := by simpa using h
      have e : xorBytes (x :: a) (y :: b) = (x ^^^ y) :: xorBytes a b := rfl
      have l : (xorBytes a b).length = b.length := by rw [length_xorBytes]; omega
      rw [e, beValue, beValue, beValue, ih b hl, l, hl]
      have ha := beValue_lt a
      have hb := beValue_lt b
      rw [hl] at ha
      have p : (256 : Nat) ^ b.length = 2 ^ (8 * b.length) := by rw [pow_mul]; norm_num
      rw [p] at ha hb ⊢
      obtain ⟨P, hP⟩ : ∃ P, P = 8 * b.length := ⟨_, rfl⟩
      rw [← hP] at ha hb ⊢
      have pos : 0 < 2 ^ P := Nat.two_pow_pos P
      have hx : beValue a ^^^ beValue b < 2 ^ P := Nat.xor_lt_two_pow ha hb
      have dv : ∀ q r : Nat, r < 2 ^ P → (q * 2 ^ P + r) / 2 ^ P = q := by
        intro q r hr
        rw [Nat.add_comm, Nat.add_mul_div_right _ _ pos, Nat.div_eq_of_lt hr, Nat.zero_add]
      have md : ∀ q r : Nat, r < 2 ^ P → (q * 2 ^ P + r) % 2 ^ P = r := by
        intro q r hr
        rw [Nat.add_comm, Nat.add_mul_mod_self_right, Nat.mod_eq_of_lt hr]
      rw [← Nat.div_add_mod (_ ^^^ (y.toNat * 2 ^ P + beValue b)) (2 ^ P), Nat.xor_div_two_pow,
        Nat.xor_mod_two_pow, dv _ _ ha, dv _ _ hb, md _ _ ha, md _ _ hb, UInt8.toNat_xor, Nat.mul_comm]

theorem toBits_xor {a b : Bytes} (ha : a.length = 16) (hb : b.length = 16) :
    toBits (xorBytes a b) = toBits a ^^^ toBits b := by
  apply BitVec.eq_of_toNat_eq
  rw [BitVec.toNat_xor, toBits_toNat ha, toBits_toNat hb, toBits_toNat (by rw [length_xorBytes]; omega),
    beValue_xor a b (by omega)]

theorem toBits_inj {a b : Bytes} (ha : a.length = 16) (hb : b.length = 16) (h : toBits a = toBits b) : a = b := by
  rw [← ofBits_toBits ha, ← ofBits_toBits hb, h]

theorem dbl_bit (x : BitVec 128) (i : Nat) (hi : i < 128) :
    (dblBits x).getLsbD i =
      ((if i = 0 then false else x.getLsbD (i - 1)) ^^ (x.getLsbD 127 && (0x87#128).getLsbD i)) := by
  have hm : x.msb = x.getLsbD 127 := by rw [BitVec.msb_eq_getLsbD_last]
  unfold dblBits
  rw [hm]
  cases hx : x.getLsbD 127 <;> by_cases h0 : i = 0 <;>
    simp [h0, hi, show (i < 1) = (i = 0) by simp, BitVec.getLsbD_eq_getElem, show i - 1 < 128 by omega]

theorem dbl_xor (x y : BitVec 128) : dblBits (x ^^^ y) = dblBits x ^^^ dblBits y := by
  apply BitVec.eq_of_getLsbD_eq
  intro i hi
  rw [BitVec.getLsbD_xor, dbl_bit _ i hi, dbl_bit _ i hi, dbl_bit _ i hi]
  simp only [BitVec.getLsbD_xor]
  by_cases h0 : i = 0
  · simp only [h0, if_true]
    cases x.getLsbD 127 <;> cases y.getLsbD 127 <;> simp
  · simp only [h0, if_false]
    cases x.getLsbD 127 <;> cases y.getLsbD 127 <;> cases x.getLsbD (i - 1) <;> cases y.getLsbD (i - 1) <;> simp

/-- Doubling fixes only zero: `x + 1` is invertible. -/
theorem dbl_fixed (x : BitVec 128) (h : dblBits x = x) : x = 0#128 := by
  have step : ∀ i, i < 128 → x.getLsbD i =
      ((if i = 0 then false else x.getLsbD (i - 1)) ^^ (x.getLsbD 127 && (0x87#128).getLsbD i)) := by
    intro i hi
    have := dbl_bit x i hi
    rwa [h] at this
  have high : ∀ i, 8 ≤ i → i < 128 → (0x87#128).getLsbD i = false := by
    intro i h8 hi
    have : ∀ i : Fin 128, 8 ≤ i.val → (0x87#128).getLsbD i.val = false := by decide
    exact this ⟨i, hi⟩ h8
  have b0 := step 0 (by omega)
  have b1 := step 1 (by omega)
  have b2 := step 2 (by omega)
  have b3 := step 3 (by omega)
  have b4 := step 4 (by omega)
  have b5 := step 5 (by omega)
  have b6 := step 6 (by omega)
  have b7 := step 7 (by omega)
  rw [show (0x87#128).getLsbD 0 = true by decide, if_pos rfl] at b0
  rw [show (0x87#128).getLsbD 1 = true by decide, if_neg (by decide)] at b1
  rw [show (0x87#128).getLsbD 2 = true by decide, if_neg (by decide)] at b2
  rw [show (0x87#128).getLsbD 3 = false by decide, if_neg (by decide)] at b3
  rw [show (0x87#128).getLsbD 4 = false by decide, if_neg (by decide)] at b4
  rw [show (0x87#128).getLsbD 5 = false by decide, if_neg (by decide)] at b5
  rw [show (0x87#128).getLsbD 6 = false by decide, if_neg (by decide)] at b6
  rw [show (0x87#128).getLsbD 7 = true by decide, if_neg (by decide)] at b7
  have rest : ∀ i, i ≤ 120 → x.getLsbD (7 + i) = x.getLsbD 7 := by
    intro i
    induction i with
    | zero => intro _; rfl
    | succ i ih =>
      intro hi
      have := step (7 + (i + 1)) (by omega)
      rw [high _ (by omega) (by omega), if_neg (by omega)] at this
      rw [this, show 7 + (i + 1) - 1 = 7 + i by omega, ih (by omega)]
      simp
  have top := rest 120 (by omega)
  simp only [Nat.reduceSub, Nat.reduceAdd] at b0 b1 b2 b3 b4 b5 b6 b7 top
  have m : x.getLsbD 127 = false := by
    cases hm : x.getLsbD 127 with
    | false => rfl
    | true =>
      rw [hm] at b0 b1 b2 b3 b4 b5 b6 b7 top
      simp only [Bool.and_true, Bool.and_false, Bool.xor_true, Bool.xor_false,
        Bool.not_false] at b0 b1 b2 b3 b4 b5 b6 b7
      rw [b0] at b1
      simp only [Bool.not_true] at b1
      rw [b1] at b2
      simp only [Bool.not_false] at b2
      rw [b6, b5, b4, b3, b2] at b7
      rw [b7] at top
      cases top
  rw [m] at step
  simp only [Bool.false_and, Bool.xor_false] at step
  have all : ∀ i, i < 128 → x.getLsbD i = false := by
    intro i
    induction i with
    | zero => intro hi; rw [step 0 hi, if_pos rfl]
    | succ i ih =>
      intro hi
      rw [step (i + 1) hi, if_neg (by omega)]
      exact ih (by omega)
  apply BitVec.eq_of_getLsbD_eq
  intro i hi
  rw [all i hi]
  simp

/-- `xorBytes` and doubling on octet strings, through bits. -/
theorem step_bits {D t : Bytes} (ht : t.length = 16) :
    toBits (xorBytes (ofBits (dblBits (toBits D))) t) = dblBits (toBits D) ^^^ toBits t := by
  rw [toBits_xor (by simp) ht, toBits_ofBits]

theorem step_len (D : Bytes) {t : Bytes} (ht : t.length = 16) :
    (xorBytes (ofBits (dblBits (toBits D))) t).length = 16 := by
  rw [length_xorBytes, length_ofBits, ht, min_self]

section
variable (F : Bytes → Bytes) (hF : ∀ m, (F m).length = 16)

theorem chain_append (D : Bytes) (a b : List Bytes) :
    s2vChain F D (a ++ b) = s2vChain F (s2vChain F D a) b := by
  induction a generalizing D with
  | nil => rfl
  | cons x a ih => exact ih _

include hF

theorem chain_length (D : Bytes) (hD : D.length = 16) (a : List Bytes) : (s2vChain F D a).length = 16 := by
  induction a generalizing D with
  | nil => exact hD
  | cons x a ih =>
    exact ih _ (step_len _ (hF x))

theorem chain_inj (D D' : Bytes) (hD : D.length = 16) (hD' : D'.length = 16) (a : List Bytes)
    (h : s2vChain F D a = s2vChain F D' a) : D = D' := by
  induction a generalizing D D' with
  | nil => exact h
  | cons x a ih =>
    have := ih _ _ (step_len _ (hF x)) (step_len _ (hF x)) h
    have := congrArg toBits this
    rw [step_bits (hF x), step_bits (hF x)] at this
    exact toBits_inj hD hD' (dblBits_injective (BitVec.xor_left_inj _ |>.mp this))

omit hF in
/-- S2V by its last component. -/
theorem s2v_concat (ads : List Bytes) (pt : Bytes) :
    Spec.s2v F (ads ++ [pt]) = F (if pt.length ≥ 16 then xorend pt (s2vChain F (F (List.replicate 16 0)) ads)
       else xorBytes (ofBits (dblBits (toBits (s2vChain F (F (List.replicate 16 0)) ads)))) (pad10 pt)) := by
  have gen : ∀ l : List Bytes, (hl : l ≠ []) → Spec.s2v F l =
      F (if (l.getLast hl).length ≥ 16 then xorend (l.getLast hl) (s2vChain F (F (List.replicate 16 0)) l.dropLast)
        else xorBytes (ofBits (dblBits (toBits (s2vChain F (F (List.replicate 16 0)) l.dropLast))))
          (pad10 (l.getLast hl))) := by
    intro l hl
    cases l with
    | nil => exact absurd rfl hl
    | cons S rest => rfl
  rw [gen _ (by simp)]
  simp

theorem chain_change (D : Bytes) (post : List Bytes) (A B : Bytes) :
    s2vChain F D (A :: post) = s2vChain F D (B :: post) ↔ F A = F B := by
  constructor
  · intro h
    have := chain_inj F hF _ _ (step_len _ (hF A)) (step_len _ (hF B)) post h
    have := congrArg toBits this
    rw [step_bits (hF A), step_bits (hF B)] at this
    exact toBits_inj (hF A) (hF B) (BitVec.xor_right_inj _ |>.mp this)
  · intro h
    simp only [s2vChain, h]

theorem chain_swap (D : Bytes) (post : List Bytes) (A B : Bytes) :
    s2vChain F D (A :: B :: post) = s2vChain F D (B :: A :: post) ↔ F A = F B := by
  constructor
  · intro h
    rw [s2vChain, s2vChain, s2vChain, s2vChain] at h
    have := congrArg toBits (chain_inj F hF _ _ (step_len _ (hF B)) (step_len _ (hF A)) post h)
    rw [step_bits (hF B), step_bits (hF A), step_bits (hF A), step_bits (hF B), dbl_xor, dbl_xor, BitVec.xor_assoc,
      BitVec.xor_assoc] at this
    have h2 := BitVec.xor_right_inj _ |>.mp this
    obtain ⟨u, hu⟩ : ∃ u, u = toBits (F A) := ⟨_, rfl⟩
    obtain ⟨v, hv⟩ : ∃ v, v = toBits (F B) := ⟨_, rfl⟩
    rw [← hu, ← hv] at h2
    have fix : dblBits (u ^^^ v) = u ^^^ v := by
      rw [dbl_xor]
      have := congrArg (fun w => w ^^^ v ^^^ dblBits v) h2
      rw [BitVec.xor_assoc (dblBits u), BitVec.xor_self, BitVec.xor_zero] at this
      rw [this, BitVec.xor_comm (dblBits v) u, BitVec.xor_assoc, BitVec.xor_assoc, BitVec.xor_comm (dblBits v),
        BitVec.xor_assoc v, BitVec.xor_self, BitVec.xor_zero]
    have z := dbl_fixed _ fix
    exact toBits_inj (hF A) (hF B) (by rw [← hu, ← hv]; exact BitVec.xor_eq_zero_iff.mp z)
  · intro h
    simp only [s2vChain, h]

end

section
variable (aes : CipherLib) (h : LawfulCipher aes) (key : Bytes) (hk : aes.keyOk key = true)
  (g : GoodSubkeys (aes.enc key))
include h hk g

theorem cmac_eq (M : Bytes) : aesCmac aes aes key M = .ok (cmac (aes.enc key) M) := by
  refine (C09_cmac_rfc4493 aes h key M hk).1 ?_
  split
  · exact g.1
  · exact g.2

omit hk g in
theorem cmacFrom_length (K1 K2 : BitVec 128) (X M : Bytes) (hX : X.length = 16) :
    (cmacFrom (aes.enc key) K1 K2 X M).length = 16 := by
  induction hn : M.length using Nat.strong_induction_on generalizing X M with
  | _ n ih =>
    rw [cmacFrom]
    by_cases h1 : M.length < 16
    · rw [if_pos h1]
      have l := length_pad10 M h1
      exact h.length _ _ (by simp only [length_xorBytes, length_ofBits]; omega)
    · rw [if_neg h1]
      by_cases h2 : M.length = 16
      · rw [if_pos h2]
        exact h.length _ _ (by simp only [length_xorBytes, length_ofBits]; omega)
      · rw [if_neg h2]
        exact ih (n - 16) (by omega) _ _ (h.length _ _ (by rw [length_xorBytes, List.length_take]; omega))
          (by rw [List.length_drop]; omega)

omit hk g in
theorem cmac_length (M : Bytes) : (cmac (aes.enc key) M).length = 16 :=
  cmacFrom_length aes h key _ _ _ _ (by simp)

/-- The block that enters the last CMAC, if the plaintext is short or a whole number of blocks. -/
theorem final_inj (hinj : InjectiveOn16 (aes.enc key)) (A B B' : Bytes) (hA : A.length % 16 = 0) (hB : B.length = 16)
    (hB' : B'.length = 16) (e : cmac (aes.enc key) (A ++ B) = cmac (aes.enc key) (A ++ B')) : B = B' := by
  have c1 := cmac_eq aes h key hk g (A ++ B)
  have c2 := cmac_eq aes h key hk g (A ++ B')
  rw [e] at c1
  exact C117_one_block aes aes h h key hinj A B B' [] _ hA hB hB' (by rw [List.append_nil]; exact c1)
    (by rw [List.append_nil]; exact c2)

theorem s2v_eq_iff (hinj : InjectiveOn16 (aes.enc key)) (ads ads' : List Bytes) (pt : Bytes)
    (hp : pt.length < 16 ∨ pt.length % 16 = 0) :
    Spec.s2v (cmac (aes.enc key)) (ads ++ [pt]) = Spec.s2v (cmac (aes.enc key)) (ads' ++ [pt]) ↔
      s2vChain (cmac (aes.enc key)) (cmac (aes.enc key) (List.replicate 16 0)) ads =
        s2vChain (cmac (aes.enc key)) (cmac (aes.enc key) (List.replicate 16 0)) ads' := by
  have hF := cmac_length aes h key
  constructor
  · rw [s2v_concat, s2v_concat]
    have l1 := chain_length _ hF _ (hF (List.replicate 16 0)) ads
    have l2 := chain_length _ hF _ (hF (List.replicate 16 0)) ads'
    generalize s2vChain (cmac (aes.enc key)) (cmac (aes.enc key) (List.replicate 16 0)) ads = D at *
    generalize s2vChain (cmac (aes.enc key)) (cmac (aes.enc key) (List.replicate 16 0)) ads' = D' at *
    intro e
    by_cases h16 : pt.length ≥ 16
    · rw [if_pos h16, if_pos h16] at e
      unfold xorend at e
      rw [l1, l2] at e
      have ld : (pt.drop (pt.length - 16)).length = 16 := by rw [List.length_drop]; omega
      have := final_inj aes h key hk g hinj _ _ _ (by rw [List.length_take]; omega)
        (by rw [length_xorBytes]; omega) (by rw [length_xorBytes]; omega) e
      have := congrArg toBits this
      rw [toBits_xor ld l1, toBits_xor ld l2] at this
      exact toBits_inj l1 l2 (BitVec.xor_right_inj _ |>.mp this)
    · rw [if_neg h16, if_neg h16] at e
      have lp := length_pad10 pt (by omega)
      have := final_inj aes h key hk g hinj [] _ _ (by simp) (step_len D lp) (step_len D' lp) e
      have := congrArg toBits this
      rw [step_bits lp, step_bits lp] at this
      exact toBits_inj l1 l2 (dblBits_injective (BitVec.xor_left_inj _ |>.mp this))
  · intro e
    rw [s2v_concat, s2v_concat, e]

end

/-- Decryption under other headers: the key stream does not depend on them, so the plaintext is recovered and then
compared. -/
theorem decrypt_other (aes : CipherLib) (h : LawfulCipher aes) (key pt c v w : Bytes) (ads ads' : List Bytes)
    (he : Model.sivEncrypt aes key pt ads = .ok c)
    (hv : Model.s2v aes (key.take (key.length / 2)) (ads ++ [pt]) = .ok v)
    (hw : Model.s2v aes (key.take (key.length / 2)) (ads' ++ [pt]) = .ok w) :
    sivDecrypt aes key c ads' = if w = v then .ok pt else .error .stringRaise := by
  have hd := C14_siv_roundtrip aes h key ads c pt he
  rw [sivDecrypt] at hd ⊢
  split at hd
  · next hk2 =>
    rw [if_pos hk2]
    split at hd
    · cases hd
    · next x hx =>
      split at hd
      · cases hd
      · next p hp =>
        split at hd
        · cases hd
        · next t ht =>
          split at hd
          · next htv =>
            cases hd
            rw [hv] at ht
            cases ht
            rw [hw, htv]
          · cases hd
  · cases hd

end S2vTags

open S2vTags

/-- C125: a plaintext shorter than a block has the same synthetic IV as exactly one plaintext of one block, under every
header list. -/
theorem C125_short_full (aes : CipherLib) (h : LawfulCipher aes) (key : Bytes) (hk : aes.keyOk key = true)
    (g : GoodSubkeys (aes.enc key)) (hinj : InjectiveOn16 (aes.enc key)) (ads : List Bytes) (pt : Bytes)
    (hp : pt.length < 16) :
    ∃! q : Bytes, q.length = 16 ∧ Model.s2v aes key (ads ++ [q]) = Model.s2v aes key (ads ++ [pt]) := by
  have hF := cmac_length aes h key
  have l1 := chain_length _ hF _ (hF (List.replicate 16 0)) ads
  have lp := length_pad10 pt hp
  have full : ∀ q D : Bytes, q.length = 16 → D.length = 16 → xorend q D = xorBytes q D := by
    intro q D hq hD
    unfold xorend
    rw [hq, hD]
    simp
  refine ⟨xorBytes (xorBytes (ofBits (dblBits (toBits
    (s2vChain (cmac (aes.enc key)) (cmac (aes.enc key) (List.replicate 16 0)) ads)))) (pad10 pt))
    (s2vChain (cmac (aes.enc key)) (cmac (aes.enc key) (List.replicate 16 0)) ads), ⟨?_, ?_⟩, ?_⟩
  · rw [length_xorBytes, step_len _ lp, l1, min_self]
  · rw [(C13_s2v_rfc5297 aes h key hk _).1 g, (C13_s2v_rfc5297 aes h key hk _).1 g, s2v_concat, s2v_concat]
    generalize s2vChain (cmac (aes.enc key)) (cmac (aes.enc key) (List.replicate 16 0)) ads = D at *
    have lq : (xorBytes (xorBytes (ofBits (dblBits (toBits D))) (pad10 pt)) D).length = 16 := by
      rw [length_xorBytes, step_len _ lp, l1, min_self]
    rw [if_pos (by omega), if_neg (by omega), full _ _ lq l1, xorBytes_self_right _ _ (by rw [step_len _ lp, l1])]
  · rintro q ⟨lq, e⟩
    rw [(C13_s2v_rfc5297 aes h key hk _).1 g, (C13_s2v_rfc5297 aes h key hk _).1 g, s2v_concat, s2v_concat] at e
    generalize s2vChain (cmac (aes.enc key)) (cmac (aes.enc key) (List.replicate 16 0)) ads = D at *
    rw [if_pos (by omega), if_neg (by omega), full _ _ lq l1] at e
    have := final_inj aes h key hk g hinj [] (xorBytes q D) _ (by simp) (by rw [length_xorBytes]; omega) (step_len D lp)
      (Except.ok.inj e)
    rw [← this, xorBytes_self_right _ _ (by omega)]

/-- C125: what happens when a message is decrypted with one header replaced.  If both headers have the same CMAC it is
accepted; if they have not, and the plaintext is shorter than a block or a whole number of blocks, it is rejected. -/
theorem C125_header_change (aes : CipherLib) (h : LawfulCipher aes) (key : Bytes)
    (hk : aes.keyOk (key.take (key.length / 2)) = true) (g : GoodSubkeys (aes.enc (key.take (key.length / 2))))
    (hinj : InjectiveOn16 (aes.enc (key.take (key.length / 2)))) (pre post : List Bytes) (A B pt c : Bytes)
    (he : Model.sivEncrypt aes key pt (pre ++ A :: post) = .ok c) :
    (aesCmac aes aes (key.take (key.length / 2)) A = aesCmac aes aes (key.take (key.length / 2)) B →
      sivDecrypt aes key c (pre ++ B :: post) = .ok pt) ∧
    (aesCmac aes aes (key.take (key.length / 2)) A ≠ aesCmac aes aes (key.take (key.length / 2)) B →
      pt.length < 16 ∨ pt.length % 16 = 0 → sivDecrypt aes key c (pre ++ B :: post) = .error .stringRaise) := by
  have d := decrypt_other aes h key pt c _ _ _ (pre ++ B :: post) he ((C13_s2v_rfc5297 aes h _ hk _).1 g)
    ((C13_s2v_rfc5297 aes h _ hk _).1 g)
  have hF := cmac_length aes h (key.take (key.length / 2))
  rw [cmac_eq aes h _ hk g A, cmac_eq aes h _ hk g B]
  have cc := chain_change _ hF (s2vChain (cmac (aes.enc (key.take (key.length / 2))))
    (cmac (aes.enc (key.take (key.length / 2))) (List.replicate 16 0)) pre) post B A
  rw [← chain_append, ← chain_append] at cc
  constructor
  · intro e
    rw [d, if_pos]
    rw [s2v_concat, s2v_concat, cc.mpr (Except.ok.inj e).symm]
  · intro e hp
    rw [d, if_neg]
    rw [s2v_eq_iff aes h _ hk g hinj _ _ pt hp, cc]
    exact fun e' => e (by rw [e'])

/-- C125: what happens when a message is decrypted with two neighbouring headers exchanged. -/
theorem C125_header_swap (aes : CipherLib) (h : LawfulCipher aes) (key : Bytes)
    (hk : aes.keyOk (key.take (key.length / 2)) = true) (g : GoodSubkeys (aes.enc (key.take (key.length / 2))))
    (hinj : InjectiveOn16 (aes.enc (key.take (key.length / 2)))) (pre post : List Bytes) (A B pt c : Bytes)
    (he : Model.sivEncrypt aes key pt (pre ++ A :: B :: post) = .ok c) :
    (aesCmac aes aes (key.take (key.length / 2)) A = aesCmac aes aes (key.take (key.length / 2)) B →
      sivDecrypt aes key c (pre ++ B :: A :: post) = .ok pt) ∧
    (aesCmac aes aes (key.take (key.length / 2)) A ≠ aesCmac aes aes (key.take (key.length / 2)) B →
      pt.length < 16 ∨ pt.length % 16 = 0 → sivDecrypt aes key c (pre ++ B :: A :: post) = .error .stringRaise) := by
  have d := decrypt_other aes h key pt c _ _ _ (pre ++ B :: A :: post) he ((C13_s2v_rfc5297 aes h _ hk _).1 g)
    ((C13_s2v_rfc5297 aes h _ hk _).1 g)
  have hF := cmac_length aes h (key.take (key.length / 2))
  rw [cmac_eq aes h _ hk g A, cmac_eq aes h _ hk g B]
  have cc := chain_swap _ hF (s2vChain (cmac (aes.enc (key.take (key.length / 2))))
    (cmac (aes.enc (key.take (key.length / 2))) (List.replicate 16 0)) pre) post B A
  rw [← chain_append, ← chain_append] at cc
  constructor
  · intro e
    rw [d, if_pos]
    rw [s2v_concat, s2v_concat, cc.mpr (Except.ok.inj e).symm]
  · intro e hp
    rw [d, if_neg]
    rw [s2v_eq_iff aes h _ hk g hinj _ _ pt hp, cc]
    exact fun e' => e (by rw [e'])

/-- The toy cipher is injective. -/
theorem S2vTags.toy_injective (key : Bytes) : InjectiveOn16 ((toyCipher 0x11).enc key) := by
  intro a b _ _ h
  have inj : Function.Injective (fun x : UInt8 => x ^^^ 0x11) := by
    intro a b hab
    have := congrArg (· ^^^ (0x11 : UInt8)) hab
    simpa [UInt8.xor_assoc] using this
  exact List.map_injective_iff.mpr inj h

-- The hypotheses hold for the toy cipher; headers with equal CMAC exist and so do headers with different ones.
example : ∃ q : Bytes, q.length = 16 ∧
    Model.s2v (toyCipher 0x11) (List.replicate 16 0) [[1, 2], q] =
      Model.s2v (toyCipher 0x11) (List.replicate 16 0) [[1, 2], [3]] :=
  (C125_short_full _ (toyCipher_lawful _) _ (by decide +kernel) (by unfold GoodSubkeys; decide +kernel)
    (toy_injective _) [[1, 2]] [3] (by decide)).exists
example : ∃ c, Model.sivEncrypt (toyCipher 0x11) (List.replicate 32 0) [9] [[1], [2]] = .ok c ∧
    sivDecrypt (toyCipher 0x11) (List.replicate 32 0) c [[2], [1]] = .error .stringRaise := by
  have en := C16_siv_encrypt_rfc5297 (toyCipher 0x11) (toyCipher_lawful _) (List.replicate 16 0)
    (List.replicate 16 0) rfl (by decide +kernel) (by decide +kernel)
    (by unfold GoodSubkeys; decide +kernel) [[1], [2]] [9] (by decide)
  rw [← List.replicate_add] at en
  refine ⟨_, en, ?_⟩
  exact (C125_header_swap _ (toyCipher_lawful _) _ (by decide +kernel) (by unfold GoodSubkeys; decide +kernel)
    (toy_injective _) [] [] [1] [2] [9] _ en).2 (by
      rw [cmac_eq _ (toyCipher_lawful _) _ (by decide +kernel) (by unfold GoodSubkeys; decide +kernel),
        cmac_eq _ (toyCipher_lawful _) _ (by decide +kernel) (by unfold GoodSubkeys; decide +kernel)]
      intro e
      have := Except.ok.inj e
      unfold cmac at this
      rw [cmacFrom, if_pos (by decide), cmacFrom, if_pos (by decide)] at this
      revert this
      decide +kernel) (Or.inl (by decide))
example : aesCmac (toyCipher 0x11) (toyCipher 0x11) (List.replicate 16 0) (List.replicate 16 5) =
    aesCmac (toyCipher 0x11) (toyCipher 0x11) (List.replicate 16 0) (List.replicate 16 0x11 ++ List.replicate 16 5) := by
  decide +kernel

end Cryptopy
