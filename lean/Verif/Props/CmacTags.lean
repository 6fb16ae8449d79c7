import Verif.Props.Siv

/-!
C117: when two messages have the same CMAC, for a block cipher that is injective under its key.
-/

namespace Cryptopy
open Model (CipherLib aesCmac)
open Spec (cmacFrom cmacK1 cmacK2 pad10 xorBytes ofBits)

/-- Under this key the cipher maps different blocks to different blocks. -/
def InjectiveOn16 (E : Bytes → Bytes) : Prop :=
  ∀ a b : Bytes, a.length = 16 → b.length = 16 → E a = E b → a = b

private theorem xor_right_cancel {a b c : Bytes} (ha : a.length = c.length) (hb : b.length = c.length)
    (h : xorBytes a c = xorBytes b c) : a = b := by
  have := congrArg (xorBytes · c) h
  induction c generalizing a b with
  | nil => rw [List.length_eq_zero_iff.mp ha, List.length_eq_zero_iff.mp hb]
  | cons z c ih =>
    cases a with
    | nil => simp at ha
    | cons x a =>
      cases b with
      | nil => simp at hb
      | cons y b =>
        simp only [xorBytes, List.zipWith_cons_cons, List.cons.injEq] at h
        have e : x = y := by
          have := congrArg (· ^^^ z) h.1
          simpa [UInt8.xor_assoc] using this
        rw [e, ih (by simpa using ha) (by simpa using hb) h.2 (by simpa [xorBytes] using congrArg (xorBytes · c) h.2)]

private theorem xor_comm (a b : Bytes) : xorBytes a b = xorBytes b a := by
  unfold xorBytes
  rw [List.zipWith_comm]
  congr 1
  funext x y
  exact UInt8.xor_comm _ _

private theorem xor_left_cancel {a b c : Bytes} (ha : a.length = c.length) (hb : b.length = c.length)
    (h : xorBytes c a = xorBytes c b) : a = b := by
  rw [xor_comm c a, xor_comm c b] at h
  exact xor_right_cancel ha hb h

section
variable (E : Bytes → Bytes) (hl : ∀ b : Bytes, b.length = 16 → (E b).length = 16) (hE : InjectiveOn16 E)
  (K1 K2 : BitVec 128)
include hl

private theorem length_cbc (X M : Bytes) (hX : X.length = 16) (hM : M.length % 16 = 0) :
    (cbc E X M).length = 16 := by
  induction hn : M.length using Nat.strong_induction_on generalizing X M with
  | _ n ih =>
    rw [cbc]
    split
    · exact hX
    · exact ih (n - 16) (by omega) _ _ (hl _ (by rw [length_xorBytes]; simp; omega)) (by simp; omega) (by simp; omega)

omit hl in
private theorem cmacFrom_append (X A S : Bytes) (hA : A.length % 16 = 0) (hS : S ≠ []) :
    cmacFrom E K1 K2 X (A ++ S) = cmacFrom E K1 K2 (cbc E X A) S := by
  have hS' : 0 < S.length := List.length_pos_iff.mpr hS
  induction hn : A.length using Nat.strong_induction_on generalizing X A with
  | _ n ih =>
    by_cases h : A.length < 16
    · have : A = [] := List.length_eq_zero_iff.mp (by omega)
      subst this
      rw [cbc, if_pos (by simp), List.nil_append]
    · rw [cmacFrom, if_neg (by simp; omega), if_neg (by simp; omega), cbc, if_neg h,
        List.take_append_of_le_length (by omega), List.drop_append_of_le_length (by omega)]
      exact ih (n - 16) (by omega) _ _ (by simp; omega) (by simp; omega)

include hE

private theorem cmacFrom_inj_state (X Y S : Bytes) (hX : X.length = 16) (hY : Y.length = 16)
    (h : cmacFrom E K1 K2 X S = cmacFrom E K1 K2 Y S) : X = Y := by
  induction hn : S.length using Nat.strong_induction_on generalizing X Y S with
  | _ n ih =>
    rw [cmacFrom.eq_def E K1 K2 X, cmacFrom.eq_def E K1 K2 Y] at h
    by_cases h1 : S.length < 16
    · rw [if_pos h1, if_pos h1] at h
      have l : (xorBytes (pad10 S) (ofBits K2)).length = 16 := by simp [length_xorBytes, length_pad10 _ h1]
      exact xor_right_cancel (by omega) (by omega) (hE _ _ (by rw [length_xorBytes]; omega) (by rw [length_xorBytes]; omega) h)
    · rw [if_neg h1, if_neg h1] at h
      by_cases h2 : S.length = 16
      · rw [if_pos h2, if_pos h2] at h
        have l : (xorBytes S (ofBits K1)).length = 16 := by simp [length_xorBytes, h2]
        exact xor_right_cancel (by omega) (by omega)
          (hE _ _ (by rw [length_xorBytes]; omega) (by rw [length_xorBytes]; omega) h)
      · rw [if_neg h2, if_neg h2] at h
        have l : (S.take 16).length = 16 := by simp; omega
        have lx : (xorBytes X (S.take 16)).length = 16 := by rw [length_xorBytes]; omega
        have ly : (xorBytes Y (S.take 16)).length = 16 := by rw [length_xorBytes]; omega
        have := ih (n - 16) (by omega) _ _ (S.drop 16) (hl _ lx) (hl _ ly) h (by simp; omega)
        exact xor_right_cancel (by omega) (by omega) (hE _ _ lx ly this)

/-- The tag of a whole number of blocks and the chaining value determine each other. -/
private theorem tag_iff_state (X M M' : Bytes) (hX : X.length = 16) (hM : M.length % 16 = 0)
    (hM' : M'.length % 16 = 0) (h0 : M ≠ []) (h0' : M' ≠ []) :
    cmacFrom E K1 K2 X M = cmacFrom E K1 K2 X M' ↔ cbc E X M = cbc E X M' := by
  have split : ∀ M : Bytes, M.length % 16 = 0 → M ≠ [] → ∃ A B, M = A ++ B ∧ A.length % 16 = 0 ∧ B.length = 16 := by
    intro M h h0
    have := List.length_pos_iff.mpr h0
    exact ⟨M.take (M.length - 16), M.drop (M.length - 16), by simp, by simp; omega, by simp; omega⟩
  obtain ⟨A, B, rfl, hA, hB⟩ := split M hM h0
  obtain ⟨A', B', rfl, hA', hB'⟩ := split M' hM' h0'
  have hne : ∀ B : Bytes, B.length = 16 → B ≠ [] := fun B h e => by subst e; simp at h
  have one : ∀ X B, B.length = 16 → cmacFrom E K1 K2 X B = E (xorBytes X (xorBytes B (ofBits K1))) := by
    intro X B h
    rw [cmacFrom, if_neg (by omega), if_pos h]
  have assoc : ∀ X B K, xorBytes X (xorBytes B K) = xorBytes (xorBytes X B) K := by
    intro X B K
    simp only [xorBytes]
    induction X generalizing B K with
    | nil => simp
    | cons x X ih =>
      cases B with
      | nil => simp
      | cons b B => cases K with
        | nil => simp
        | cons k K => simp [ih, UInt8.xor_assoc]
  rw [cmacFrom_append E K1 K2 X A B hA (hne B hB), cmacFrom_append E K1 K2 X A' B' hA' (hne B' hB'), one _ _ hB,
    one _ _ hB', cbc_append_one E X A B hA hB, cbc_append_one E X A' B' hA' hB', assoc, assoc]
  have lA := length_cbc E hl X A hX hA
  have lA' := length_cbc E hl X A' hX hA'
  have l1 : (xorBytes (cbc E X A) B).length = 16 := by rw [length_xorBytes]; omega
  have l2 : (xorBytes (cbc E X A') B').length = 16 := by rw [length_xorBytes]; omega
  have lk := length_ofBits K1
  constructor
  · intro h
    rw [xor_right_cancel (by omega) (by omega) (hE _ _ (by rw [length_xorBytes]; omega) (by rw [length_xorBytes]; omega) h)]
  · intro h
    rw [hE _ _ l1 l2 h]

end

theorem cmacTag_of_ok {aes ciph : CipherLib} (ha : LawfulCipher aes) (hc : LawfulCipher ciph) {key M t : Bytes}
    (h : aesCmac aes ciph key M = .ok t) :
    t = cmacFrom (ciph.enc key) (cmacK1 (aes.enc key)) (cmacK2 (aes.enc key)) (List.replicate 16 0) M := by
  have hkc : ciph.keyOk key = true := by
    by_contra hk
    rw [aesCmac, if_neg hk] at h
    cases h
  have hka : aes.keyOk key = true := by
    by_contra hk
    rw [aesCmac, if_pos hkc, if_pos hc.blockSize, Model.subkey, if_neg hk] at h
    cases h
  rw [aesCmac_eq aes ciph ha hc key M hka hkc] at h
  generalize hg : decide ((if M.length ≠ 0 ∧ M.length % 16 = 0 then cmacK1 (aes.enc key)
    else cmacK2 (aes.enc key)).toNat < 2 ^ 120) = g at h
  cases g with
  | true =>
    rw [if_pos (of_decide_eq_true hg)] at h
    cases h
  | false =>
    rw [if_neg (of_decide_eq_false hg)] at h
    exact (Except.ok.inj h).symm

/-- C117: two messages of whole blocks, of the same or of different lengths, have the same tag exactly if appending the
same octets to both gives the same tag: a collision can be extended at will, and appending never makes one. -/
theorem C117_collision_extends (aes ciph : CipherLib) (ha : LawfulCipher aes) (hc : LawfulCipher ciph) (key : Bytes)
    (hinj : InjectiveOn16 (ciph.enc key)) (M M' S t t' u u' : Bytes)
    (hM : M.length % 16 = 0) (hM' : M'.length % 16 = 0) (h0 : M ≠ []) (h0' : M' ≠ [])
    (ht : aesCmac aes ciph key M = .ok t) (ht' : aesCmac aes ciph key M' = .ok t')
    (hu : aesCmac aes ciph key (M ++ S) = .ok u) (hu' : aesCmac aes ciph key (M' ++ S) = .ok u') :
    u = u' ↔ t = t' := by
  rw [cmacTag_of_ok ha hc ht, cmacTag_of_ok ha hc ht', cmacTag_of_ok ha hc hu, cmacTag_of_ok ha hc hu']
  have hl := hc.length key
  by_cases hS : S = []
  · subst hS; simp
  rw [tag_iff_state _ hl hinj _ _ _ M M' (by simp) hM hM' h0 h0', cmacFrom_append _ _ _ _ M S hM hS,
    cmacFrom_append _ _ _ _ M' S hM' hS]
  exact ⟨fun h => cmacFrom_inj_state _ hl hinj _ _ _ _ S (length_cbc _ hl _ _ (by simp) hM)
    (length_cbc _ hl _ _ (by simp) hM') h, fun h => by rw [h]⟩
/-- The toy cipher meets the hypotheses; the two messages have one tag, see the end of the file. -/
example (S : Bytes) := C117_collision_extends (toyCipher 0x11) (toyCipher 0x11) (toyCipher_lawful _) (toyCipher_lawful _)
  (List.replicate 16 0)
  (fun a b _ _ h => List.map_injective_iff.mpr (fun a b hab => by
    have := congrArg (· ^^^ (0x11 : UInt8)) hab
    simpa [UInt8.xor_assoc] using this) h)
  (List.replicate 16 5) (List.replicate 16 0x11 ++ List.replicate 16 5) S

/-- C117: messages that differ in one aligned block have different tags. -/
theorem C117_one_block (aes ciph : CipherLib) (ha : LawfulCipher aes) (hc : LawfulCipher ciph) (key : Bytes)
    (hinj : InjectiveOn16 (ciph.enc key)) (A B B' S t : Bytes) (hA : A.length % 16 = 0) (hB : B.length = 16)
    (hB' : B'.length = 16) (ht : aesCmac aes ciph key (A ++ B ++ S) = .ok t)
    (ht' : aesCmac aes ciph key (A ++ B' ++ S) = .ok t) : B = B' := by
  have hl := hc.length key
  have e := (cmacTag_of_ok ha hc ht).symm.trans (cmacTag_of_ok ha hc ht')
  have hst : ∀ X, cbc (ciph.enc key) X (A ++ B) = cbc (ciph.enc key) X (A ++ B') → X.length = 16 → B = B' := by
    intro X h hX
    rw [cbc_append_one _ _ A B hA hB, cbc_append_one _ _ A B' hA hB'] at h
    have lA := length_cbc _ hl X A hX hA
    exact xor_left_cancel (by omega) (by omega)
      (hinj _ _ (by rw [length_xorBytes]; omega) (by rw [length_xorBytes]; omega) h)
  have lB : (A ++ B).length % 16 = 0 := by rw [List.length_append]; omega
  have lB' : (A ++ B').length % 16 = 0 := by rw [List.length_append]; omega
  have nB : A ++ B ≠ [] := fun h => by
    have := congrArg List.length h
    rw [List.length_append, List.length_nil] at this
    omega
  have nB' : A ++ B' ≠ [] := fun h => by
    have := congrArg List.length h
    rw [List.length_append, List.length_nil] at this
    omega
  refine hst (List.replicate 16 0) ?_ (by simp)
  by_cases hS : S = []
  · subst hS
    rw [List.append_nil, List.append_nil] at e
    exact (tag_iff_state _ hl hinj _ _ _ _ _ (by simp) lB lB' nB nB').mp e
  · rw [cmacFrom_append _ _ _ _ _ S lB hS, cmacFrom_append _ _ _ _ _ S lB' hS] at e
    exact cmacFrom_inj_state _ hl hinj _ _ _ _ S (length_cbc _ hl _ _ (by simp) lB)
      (length_cbc _ hl _ _ (by simp) lB') e
/-- The hypotheses hold for the cipher `toyCipher` (a permutation of blocks) and blocks put before one octet. -/
example : LawfulCipher (toyCipher 0x11) ∧ InjectiveOn16 ((toyCipher 0x11).enc (List.replicate 16 0)) ∧
    ∃ t, aesCmac (toyCipher 0x11) (toyCipher 0x11) (List.replicate 16 0) (List.replicate 16 1 ++ List.replicate 16 5 ++ [7]) =
      .ok t := by
  refine ⟨toyCipher_lawful _, fun a b _ _ h => ?_,
    _, (C09_cmac_rfc4493 _ (toyCipher_lawful _) _ _ (by decide +kernel)).1 (by decide +kernel)⟩
  have inj : Function.Injective (fun x : UInt8 => x ^^^ 0x11) := by
    intro a b hab
    have := congrArg (· ^^^ (0x11 : UInt8)) hab
    simpa [UInt8.xor_assoc] using this
  exact List.map_injective_iff.mpr inj h

theorem pad10_inj {a b : Bytes} (h : pad10 a = pad10 b) : a = b := by
  unfold pad10 at h
  have key : ∀ (a b : Bytes) (m n : Nat), a ++ 0x80 :: List.replicate m (0 : UInt8) = b ++ 0x80 :: List.replicate n 0 →
      a = b := by
    intro a
    induction a with
    | nil =>
      intro b m n h
      cases b with
      | nil => rfl
      | cons c b =>
        simp only [List.nil_append, List.cons_append, List.cons.injEq] at h
        have : (0x80 : UInt8) ∈ List.replicate m (0 : UInt8) := by rw [h.2]; simp
        simp [List.mem_replicate] at this
    | cons c a ih =>
      intro b m n h
      cases b with
      | nil =>
        simp only [List.nil_append, List.cons_append, List.cons.injEq] at h
        have : (0x80 : UInt8) ∈ List.replicate n (0 : UInt8) := by rw [← h.2]; simp
        simp [List.mem_replicate] at this
      | cons d b =>
        simp only [List.cons_append, List.cons.injEq] at h
        rw [h.1, ih b m n h.2]
  exact key a b _ _ h

/-- C117: messages that differ in an incomplete last block have different tags, also if they differ in length. -/
theorem C117_last_block (aes ciph : CipherLib) (ha : LawfulCipher aes) (hc : LawfulCipher ciph) (key : Bytes)
    (hinj : InjectiveOn16 (ciph.enc key)) (A B B' t : Bytes) (hA : A.length % 16 = 0) (hB : B.length < 16)
    (hB' : B'.length < 16) (h0 : A = [] ∨ B ≠ [] ∧ B' ≠ []) (ht : aesCmac aes ciph key (A ++ B) = .ok t)
    (ht' : aesCmac aes ciph key (A ++ B') = .ok t) : B = B' := by
  have hl := hc.length key
  have e := (cmacTag_of_ok ha hc ht).symm.trans (cmacTag_of_ok ha hc ht')
  have key : ∀ X, X.length = 16 → cmacFrom (ciph.enc key) (cmacK1 (aes.enc key)) (cmacK2 (aes.enc key)) X B =
      cmacFrom (ciph.enc key) (cmacK1 (aes.enc key)) (cmacK2 (aes.enc key)) X B' → B = B' := by
    intro X hX h
    rw [cmacFrom, if_pos hB, cmacFrom, if_pos hB'] at h
    have lk := length_ofBits (cmacK2 (aes.enc key))
    have l1 := length_pad10 B hB
    have l2 := length_pad10 B' hB'
    have := hinj _ _ (by simp only [length_xorBytes]; omega) (by simp only [length_xorBytes]; omega) h
    have := xor_left_cancel (by rw [length_xorBytes]; omega) (by rw [length_xorBytes]; omega) this
    exact pad10_inj (xor_right_cancel (by omega) (by omega) this)
  rcases h0 with rfl | ⟨n1, n2⟩
  · exact key _ (by simp) e
  · rw [cmacFrom_append _ _ _ _ A B hA n1, cmacFrom_append _ _ _ _ A B' hA n2] at e
    exact key _ (length_cbc _ hl _ _ (by simp) hA) e

-- The toy cipher is injective, works, and has a collision of one block with two.
example : InjectiveOn16 ((toyCipher 0x11).enc []) := by
  intro a b _ _ h
  have inj : Function.Injective (fun x : UInt8 => x ^^^ 0x11) := by
    intro a b hab
    have := congrArg (· ^^^ (0x11 : UInt8)) hab
    simpa [UInt8.xor_assoc] using this
  exact List.map_injective_iff.mpr inj h
example : aesCmac (toyCipher 0x11) (toyCipher 0x11) (List.replicate 16 0) (List.replicate 16 5) =
    aesCmac (toyCipher 0x11) (toyCipher 0x11) (List.replicate 16 0) (List.replicate 16 0x11 ++ List.replicate 16 5) := by
  decide +kernel
example : ∃ t, aesCmac (toyCipher 0x11) (toyCipher 0x11) (List.replicate 16 0) (List.replicate 16 5 ++ [7]) = .ok t :=
  ⟨_, (C09_cmac_rfc4493 _ (toyCipher_lawful _) _ _ (by decide +kernel)).1 (by decide +kernel)⟩

end Cryptopy
