import Verif.Lemmas.S2vPrf

/-!
`s2v` and the SIV functions in terms of a function from messages to blocks: used for C163 and C164.
-/

namespace Cryptopy.Prf
open Spec S2vTags
open Model (CipherLib aesCmac)

/-- Does `aes_cmac` raise an exception for this message, if it does so for whole blocks and for others? -/
def cmacErr (e : Bool × Bool) (M : Bytes) : Bool := if M.length ≠ 0 ∧ M.length % 16 = 0 then e.1 else e.2

/-- Does `s2v` raise an exception? -/
def boxErr (e : Bool × Bool) (v : Box) : Bool :=
  e.1 || v.1.any (cmacErr e) || (decide (16 ≤ v.2.length) && cmacErr e v.2)

/-- Are the subkeys too small? -/
def subErr (E : Bytes → Bytes) : Bool × Bool :=
  (decide ((cmacK1 E).toNat < 2 ^ 120), decide ((cmacK2 E).toNat < 2 ^ 120))

theorem cmac_err (aes : CipherLib) (h : LawfulCipher aes) (key M : Bytes) (hk : aes.keyOk key = true) :
    aesCmac aes aes key M =
      if cmacErr (subErr (aes.enc key)) M then .error .assertion else .ok (cmac (aes.enc key) M) := by
  rw [aesCmac_eq _ _ h h key M hk hk]
  refine if_congr ?_ rfl rfl
  rw [cmacErr]
  split
  · exact (decide_eq_true_iff (p := (cmacK1 (aes.enc key)).toNat < 2 ^ 120)).symm
  · exact (decide_eq_true_iff (p := (cmacK2 (aes.enc key)).toNat < 2 ^ 120)).symm

section
variable (aes : CipherLib) (key : Bytes) (e : Bool × Bool) (F : Bytes → Blk)
  (hF : ∀ M, aesCmac aes aes key M = if cmacErr e M then .error .assertion else .ok (ofBlk (F M)))
include hF

theorem s2vLoop_err (ads d : _) (hd : d.length = 16) : Model.s2vLoop aes key ads d =
      (if ads.any (cmacErr e) then .error .assertion else .ok (s2vChain (fun M => ofBlk (F M)) d ads)) := by
  induction ads generalizing d with
  | nil => rfl
  | cons a t ih =>
    rw [Model.s2vLoop, dbl_eq d hd]
    simp only
    rw [hF, List.any_cons]
    cases ha : cmacErr e a with
    | true => rfl
    | false =>
      simp only [Bool.false_eq_true, if_false, Bool.false_or]
      rw [xor_eq, if_pos (by simp)]
      simp only
      rw [ih _ (by simp [length_xorBytes]), s2vChain]

/-- `s2v` is the function at the place, or an exception. -/
theorem s2v_err (ads : List Bytes) (pt : Bytes) : Model.s2v aes key (ads ++ [pt]) =
      if boxErr e (ads, pt) then .error .assertion else .ok (ofBlk (F (locS F (ads, pt)))) := by
  have hz : ∀ M : Bytes, M.length = 16 → cmacErr e M = e.1 := fun M h => by rw [cmacErr, h]; rfl
  have hsl : ∀ (M : Bytes) d, d.length = 16 → M.length ≥ 16 → (xorend M d).length = M.length := by
    intro M d hd hM
    rw [xorend, hd, List.length_append, length_xorBytes, List.length_take, List.length_drop]
    omega
  rw [← s2v_locS, s2v_concat, Model.s2v]
  simp only [List.getLast?_append, List.getLast?_singleton, Option.some_or, List.dropLast_concat]
  rw [hF, hz _ (by simp), boxErr]
  cases he : e.1 with
  | true => rfl
  | false =>
    simp only [Bool.false_eq_true, if_false, Bool.false_or]
    rw [s2vLoop_err aes key e F hF _ _ (by simp)]
    cases ha : ads.any (cmacErr e) with
    | true => rfl
    | false =>
      simp only [Bool.false_eq_true, if_false, Bool.false_or]
      have hD := chain_length (fun M => ofBlk (F M)) (fun M => by simp) (ofBlk (F (List.replicate 16 0))) (by simp) ads
      generalize s2vChain (fun M => ofBlk (F M)) (ofBlk (F (List.replicate 16 0))) ads = D at hD ⊢
      by_cases h16 : pt.length ≥ 16
      · have c1 : Py.sliceFrom pt (-16) = pt.drop (pt.length - D.length) := by
          simp only [Py.sliceFrom, Py.clampIdx, hD]
          rw [if_pos (by decide)]
          congr 1
          omega
        have c2 : Py.sliceTo pt (-16) = pt.take (pt.length - D.length) := by
          simp only [Py.sliceTo, Py.clampIdx, hD]
          rw [if_pos (by decide)]
          congr 1
          omega
        rw [if_pos h16, if_pos h16, c1, c2, xor_eq, if_pos (by simp [hD]; omega)]
        simp only
        rw [← xorend, hF, cmacErr, hsl pt D hD h16, ← cmacErr, decide_eq_true h16, Bool.true_and]
      · rw [if_neg h16, if_neg h16, dbl_eq D hD]
        simp only
        have hl : (xorBytes (ofBits (dblBits (toBits D))) (pad10 pt)).length = 16 := by
          rw [length_xorBytes, length_pad10 _ (by omega)]
          simp
        rw [xor_eq, pad_eq, if_pos (by rw [length_pad10 _ (by omega)]; simp)]
        simp only
        rw [hF, hz _ hl, he, decide_eq_false (by omega), Bool.false_and]

end

end Cryptopy.Prf
