import Verif.Lemmas.ChaCha

/-!
The ChaCha block function when the counter word has 33 bits.
-/

namespace Cryptopy
open Model Spec

theorem testBit_33 (c j : Nat) (hc : c < 2 ^ 32) :
    (2 ^ 32 + c).testBit j = (decide (j = 32) || c.testBit j) := by
  have h := Nat.testBit_two_pow_mul_add 1 hc j
  rw [Nat.mul_one] at h
  rw [h]
  by_cases hj : j < 32
  · rw [if_pos hj]; simp [show j ≠ 32 by omega]
  · rw [if_neg hj]
    have : c.testBit j = false :=
      Nat.testBit_lt_two_pow (lt_of_lt_of_le hc (Nat.pow_le_pow_right (by norm_num) (by omega)))
    rw [this]
    by_cases h32 : j = 32
    · subst h32; simp
    · have : j - 32 ≠ 0 := by omega
      have h1 : Nat.testBit 1 (j - 32) = false :=
        Nat.testBit_lt_two_pow (Nat.one_lt_two_pow this)
      simp [h32, h1]

theorem rot16_33 (c a : Nat) (hc : c < 2 ^ 32) :
    ((((2 ^ 32 + c) ^^^ a) <<< 16) &&& 0xFFFFFFFF) ||| (((2 ^ 32 + c) ^^^ a) >>> 16) =
      (((c ^^^ a) <<< 16) &&& 0xFFFFFFFF) ||| (((2 ^ 32 + c) ^^^ a) >>> 16) := by
  congr 1
  rw [mask32, mask32]
  apply Nat.eq_of_testBit_eq
  intro i
  simp only [Nat.testBit_mod_two_pow, Nat.testBit_shiftLeft, Nat.testBit_xor, testBit_33 c _ hc]
  by_cases h1 : i < 32
  · rw [decide_eq_false (show ¬ i - 16 = 32 by omega)]
    simp
  · simp [h1]

theorem rot16_wrap (c a : Nat) (hc : c < 2 ^ 32)
    (hb : (c ^^^ a).testBit 0 = true) :
    ((((2 ^ 32 + c) ^^^ a) <<< 16) &&& 0xFFFFFFFF) ||| (((2 ^ 32 + c) ^^^ a) >>> 16) =
      (((c ^^^ a) <<< 16) &&& 0xFFFFFFFF) ||| ((c ^^^ a) >>> 16) := by
  rw [rot16_33 c a hc]
  apply Nat.eq_of_testBit_eq
  intro i
  simp only [mask32, Nat.testBit_or, Nat.testBit_mod_two_pow, Nat.testBit_shiftLeft,
    Nat.testBit_shiftRight, Nat.testBit_xor, testBit_33 c _ hc] at hb ⊢
  by_cases h16 : i = 16
  · subst h16
    simp only [ge_iff_le, le_refl, decide_true, Nat.sub_self, hb]
    simp
  · simp [show ¬ (16 + i = 32) by omega]

/-- For a counter of 33 bits the first quarter round forgets the top bit when the bit that is
rotated onto it is one. -/
theorem qRound_wrap (a b c d : Nat) (hd : d < 2 ^ 32)
    (hb : (d ^^^ ((a + b) % 2 ^ 32)).testBit 0 = true) :
    chachaQRound a b c (2 ^ 32 + d) = chachaQRound a b c d := by
  have h := rot16_wrap d ((a + b) % 2 ^ 32) hd hb
  rw [← mask32 (a + b)] at h
  simp only [chachaQRound]
  rw [h]

theorem quarterRound_set12 (l : List Nat) (d d' : Nat) (hl : l.length = 16)
    (h : chachaQRound (l.getD 0 0) (l.getD 4 0) (l.getD 8 0) d =
      chachaQRound (l.getD 0 0) (l.getD 4 0) (l.getD 8 0) d') :
    quarterRound (l.set 12 d) 0 4 8 12 = quarterRound (l.set 12 d') 0 4 8 12 := by
  have g : ∀ d, quarterRound (l.set 12 d) 0 4 8 12 =
      (let r := chachaQRound (l.getD 0 0) (l.getD 4 0) (l.getD 8 0) d
       (((l.set 0 r.1).set 4 r.2.1).set 8 r.2.2.1).set 12 r.2.2.2) := by
    intro d
    match l, hl with
    | [l0, l1, l2, l3, l4, l5, l6, l7, l8, l9, l10, l11, l12, l13, l14, l15], _ => rfl
  rw [g, g, h]

theorem block_wrap (l : List Nat) (d : Nat) (hl : l.length = 16) (hd : d < 2 ^ 32)
    (hb : (d ^^^ ((l.getD 0 0 + l.getD 4 0) % 2 ^ 32)).testBit 0 = true) :
    (ChaCha.mk (l.set 12 (2 ^ 32 + d))).block = (ChaCha.mk (l.set 12 d)).block := by
  have hq := quarterRound_set12 l (2 ^ 32 + d) d hl (qRound_wrap _ _ _ _ hd hb)
  have hi : innerLoop 10 (l.set 12 (2 ^ 32 + d)) = innerLoop 10 (l.set 12 d) := by
    have hib : innerBlock (l.set 12 (2 ^ 32 + d)) = innerBlock (l.set 12 d) := by
      unfold innerBlock
      rw [hq]
    rw [innerLoop, hib, ← innerLoop]
  simp only [ChaCha.block]
  rw [hi]
  generalize innerLoop 10 (l.set 12 d) = ws
  refine congrArg (fun x => (List.map packLE32 x).flatten) ?_
  apply List.ext_getElem
  · simp
  · intro i h1 h2
    simp only [List.getElem_zipWith, List.getElem_set]
    split
    · rw [mask32, mask32, Nat.add_assoc, Nat.add_mod_left]
    · rfl

end Cryptopy
