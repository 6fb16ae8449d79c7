import Verif.Model.Michael
import Verif.Spec.Michael
import Verif.Lemmas.Poly1305
import Mathlib.Data.Finite.Prod
import Mathlib.Data.Fintype.EquivFin

namespace Cryptopy
open Model Spec

instance bitvecFinite (n : Nat) : Finite (BitVec n) :=
  Finite.of_injective (fun x : BitVec n => x.toFin) (fun _ _ h => BitVec.eq_of_toFin_eq h)

/-! ### Michael -/

theorem rotL_masked (d : Word) (k m : Nat) (hk : k < 32) (hm : m = 2 ^ k - 1) :
    ((d.toNat <<< k) &&& 0xFFFFFFFF) ||| ((d.toNat >>> (32 - k)) &&& m) =
      (d.rotateLeft k).toNat := by
  have h1 : d.toNat >>> (32 - k) < 2 ^ k := by
    rw [Nat.shiftRight_eq_div_pow]
    apply Nat.div_lt_of_lt_mul
    rw [← pow_add, show 32 - k + k = 32 by omega]
    exact d.isLt
  rw [hm, Nat.and_two_pow_sub_one_eq_mod, Nat.mod_eq_of_lt h1]
  exact rot_eq d k hk

theorem rotateRight_two (w : Word) : w.rotateRight 2 = w.rotateLeft 30 := by
  apply BitVec.eq_of_getElem_eq
  intro i hi
  rw [BitVec.getElem_rotateRight, BitVec.getElem_rotateLeft]

theorem xswap_bits (w : Word) :
    ((w &&& 0xff00ff00#32) >>> 8) ||| ((w &&& 0x00ff00ff#32) <<< 8) = xswap w := by
  apply BitVec.eq_of_getElem_eq
  intro i hi
  have : ∀ i < 32, (((w &&& 0xff00ff00#32) >>> 8) ||| ((w &&& 0x00ff00ff#32) <<< 8)).getLsbD i =
      (xswap w).getLsbD i := by
    intro i hi
    have hx : (xswap w).getLsbD i = @BitVec.getLsbD (8 + 8 + 8 + 8)
        ((w.extractLsb' 16 8) ++ (w.extractLsb' 24 8) ++ (w.extractLsb' 0 8) ++
          (w.extractLsb' 8 8)) i := rfl
    rw [hx, BitVec.getLsbD_append, BitVec.getLsbD_append, BitVec.getLsbD_append]
    interval_cases i <;> simp
  simpa [BitVec.getLsbD_eq_getElem hi] using this i hi

theorem xswap_eq (w : Word) :
    ((w.toNat &&& 0xff00ff00) >>> 8) ||| ((w.toNat &&& 0x00ff00ff) <<< 8) = (xswap w).toNat := by
  rw [← xswap_bits, BitVec.toNat_or, BitVec.toNat_ushiftRight, BitVec.toNat_shiftLeft,
    BitVec.toNat_and, BitVec.toNat_and]
  have h : w.toNat &&& 0x00ff00ff ≤ 0x00ff00ff := Nat.and_le_right
  have : (w.toNat &&& (0x00ff00ff#32).toNat) <<< 8 < 2 ^ 32 := by
    simp only [BitVec.toNat_ofNat, Nat.shiftLeft_eq]
    norm_num
    omega
  rw [Nat.mod_eq_of_lt this]
  rfl

theorem michaelB_eq (l r : Word) :
    michaelB l.toNat r.toNat = ((michaelBlock l r).1.toNat, (michaelBlock l r).2.toNat) := by
  have h17 : ∀ d : Word, ((d.toNat <<< 17) &&& 0xffffffff) ||| ((d.toNat >>> 15) &&& 0x1ffff) =
      (d.rotateLeft 17).toNat := fun d => rotL_masked d 17 _ (by omega) rfl
  have h3 : ∀ d : Word, ((d.toNat <<< 3) &&& 0xffffffff) ||| ((d.toNat >>> 29) &&& 0x7) =
      (d.rotateLeft 3).toNat := fun d => rotL_masked d 3 _ (by omega) rfl
  have h30 : ∀ d : Word, ((d.toNat <<< 30) &&& 0xffffffff) ||| ((d.toNat >>> 2) &&& 0x3fffffff) =
      (d.rotateLeft 30).toNat := fun d => rotL_masked d 30 _ (by omega) rfl
  simp only [michaelB, michaelBlock, h17, ← BitVec.toNat_xor, add_eq, xswap_eq, h3, h30,
    rotateRight_two]

theorem michaelBlock_bijective : Function.Bijective fun p : Word × Word => michaelBlock p.1 p.2 := by
  rw [← Finite.injective_iff_bijective]
  have step : ∀ f : Word → Word, Function.Injective fun p : Word × Word =>
      (p.1 + (p.2 ^^^ f p.1), p.2 ^^^ f p.1) := by
    rintro f ⟨l, r⟩ ⟨l', r'⟩ h
    simp only [Prod.mk.injEq] at h
    obtain ⟨h1, h2⟩ := h
    rw [h2] at h1
    have hl : l = l' := by simpa using h1
    subst hl
    have hr : r = r' := by simpa using h2
    rw [hr]
  have := (step fun l => l.rotateRight 2).comp ((step fun l => l.rotateLeft 3).comp
    ((step xswap).comp (step fun l => l.rotateLeft 17)))
  exact this

theorem unpackI_eq (s : Bytes) (h : s.length = 4) : unpackI s = .ok (leWord s 0).toNat := by
  match s, h with
  | [a, b, c, d], _ =>
    simp only [unpackI, leWord, Nat.mul_zero, List.drop_zero, List.take_succ_cons, List.take_zero,
      leValue, BitVec.toNat_ofNat]
    have := a.toNat_lt
    have := b.toNat_lt
    have := c.toNat_lt
    have := d.toNat_lt
    rw [Nat.mod_eq_of_lt (by omega)]
    congr 1; omega

theorem michaelLoop_eq (padded : Bytes) (k i : Nat) (l r : Word) (h : 4 * (i + k) ≤ padded.length) :
    michaelLoop padded k i (l.toNat, r.toNat) =
      .ok ((michaelAbsorb ((List.range' i k).map (leWord padded)) (l, r)).1.toNat,
        (michaelAbsorb ((List.range' i k).map (leWord padded)) (l, r)).2.toNat) := by
  induction k generalizing i l r with
  | zero => rfl
  | succ k ih =>
    have hs : (padded.take (i * 4 + 4)).drop (i * 4) = (padded.drop (4 * i)).take 4 := by
      rw [List.drop_take, show i * 4 + 4 - i * 4 = 4 by omega, Nat.mul_comm]
    have hu : unpackI ((padded.take (i * 4 + 4)).drop (i * 4)) = .ok (leWord padded i).toNat := by
      rw [hs, unpackI_eq _ (by simp; omega)]
      simp [leWord, List.take_take]
    simp only [michaelLoop, hu, ← BitVec.toNat_xor, michaelB_eq]
    rw [ih (i + 1) _ _ (by omega), List.range'_succ]
    rfl

theorem michaelPadded_eq (m : Bytes) : michaelPadded m = michaelPad m := by
  unfold michaelPadded michaelPad
  have : 7 - m.length % 4 = 4 + (4 - (m.length + 1) % 4) % 4 := by omega
  rw [this]; simp

theorem length_michaelPad (m : Bytes) : (michaelPad m).length = 4 * (m.length / 4 + 2) := by
  simp [michaelPad]; omega

/-- The object holding an 8 octet key. -/
theorem michael_new (key : Bytes) (hk : key.length = 8) :
    Michael.new (some key) = .ok ⟨some ((leWord key 0).toNat, (leWord key 1).toNat)⟩ := by
  have h0 : unpackI (key.take 4) = .ok (leWord key 0).toNat := by
    rw [unpackI_eq _ (by simp; omega)]; simp [leWord, List.take_take]
  have h1 : unpackI (key.drop 4) = .ok (leWord key 1).toNat := by
    rw [unpackI_eq _ (by simp; omega)]; simp [leWord]
  simp [Michael.new, Michael.setKey, hk, h0, h1]

theorem michael_hash (l r : Word) (m : Bytes) :
    Michael.hash ⟨some (l.toNat, r.toNat)⟩ m =
      let s := michaelAbsorb (leWords (michaelPad m)) (l, r)
      .ok (leBytes 4 s.1.toNat ++ leBytes 4 s.2.toNat) := by
  simp only [Michael.hash, michaelPadded_eq]
  rw [michaelLoop_eq _ _ _ _ _ (by rw [length_michaelPad]; omega)]
  simp only [packLE32_eq, leWords, length_michaelPad, List.range_eq_range']
  rw [show 4 * (m.length / 4 + 2) / 4 = m.length / 4 + 2 by omega]

theorem michaelAbsorb_bijective (ms : List Word) : Function.Bijective (michaelAbsorb ms) := by
  induction ms with
  | nil => exact Function.bijective_id
  | cons m ms ih =>
    have h1 : Function.Bijective fun p : Word × Word => (p.1 ^^^ m, p.2) := by
      rw [← Finite.injective_iff_bijective]
      rintro ⟨l, r⟩ ⟨l', r'⟩ h
      simp only [Prod.mk.injEq, BitVec.xor_left_inj] at h
      rw [h.1, h.2]
    have := ih.comp (michaelBlock_bijective.comp h1)
    exact this

theorem michaelUnblock_block (l r : Word) :
    michaelUnblock (michaelBlock l r).1 (michaelBlock l r).2 = (l, r) := by
  have x : ∀ a b : Word, a ^^^ b ^^^ b = a := by intro a b; rw [BitVec.xor_assoc]; simp
  simp only [michaelBlock, michaelUnblock, BitVec.add_sub_cancel, x]

theorem michaelUnabsorb_absorb (ms : List Word) (s : Word × Word) :
    michaelUnabsorb ms (michaelAbsorb ms s) = s := by
  induction ms generalizing s with
  | nil => rfl
  | cons m ms ih =>
    obtain ⟨l, r⟩ := s
    simp only [michaelAbsorb, michaelUnabsorb, ih, michaelUnblock_block]
    rw [BitVec.xor_assoc]; simp

theorem michaelPad_injective : Function.Injective michaelPad := by
  have key : ∀ a b : Bytes, michaelPad a = michaelPad b → ¬ a.length < b.length := by
    intro a b h hlt
    have hla := length_michaelPad a
    have hlb := length_michaelPad b
    have e1 : (michaelPad b)[b.length]? = some 0x5a := by simp [michaelPad]
    have hlen : b.length < (michaelPad a).length := by rw [h, hlb]; omega
    have e2 : (michaelPad a)[b.length]? = some 0 := by
      obtain ⟨j, hj⟩ := Nat.exists_eq_add_of_lt hlt
      have hlen2 := hlen
      simp only [michaelPad, List.length_append, List.length_cons, List.length_replicate] at hlen2
      unfold michaelPad
      rw [List.getElem?_append_right (by omega), hj,
        show a.length + j + 1 - a.length = j + 1 by omega, List.getElem?_cons_succ,
        List.getElem?_replicate, if_pos (by omega)]
    rw [h, e1] at e2
    simp at e2
  intro a b h
  have h1 := key a b h
  have h2 := key b a h.symm
  have hl : a.length = b.length := by omega
  have := congrArg (List.take a.length) h
  rw [michaelPad, michaelPad, List.take_left] at this
  rw [this, hl, List.take_left]

theorem leWords_inv (n : Nat) (s : Bytes) (h : s.length = 4 * n) :
    (leWords s).flatMap (fun w => leBytes 4 w.toNat) = s := by
  induction n generalizing s with
  | zero =>
    have : s = [] := List.length_eq_zero_iff.mp (by omega)
    subst this; rfl
  | succ n ih =>
    have h4 : (s.drop 4).length = 4 * n := by simp; omega
    have htl := ih (s.drop 4) h4
    have hw : leWords s = leWord s 0 :: leWords (s.drop 4) := by
      unfold leWords
      rw [h, h4, show 4 * (n + 1) / 4 = n + 1 by omega, show 4 * n / 4 = n by omega,
        List.range_succ_eq_map, List.map_cons, List.map_map]
      congr 1
      apply List.map_congr_left
      intro i _
      simp only [Function.comp, leWord, List.drop_drop]
      congr 4; omega
    rw [hw, List.flatMap_cons, htl]
    have hl : (s.take 4).length = 4 := by simp; omega
    have h0 : leBytes 4 (leWord s 0).toNat = s.take 4 := by
      have := leBytes_leValue (s.take 4)
      rw [hl] at this
      simp only [leWord, Nat.mul_zero, List.drop_zero, BitVec.toNat_ofNat]
      rw [Nat.mod_eq_of_lt, this]
      have := leValue_lt (s.take 4)
      rw [hl] at this
      exact this
    rw [h0, List.take_append_drop]

theorem leWords_injective (s t : Bytes) (n m : Nat) (hs : s.length = 4 * n) (ht : t.length = 4 * m)
    (h : leWords s = leWords t) : s = t := by
  rw [← leWords_inv n s hs, ← leWords_inv m t ht, h]

theorem leBytes4_word (s : Bytes) (h : s.length = 4) : leBytes 4 (leWord s 0).toNat = s := by
  have := leWords_inv 1 s (by omega)
  simpa [leWords, h] using this

theorem leWord_leBytes4 (w : Word) : leWord (leBytes 4 w.toNat) 0 = w := by
  apply BitVec.eq_of_toNat_eq
  have h1 : (leBytes 4 w.toNat).take 4 = leBytes 4 w.toNat := List.take_of_length_le (by simp)
  have := w.isLt
  simp only [leWord, Nat.mul_zero, List.drop_zero, h1, leValue_leBytes, BitVec.toNat_ofNat]
  omega

end Cryptopy
