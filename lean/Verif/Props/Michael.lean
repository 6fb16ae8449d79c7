import Verif.Lemmas.Michael

/-!
Properties C45-C48: Michael and the TKIP message integrity check.
-/

namespace Cryptopy
open Model Spec

/-- Building a `Michael` object with a key and calling it on data. -/
def michaelOnce (key data : Bytes) : Py Bytes :=
  match Michael.new (some key) with
  | .error e => .error e
  | .ok o => o.call data

private theorem michaelOnce_eq (key data : Bytes) (hk : key.length = 8) :
    michaelOnce key data = .ok (michael key data) := by
  simp only [michaelOnce, michael_new key hk, Michael.call, michael_hash]
  rfl

/-- C45: the object computes Michael of 802.11i. -/
theorem C45_michael_value (key data : Bytes) (hk : key.length = 8) :
    michaelOnce key data = .ok (michael key data) ∧ (michael key data).length = 8 :=
  ⟨michaelOnce_eq key data hk, by simp [michael]⟩
example := C45_michael_value [1, 2, 3, 4, 5, 6, 7, 8] [9, 10] rfl

/-- C45: any other key length raises `AssertionError`. -/
theorem C45_michael_key_size (key data : Bytes) (hk : key.length ≠ 8) :
    michaelOnce key data = .error .assertion := by
  simp [michaelOnce, Michael.new, Michael.setKey, hk]
example := C45_michael_key_size [1, 2, 3] [9, 10] (by decide)

/-- C45: the incremental interface always raises a string exception, with or without a key, and an object without key
raises `AttributeError` when called. -/
theorem C45_no_incremental (o : Michael) (data : Bytes) :
    o.update data = .error .stringRaise ∧ o.digest = .error .stringRaise ∧ o.final data = .error .stringRaise ∧
    ((Michael.new none).bind fun o => o.call data) = .error .attribute := ⟨rfl, rfl, rfl, rfl⟩

/-- C45: the block function stays within 32 bits and is a bijection there. -/
theorem C45_michael_block_bijective :
    (∀ l r : Nat, l < 2 ^ 32 → r < 2 ^ 32 →
      (michaelB l r).1 < 2 ^ 32 ∧ (michaelB l r).2 < 2 ^ 32) ∧
    (∀ l' r' : Nat, l' < 2 ^ 32 → r' < 2 ^ 32 →
      ∃ l r : Nat, l < 2 ^ 32 ∧ r < 2 ^ 32 ∧ michaelB l r = (l', r')) ∧
    (∀ l r m s : Nat, l < 2 ^ 32 → r < 2 ^ 32 → m < 2 ^ 32 → s < 2 ^ 32 →
      michaelB l r = michaelB m s → l = m ∧ r = s) := by
  have hw : ∀ l : Nat, l < 2 ^ 32 → l = (BitVec.ofNat 32 l).toNat := by
    intro l hl; rw [BitVec.toNat_ofNat, Nat.mod_eq_of_lt hl]
  refine ⟨?_, ?_, ?_⟩
  · intro l r hl hr
    rw [hw l hl, hw r hr, michaelB_eq]
    exact ⟨BitVec.isLt _, BitVec.isLt _⟩
  · intro l' r' hl hr
    obtain ⟨⟨l, r⟩, h⟩ := michaelBlock_bijective.2 (BitVec.ofNat 32 l', BitVec.ofNat 32 r')
    simp only at h
    refine ⟨l.toNat, r.toNat, l.isLt, r.isLt, ?_⟩
    rw [michaelB_eq, h, ← hw l' hl, ← hw r' hr]
  · intro l r m s hl hr hm hs h
    rw [hw l hl, hw r hr, hw m hm, hw s hs, michaelB_eq, michaelB_eq] at h
    simp only [Prod.mk.injEq, BitVec.toNat_inj] at h
    have := michaelBlock_bijective.1 (a₁ := (BitVec.ofNat 32 l, BitVec.ofNat 32 r))
      (a₂ := (BitVec.ofNat 32 m, BitVec.ofNat 32 s)) (Prod.ext h.1 h.2)
    simp only [Prod.mk.injEq] at this
    rw [hw l hl, hw r hr, hw m hm, hw s hs, this.1, this.2]
    exact ⟨rfl, rfl⟩

private theorem key_words (key : Bytes) (hk : key.length = 8) :
    key = leBytes 4 (leWord key 0).toNat ++ leBytes 4 (leWord key 1).toNat := by
  have h := leWords_inv 2 key hk
  simpa [leWords, hk, List.range_succ] using h.symm

private theorem words_key (l r : Word) :
    leWord (leBytes 4 l.toNat ++ leBytes 4 r.toNat) 0 = l ∧
    leWord (leBytes 4 l.toNat ++ leBytes 4 r.toNat) 1 = r := by
  have hl : (leBytes 4 l.toNat).length = 4 := by simp
  have e1 : leWord (leBytes 4 l.toNat ++ leBytes 4 r.toNat) 0 = leWord (leBytes 4 l.toNat) 0 := by
    simp only [leWord, Nat.mul_zero, List.drop_zero]
    rw [List.take_left' hl, List.take_of_length_le (by omega)]
  have e2 : leWord (leBytes 4 l.toNat ++ leBytes 4 r.toNat) 1 = leWord (leBytes 4 r.toNat) 0 := by
    simp only [leWord, Nat.mul_zero, Nat.mul_one, List.drop_zero]
    rw [List.drop_left' hl]
  rw [e1, e2]
  exact ⟨leWord_leBytes4 l, leWord_leBytes4 r⟩

/-- C46: for every message and every 8 octet value there is exactly one key that gives this value:
a message with its MIC determines the key. -/
theorem C46_michael_key_recovery (data mic : Bytes) (hm : mic.length = 8) :
    ∃! key : Bytes, key.length = 8 ∧ michaelOnce key data = .ok mic := by
  obtain ⟨⟨l, r⟩, hlr⟩ := (michaelAbsorb_bijective (leWords (michaelPad data))).2
    (leWord mic 0, leWord mic 1)
  refine ⟨leBytes 4 l.toNat ++ leBytes 4 r.toNat, ⟨by simp, ?_⟩, ?_⟩
  · rw [michaelOnce_eq _ _ (by simp), michael, (words_key l r).1, (words_key l r).2, hlr]
    exact congrArg Except.ok (key_words mic hm).symm
  · rintro key ⟨hk, h⟩
    rw [michaelOnce_eq _ _ hk] at h
    simp only [Except.ok.injEq, michael] at h
    have h2 : michaelAbsorb (leWords (michaelPad data)) (leWord key 0, leWord key 1) =
        (leWord mic 0, leWord mic 1) := by
      rw [← h]
      have := words_key (michaelAbsorb (leWords (michaelPad data)) (leWord key 0, leWord key 1)).1
        (michaelAbsorb (leWords (michaelPad data)) (leWord key 0, leWord key 1)).2
      rw [this.1, this.2]
    have h3 := (michaelAbsorb_bijective (leWords (michaelPad data))).1 (h2.trans hlr.symm)
    simp only [Prod.mk.injEq] at h3
    rw [key_words key hk, h3.1, h3.2]
example := C46_michael_key_recovery [9, 10] (List.replicate 8 0xff) rfl

/-- C46: one pass over the message in reverse computes this key. -/
theorem C46_michael_key_computed (data mic key : Bytes) (hk : key.length = 8)
    (h : michaelOnce key data = .ok mic) : michaelKey data mic = key := by
  rw [michaelOnce_eq _ _ hk] at h
  cases h
  have w := words_key (michaelAbsorb (leWords (michaelPad data)) (leWord key 0, leWord key 1)).1
    (michaelAbsorb (leWords (michaelPad data)) (leWord key 0, leWord key 1)).2
  simp only [michaelKey, michael, w.1, w.2, Prod.mk.eta]
  rw [michaelUnabsorb_absorb]
  exact (key_words key hk).symm

-- The zero key is found from the MIC of the empty message.
example : michaelKey [] [0x82, 0x92, 0x5c, 0x1c, 0xa1, 0xd1, 0x30, 0xb8] = [0, 0, 0, 0, 0, 0, 0, 0] := by decide +kernel

/-- C47: the padded message has exactly `len/4 + 2` blocks of four octets. -/
theorem C47_michael_padded_length (data : Bytes) :
    (michaelPadded data).length = 4 * (data.length / 4 + 2) := by
  rw [michaelPadded_eq, length_michaelPad]

/-- C47: distinct messages have distinct sequences of blocks. -/
theorem C47_michael_padding_injective (a b : Bytes)
    (h : leWords (michaelPadded a) = leWords (michaelPadded b)) : a = b := by
  have := leWords_injective _ _ _ _ (C47_michael_padded_length a) (C47_michael_padded_length b) h
  rw [michaelPadded_eq, michaelPadded_eq] at this
  exact michaelPad_injective this

example : michaelOnce [0, 0, 0, 0, 0, 0, 0, 0] [] = .ok [0x82, 0x92, 0x5c, 0x1c, 0xa1, 0xd1, 0x30, 0xb8] := by
  decide +kernel

/-! ### C48 -/

/-- What D3 authenticates. -/
def tkipD3 (sa da : Bytes) (priority : Nat) (data : Bytes) : Bytes :=
  da ++ sa ++ [UInt8.ofNat priority, 0, 0, 0] ++ data

/-- C48: D3. -/
theorem C48_tkip_mic_D3 (key sa da : Bytes) (priority : Nat) (data : Bytes) (o : Michael)
    (ho : Michael.new (some key) = .ok o) (hp : priority ≤ 15) (hs : sa.length = 6)
    (hd : da.length = 6) :
    TkipMic.hash ⟨.D3, o⟩ sa da priority data = .ok (michael key (tkipD3 sa da priority data)) := by
  have hk : key.length = 8 := by
    by_contra hk; simp [Michael.new, Michael.setKey, hk] at ho
  have h := michaelOnce_eq key (tkipD3 sa da priority data) hk
  simp only [michaelOnce, ho, Michael.call] at h
  rw [← h]
  unfold TkipMic.hash
  rw [if_neg (by omega), if_neg (by omega)]
  simp [tkipD3, List.replicate_succ]
example := C48_tkip_mic_D3 [1, 2, 3, 4, 5, 6, 7, 8] (List.replicate 6 1) (List.replicate 6 2) 15 [3] _ rfl (by decide) rfl rfl

/-- C48: D2 leaves out the priority. -/
theorem C48_tkip_mic_D2 (key sa da : Bytes) (priority : Nat) (data : Bytes) (o : Michael)
    (ho : Michael.new (some key) = .ok o) (hp : priority ≤ 15) (hs : sa.length = 6)
    (hd : da.length = 6) :
    TkipMic.hash ⟨.D2, o⟩ sa da priority data = .ok (michael key (da ++ sa ++ data)) := by
  have hk : key.length = 8 := by
    by_contra hk; simp [Michael.new, Michael.setKey, hk] at ho
  have h := michaelOnce_eq key (da ++ sa ++ data) hk
  simp only [michaelOnce, ho, Michael.call] at h
  rw [← h]
  unfold TkipMic.hash
  rw [if_neg (by omega), if_neg (by omega)]
example := C48_tkip_mic_D2 [1, 2, 3, 4, 5, 6, 7, 8] (List.replicate 6 1) (List.replicate 6 2) 15 [3] _ rfl (by decide) rfl rfl

/-- C48: for D3 the authenticated string determines all four inputs. -/
theorem C48_tkip_mic_D3_injective (sa da data sa' da' data' : Bytes) (p p' : Nat)
    (hp : p ≤ 15) (hp' : p' ≤ 15) (hs : sa.length = 6) (hd : da.length = 6) (hs' : sa'.length = 6)
    (hd' : da'.length = 6) (h : tkipD3 sa da p data = tkipD3 sa' da' p' data') :
    sa = sa' ∧ da = da' ∧ p = p' ∧ data = data' := by
  unfold tkipD3 at h
  rw [List.append_assoc, List.append_assoc, List.append_assoc, List.append_assoc] at h
  obtain ⟨h1, h2⟩ := List.append_inj h (by omega)
  obtain ⟨h3, h4⟩ := List.append_inj h2 (by omega)
  simp only [List.cons_append, List.nil_append, List.cons.injEq, true_and] at h4
  have h5 := congrArg UInt8.toNat h4.1
  simp only [UInt8.toNat_ofNat'] at h5
  exact ⟨h3, h1, by omega, h4.2⟩
example := C48_tkip_mic_D3_injective (List.replicate 6 1) (List.replicate 6 2) [3] (List.replicate 6 1) (List.replicate 6 2)
  [3] 7 7 (by decide) (by decide) rfl rfl rfl rfl rfl

/-- C48: bad priorities and address sizes raise `AssertionError`. -/
theorem C48_tkip_mic_asserts (o : TkipMic) (sa da : Bytes) (priority : Int) (data : Bytes)
    (h : priority < 0 ∨ 15 < priority ∨ sa.length ≠ 6 ∨ da.length ≠ 6) :
    o.hash sa da priority data = .error .assertion := by
  unfold TkipMic.hash
  by_cases hp : 0 ≤ priority ∧ priority ≤ 15
  · rw [if_neg (by omega), if_pos (by omega)]
  · rw [if_pos hp]
example (o : TkipMic) := C48_tkip_mic_asserts o (List.replicate 6 1) (List.replicate 6 2) 16 [3] (by decide)

/-- C48: other versions raise, and calling the object raises `TypeError`. -/
theorem C48_tkip_mic_version (b : Michael) (sa da : Bytes) (priority : Nat) (data : Bytes)
    (hp : priority ≤ 15) (hs : sa.length = 6) (hd : da.length = 6) :
    TkipMic.hash ⟨.other, b⟩ sa da priority data = .error .stringRaise := by
  unfold TkipMic.hash
  rw [if_neg (by omega), if_neg (by omega)]
example (b : Michael) := C48_tkip_mic_version b (List.replicate 6 1) (List.replicate 6 2) 3 [3] (by decide) rfl rfl

/-- C48: calling the object raises `TypeError`. -/
theorem C48_tkip_mic_call (o : TkipMic) (data : Bytes) : o.call data = .error .type := rfl

example : TkipMic.hash ⟨.D3, ⟨some (0, 0)⟩⟩ [1, 2, 3, 4, 5, 6] [7, 8, 9, 10, 11, 12] 3 [1] =
    .ok (michael [0, 0, 0, 0, 0, 0, 0, 0] (tkipD3 [1, 2, 3, 4, 5, 6] [7, 8, 9, 10, 11, 12] 3 [1])) := by
  decide +kernel

end Cryptopy
