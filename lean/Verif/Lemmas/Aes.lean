import Verif.Lemmas.Encoding
import Verif.Spec.Aes

/-!
Facts about AES (`Spec/Aes.lean`): lengths, and that every key gives a permutation of the blocks.
-/

namespace Cryptopy.Spec.Aes

theorem sboxTable_nodup : sboxTable.Nodup := by decide +kernel

theorem sbox_injective : Function.Injective sbox := by
  intro a b h
  have hl : sboxTable.length = 256 := by decide +kernel
  have ha : a.toNat < sboxTable.length := by rw [hl]; exact a.toNat_lt
  have hb : b.toNat < sboxTable.length := by rw [hl]; exact b.toNat_lt
  rw [sbox, sbox, List.getD_eq_getElem?_getD, List.getD_eq_getElem?_getD, List.getElem?_eq_getElem ha,
    List.getElem?_eq_getElem hb] at h
  exact UInt8.toNat_inj.mp ((sboxTable_nodup.getElem_inj_iff).mp h)

private theorem xor_cancel (a b : UInt8) : a ^^^ (a ^^^ b) = b := by
  rw [← UInt8.xor_assoc, UInt8.xor_self, UInt8.zero_xor]

private theorem xor_left_comm (a b c : UInt8) : a ^^^ (b ^^^ c) = b ^^^ (a ^^^ c) := by
  rw [← UInt8.xor_assoc, UInt8.xor_comm a b, UInt8.xor_assoc]

private theorem top_fin : ∀ a : Fin 256, (UInt8.ofNat a < 0x80 ↔ (UInt8.ofNat a).toNat.testBit 7 = false) := by
  decide +kernel

/-- Doubling is additive. -/
theorem xtime_xor (a b : UInt8) : xtime (a ^^^ b) = xtime a ^^^ xtime b := by
  have ht : ∀ a : UInt8, (a < 0x80 ↔ a.toNat.testBit 7 = false) := by
    intro a
    simpa using top_fin ⟨a.toNat, a.toNat_lt⟩
  have hs : (a ^^^ b) <<< (1 : UInt8) = a <<< 1 ^^^ b <<< 1 := UInt8.shiftLeft_xor
  simp only [xtime, ht, UInt8.toNat_xor, Nat.testBit_xor, hs]
  generalize a <<< 1 = x
  generalize b <<< 1 = y
  cases a.toNat.testBit 7 <;> cases b.toNat.testBit 7 <;> simp [UInt8.xor_assoc, UInt8.xor_comm, xor_left_comm]

/-- One octet of `MixColumns`. -/
def mix (a b c d : UInt8) : UInt8 := xtime a ^^^ (xtime b ^^^ b) ^^^ c ^^^ d

/-- One octet of `InvMixColumns`, FIPS 197 section 5.3.3: `14 a + 11 b + 13 c + 9 d`. -/
def unmix (a b c d : UInt8) : UInt8 :=
  (xtime (xtime (xtime a)) ^^^ xtime (xtime a) ^^^ xtime a) ^^^ (xtime (xtime (xtime b)) ^^^ xtime b ^^^ b) ^^^
    (xtime (xtime (xtime c)) ^^^ xtime (xtime c) ^^^ c) ^^^ (xtime (xtime (xtime d)) ^^^ d)

theorem unmix_mix (a b c d : UInt8) : unmix (mix a b c d) (mix b c d a) (mix c d a b) (mix d a b c) = a := by
  simp only [unmix, mix, xtime_xor]
  have key : ∀ v : UInt8, ∃ v1 v2 v3 v4, xtime v = v1 ∧ xtime v1 = v2 ∧ xtime v2 = v3 ∧ xtime v3 = v4 :=
    fun v => ⟨_, _, _, _, rfl, rfl, rfl, rfl⟩
  obtain ⟨a1, a2, a3, a4, ha1, ha2, ha3, ha4⟩ := key a
  obtain ⟨b1, b2, b3, b4, hb1, hb2, hb3, hb4⟩ := key b
  obtain ⟨c1, c2, c3, c4, hc1, hc2, hc3, hc4⟩ := key c
  obtain ⟨d1, d2, d3, d4, hd1, hd2, hd3, hd4⟩ := key d
  simp only [ha1, ha2, ha3, ha4, hb1, hb2, hb3, hb4, hc1, hc2, hc3, hc4, hd1, hd2, hd3, hd4]
  clear ha1 ha2 ha3 ha4 hb1 hb2 hb3 hb4 hc1 hc2 hc3 hc4 hd1 hd2 hd3 hd4 key
  simp only [UInt8.xor_comm, xor_left_comm, xor_cancel, UInt8.xor_self, UInt8.xor_zero]

theorem length_shiftRows (s : Bytes) : (shiftRows s).length = 16 := by simp [shiftRows]

theorem length_mixColumns (s : Bytes) : (mixColumns s).length = 16 := by simp [mixColumns]

theorem length_roundKey (w : Bytes) (r : Nat) : (roundKey w r).length = 16 := by simp [roundKey]

/-- Two lists of 16 octets with the same octets at the 16 places are equal. -/
theorem ext16 {s t : Bytes} (hs : s.length = 16) (ht : t.length = 16)
    (h : ∀ i, i < 16 → s.getD i 0 = t.getD i 0) : s = t := by
  apply List.ext_getElem (by omega)
  intro i hi hi'
  have := h i (by omega)
  simpa [List.getD_eq_getElem?_getD, List.getElem?_eq_getElem hi, List.getElem?_eq_getElem hi'] using this

private theorem getD_range (f : Nat → UInt8) {i : Nat} (hi : i < 16) :
    ((List.range 16).map f).getD i 0 = f i := by
  simp [List.getD_eq_getElem?_getD, hi]

/-- No two states go to the same one by `ShiftRows`. -/
theorem shiftRows_injective {s t : Bytes} (hs : s.length = 16) (ht : t.length = 16)
    (h : shiftRows s = shiftRows t) : s = t := by
  apply ext16 hs ht
  have hg : ∀ i, i < 16 → s.getD (4 * ((i / 4 + i % 4) % 4) + i % 4) 0 =
      t.getD (4 * ((i / 4 + i % 4) % 4) + i % 4) 0 := by
    intro i hi
    have := congrArg (fun l => l.getD i 0) h
    simpa only [shiftRows, getD_range _ hi] using this
  intro i hi
  have := hg (4 * ((i / 4 + (4 - i % 4)) % 4) + i % 4) (by omega)
  rwa [show 4 * (((4 * ((i / 4 + (4 - i % 4)) % 4) + i % 4) / 4 + (4 * ((i / 4 + (4 - i % 4)) % 4) + i % 4) % 4) % 4) +
    (4 * ((i / 4 + (4 - i % 4)) % 4) + i % 4) % 4 = i by omega] at this

/-- No two states go to the same one by `MixColumns`. -/
theorem mixColumns_injective {s t : Bytes} (hs : s.length = 16) (ht : t.length = 16)
    (h : mixColumns s = mixColumns t) : s = t := by
  apply ext16 hs ht
  have hg : ∀ i, i < 16 → mix (s.getD (4 * (i / 4) + (i + 0) % 4) 0) (s.getD (4 * (i / 4) + (i + 1) % 4) 0)
        (s.getD (4 * (i / 4) + (i + 2) % 4) 0) (s.getD (4 * (i / 4) + (i + 3) % 4) 0) =
      mix (t.getD (4 * (i / 4) + (i + 0) % 4) 0) (t.getD (4 * (i / 4) + (i + 1) % 4) 0)
        (t.getD (4 * (i / 4) + (i + 2) % 4) 0) (t.getD (4 * (i / 4) + (i + 3) % 4) 0) := by
    intro i hi
    have := congrArg (fun l => l.getD i 0) h
    simpa only [mixColumns, mix, getD_range _ hi] using this
  intro i hi
  have e : ∀ l : Bytes, l.getD i 0 = unmix
      (mix (l.getD (4 * (i / 4) + i % 4) 0) (l.getD (4 * (i / 4) + (i + 1) % 4) 0)
        (l.getD (4 * (i / 4) + (i + 2) % 4) 0) (l.getD (4 * (i / 4) + (i + 3) % 4) 0))
      (mix (l.getD (4 * (i / 4) + (i + 1) % 4) 0) (l.getD (4 * (i / 4) + (i + 2) % 4) 0)
        (l.getD (4 * (i / 4) + (i + 3) % 4) 0) (l.getD (4 * (i / 4) + i % 4) 0))
      (mix (l.getD (4 * (i / 4) + (i + 2) % 4) 0) (l.getD (4 * (i / 4) + (i + 3) % 4) 0)
        (l.getD (4 * (i / 4) + i % 4) 0) (l.getD (4 * (i / 4) + (i + 1) % 4) 0))
      (mix (l.getD (4 * (i / 4) + (i + 3) % 4) 0) (l.getD (4 * (i / 4) + i % 4) 0)
        (l.getD (4 * (i / 4) + (i + 1) % 4) 0) (l.getD (4 * (i / 4) + (i + 2) % 4) 0)) := by
    intro l
    rw [unmix_mix, show 4 * (i / 4) + i % 4 = i by omega]
  have h0 := hg i hi
  have h1 := hg (4 * (i / 4) + (i + 1) % 4) (by omega)
  have h2 := hg (4 * (i / 4) + (i + 2) % 4) (by omega)
  have h3 := hg (4 * (i / 4) + (i + 3) % 4) (by omega)
  have q : ∀ k, (4 * (i / 4) + (i + k) % 4) / 4 = i / 4 := by intro k; omega
  have r : ∀ k m, (4 * (i / 4) + (i + k) % 4 + m) % 4 = (i + (k + m)) % 4 := by intro k m; omega
  have r0 : ∀ k, (4 * (i / 4) + (i + k) % 4) % 4 = (i + k) % 4 := by intro k; omega
  have z : (i + 4) % 4 = i % 4 := by omega
  have z1 : (i + 5) % 4 = (i + 1) % 4 := by omega
  have z2 : (i + 6) % 4 = (i + 2) % 4 := by omega
  simp only [q, r, r0, Nat.reduceAdd, z, z1, z2, Nat.add_zero] at h0 h1 h2 h3
  rw [e s, e t, h0, h1, h2, h3]

theorem xorBytes_right_injective {a b k : Bytes} (ha : a.length = 16) (hb : b.length = 16) (hk : k.length = 16)
    (h : xorBytes a k = xorBytes b k) : a = b := by
  rw [← xorBytes_self_right (a := a) (b := k) (by omega), ← xorBytes_self_right (a := b) (b := k) (by omega), h]

theorem length_round (w s : Bytes) (r : Nat) : (round w s r).length = 16 := by
  rw [round, length_xorBytes, length_mixColumns, length_roundKey]; rfl

theorem length_rounds (w : Bytes) (rs : List Nat) : ∀ s : Bytes, s.length = 16 → (rs.foldl (round w) s).length = 16 := by
  induction rs with
  | nil => intro s hs; exact hs
  | cons r rs ih => intro s hs; exact ih _ (length_round w s r)

theorem round_injective (w : Bytes) (r : Nat) {s t : Bytes} (hs : s.length = 16) (ht : t.length = 16)
    (h : round w s r = round w t r) : s = t := by
  have h1 := xorBytes_right_injective (length_mixColumns _) (length_mixColumns _) (length_roundKey w r) h
  have h2 := mixColumns_injective (length_shiftRows _) (length_shiftRows _) h1
  have h3 := shiftRows_injective (by simpa using hs) (by simpa using ht) h2
  exact List.map_injective_iff.mpr sbox_injective h3

theorem rounds_injective (w : Bytes) (rs : List Nat) : ∀ s t : Bytes, s.length = 16 → t.length = 16 →
    rs.foldl (round w) s = rs.foldl (round w) t → s = t := by
  induction rs with
  | nil => intro s t _ _ h; exact h
  | cons r rs ih =>
    intro s t hs ht h
    exact round_injective w r hs ht (ih _ _ (length_round w s r) (length_round w t r) h)

theorem length_encrypt (key block : Bytes) : (encrypt key block).length = 16 := by
  rw [encrypt, cipher, length_xorBytes, length_shiftRows, length_roundKey]; rfl

/-- Under every key no two blocks are enciphered to the same one. -/
theorem encrypt_injective (key : Bytes) {a b : Bytes} (ha : a.length = 16) (hb : b.length = 16)
    (h : encrypt key a = encrypt key b) : a = b := by
  have hx : ∀ c : Bytes, c.length = 16 → (xorBytes c (roundKey (schedule key) 0)).length = 16 := by
    intro c hc
    rw [length_xorBytes, hc, length_roundKey]; rfl
  have h1 := xorBytes_right_injective (length_shiftRows _) (length_shiftRows _) (length_roundKey _ _) h
  have h2 := shiftRows_injective (by simpa using length_rounds _ _ _ (hx a ha))
    (by simpa using length_rounds _ _ _ (hx b hb)) h1
  have h3 := rounds_injective _ _ _ _ (hx a ha) (hx b hb) (List.map_injective_iff.mpr sbox_injective h2)
  exact xorBytes_right_injective ha hb (length_roundKey _ _) h3

end Cryptopy.Spec.Aes
