import Mathlib.Data.List.GetD
import Verif.Props.S2vTags

/-!
C130: when the key streams of two SIV encryptions overlap.
-/

namespace Cryptopy
open Model (CipherLib)
open Spec (xorBytes ofBits toBits sivQ beValue)

namespace SivStream

theorem flatten_get (bl : List Bytes) (h : ∀ b ∈ bl, b.length = 16) (i o : Nat) (hi : i < bl.length) (ho : o < 16) :
    bl.flatten.getD (16 * i + o) 0 = (bl[i]).getD o 0 := by
  induction bl generalizing i with
  | nil => simp at hi
  | cons b bl ih =>
    have hb : b.length = 16 := h b (by simp)
    rw [List.flatten_cons]
    cases i with
    | zero =>
      rw [List.getElem_cons_zero, List.getD_append _ _ _ _ (by omega)]
      simp
    | succ i =>
      rw [List.getElem_cons_succ, List.getD_append_right _ _ _ _ (by omega), hb,
        ← ih (fun b hb => h b (List.mem_cons_of_mem _ hb)) i (by simpa using hi)]
      congr 1
      omega

theorem xorBytes_get (a b : Bytes) (k : Nat) (ha : k < a.length) (hb : k < b.length) :
    (xorBytes a b).getD k 0 = a.getD k 0 ^^^ b.getD k 0 := by
  rw [List.getD_eq_getElem _ _ (by rw [length_xorBytes]; omega), List.getD_eq_getElem _ _ ha,
    List.getD_eq_getElem _ _ hb]
  simp [xorBytes]

theorem xor_four (a b k k' : UInt8) : (a ^^^ k) ^^^ (b ^^^ k') = a ^^^ b ↔ k = k' := by
  have e : (a ^^^ k) ^^^ (b ^^^ k') = (a ^^^ b) ^^^ (k ^^^ k') := by ac_rfl
  rw [e]
  constructor
  · intro h
    have := congrArg (fun z => (a ^^^ b) ^^^ z ^^^ k') h
    simp only [← UInt8.xor_assoc, UInt8.xor_self, UInt8.zero_xor] at this
    rw [UInt8.xor_assoc, UInt8.xor_self, UInt8.xor_zero] at this
    exact this
  · rintro rfl
    rw [UInt8.xor_self, UInt8.xor_zero]

/-- Octet `o` of block `i`. -/
theorem octet (aes : CipherLib) (h : LawfulCipher aes) (key : Bytes) (hkey : 2 ≤ key.length)
    (ads : List Bytes) (c pt : Bytes) (he : Model.sivEncrypt aes key pt ads = .ok c) :
    ∃ bl : Nat → Bytes, (∀ i, 16 * i < pt.length → (bl i).length = 16 ∧
        beValue (bl i) = (sivQ (c.take 16)).toNat + i) ∧
      ∀ i o, o < 16 → 16 * i + o < pt.length → c.getD (16 + (16 * i + o)) 0 =
        pt.getD (16 * i + o) 0 ^^^ (aes.enc (key.drop (key.length - key.length / 2)) (bl i)).getD o 0 := by
  obtain ⟨bl, h1, -, h3, h4, h5⟩ := C17_siv_encrypt_blocks aes h key hkey ads c pt he
  have hlen := (C16_siv_lengths aes h key ads c pt).1 he
  refine ⟨fun i => bl.getD i [], ?_, ?_⟩
  · intro i hi
    have hib : i < bl.length := by omega
    dsimp only
    rw [List.getD_eq_getElem _ _ hib]
    exact ⟨h3 _ (List.getElem_mem hib), h4 i hib⟩
  · intro i o ho hio
    have hib : i < bl.length := by omega
    dsimp only
    rw [List.getD_eq_getElem _ _ hib]
    have e1 : c.getD (16 + (16 * i + o)) 0 = (c.drop 16).getD (16 * i + o) 0 := by
      rw [List.getD_eq_getElem _ _ (by omega), List.getD_eq_getElem _ _ (by rw [List.length_drop]; omega),
        List.getElem_drop]
    set E := aes.enc (key.drop (key.length - key.length / 2)) with hE
    have hbl : ∀ b ∈ bl.map E, b.length = 16 := by
      intro b hb
      obtain ⟨b', hb', rfl⟩ := List.mem_map.mp hb
      exact h.length _ _ (h3 _ hb')
    have hfl : ((bl.map E).flatten).length = 16 * bl.length := by
      rw [List.length_flatten, List.map_map]
      have : bl.map (List.length ∘ E) = bl.map fun _ => 16 :=
        List.map_congr_left fun b hb => h.length _ _ (h3 _ hb)
      rw [this]
      simp [mul_comm]
    rw [e1, h5, xorBytes_get _ _ _ hio (by rw [hfl]; omega), flatten_get _ hbl i o (by simpa using hib) ho,
      List.getElem_map]

end SivStream

section
variable (aes : CipherLib) (h : LawfulCipher aes) (key : Bytes) (hkey : 2 ≤ key.length)
  (ads ads' : List Bytes) (c c' pt pt' : Bytes) (he : Model.sivEncrypt aes key pt ads = .ok c)
  (he' : Model.sivEncrypt aes key pt' ads' = .ok c')
include h hkey he he'

/-- C130: where the counters of block `i` of one encryption and block `j` of another under the same key are equal, the
xor of the ciphertexts is the xor of the plaintexts. -/
theorem C130_shared (i j o : Nat) (ho : o < 16) (hi : 16 * i + o < pt.length) (hj : 16 * j + o < pt'.length)
    (hq : (sivQ (c.take 16)).toNat + i = (sivQ (c'.take 16)).toNat + j) :
    c.getD (16 + (16 * i + o)) 0 ^^^ c'.getD (16 + (16 * j + o)) 0 =
      pt.getD (16 * i + o) 0 ^^^ pt'.getD (16 * j + o) 0 := by
  obtain ⟨bl, b1, b2⟩ := SivStream.octet aes h key hkey ads c pt he
  obtain ⟨bl', b1', b2'⟩ := SivStream.octet aes h key hkey ads' c' pt' he'
  obtain ⟨l, v⟩ := b1 i (by omega)
  obtain ⟨l', v'⟩ := b1' j (by omega)
  have hb : bl i = bl' j := beValue_inj (by omega) (by omega)
  rw [b2 i o ho hi, b2' j o ho hj, hb]
  exact (SivStream.xor_four _ _ _ _).mpr rfl

/-- C130: for a cipher that is injective under the second half of the key, whole blocks are related like this only
where the counters are equal. -/
theorem C130_only_then (hinj : InjectiveOn16 (aes.enc (key.drop (key.length - key.length / 2)))) (i j : Nat)
    (hi : 16 * i + 16 ≤ pt.length) (hj : 16 * j + 16 ≤ pt'.length)
    (hx : ∀ o < 16, c.getD (16 + (16 * i + o)) 0 ^^^ c'.getD (16 + (16 * j + o)) 0 =
      pt.getD (16 * i + o) 0 ^^^ pt'.getD (16 * j + o) 0) :
    (sivQ (c.take 16)).toNat + i = (sivQ (c'.take 16)).toNat + j := by
  obtain ⟨bl, b1, b2⟩ := SivStream.octet aes h key hkey ads c pt he
  obtain ⟨bl', b1', b2'⟩ := SivStream.octet aes h key hkey ads' c' pt' he'
  obtain ⟨l, v⟩ := b1 i (by omega)
  obtain ⟨l', v'⟩ := b1' j (by omega)
  have hb : bl i = bl' j := by
    apply hinj _ _ l l'
    have k1 := h.length (key.drop (key.length - key.length / 2)) _ l
    have k2 := h.length (key.drop (key.length - key.length / 2)) _ l'
    refine List.ext_getElem (by omega) fun o ho ho' => ?_
    have := hx o (by omega)
    rw [b2 i o (by omega) (by omega), b2' j o (by omega) (by omega), SivStream.xor_four,
      List.getD_eq_getElem _ _ ho, List.getD_eq_getElem _ _ ho'] at this
    exact this
  rw [← v, ← v', hb]

end

/-- C130: messages of at most `2^31` blocks share a counter exactly when their IVs agree in all bits from bit 32 on, bit
63 not counted, and the lowest 31 bits are closer together than the messages are long. -/
theorem C130_when (V V' : Bytes) (n n' : Nat) (hn : n ≤ 2 ^ 31) (hn' : n' ≤ 2 ^ 31) :
    (∃ i < n, ∃ j < n', (sivQ V).toNat + i = (sivQ V').toNat + j) ↔
      (∀ b, 32 ≤ b → b ≠ 63 → (toBits V).getLsbD b = (toBits V').getLsbD b) ∧ 0 < n ∧ 0 < n' ∧
      (toBits V).toNat % 2 ^ 31 < (toBits V').toNat % 2 ^ 31 + n' ∧
      (toBits V').toNat % 2 ^ 31 < (toBits V).toNat % 2 ^ 31 + n := by
  have bit : ∀ (V : Bytes) (b : Nat), (sivQ V).getLsbD b = ((toBits V).getLsbD b && decide (b ≠ 31) && decide (b ≠ 63)) := by
    intro V b
    unfold sivQ
    by_cases hb : b < 128
    · simp [hb]
    · have : (toBits V).getLsbD b = false := BitVec.getLsbD_of_ge _ b (by omega)
      simp [this]
  have lo : ∀ V : Bytes, (sivQ V).toNat % 2 ^ 32 = (toBits V).toNat % 2 ^ 31 := by
    intro V
    apply Nat.eq_of_testBit_eq
    intro b
    rw [Nat.testBit_mod_two_pow, Nat.testBit_mod_two_pow, BitVec.testBit_toNat, BitVec.testBit_toNat, bit]
    by_cases h31 : b < 31
    · simp [h31, show b < 32 by omega, show b ≠ 31 by omega, show b ≠ 63 by omega]
    · by_cases hb : b = 31
      · simp [hb]
      · simp [h31, show ¬ b < 32 by omega]
  have hi : (sivQ V).toNat / 2 ^ 32 = (sivQ V').toNat / 2 ^ 32 ↔
      ∀ b, 32 ≤ b → b ≠ 63 → (toBits V).getLsbD b = (toBits V').getLsbD b := by
    constructor
    · intro e b hb h63
      have := congrArg (fun z => z.testBit (b - 32)) e
      simp only [Nat.testBit_div_two_pow] at this
      rw [show b - 32 + 32 = b by omega] at this
      simpa [BitVec.testBit_toNat, bit, h63, show b ≠ 31 by omega] using this
    · intro e
      apply Nat.eq_of_testBit_eq
      intro b
      rw [Nat.testBit_div_two_pow, Nat.testBit_div_two_pow, BitVec.testBit_toNat, BitVec.testBit_toNat, bit, bit]
      by_cases h63 : b + 32 = 63
      · simp [h63]
      · rw [e (b + 32) (by omega) h63]
  rw [← hi, ← lo, ← lo]
  have l1 : (sivQ V).toNat % 2 ^ 32 < 2 ^ 31 := by rw [lo]; exact Nat.mod_lt _ (by norm_num)
  have l2 : (sivQ V').toNat % 2 ^ 32 < 2 ^ 31 := by rw [lo]; exact Nat.mod_lt _ (by norm_num)
  generalize (sivQ V).toNat = q at *
  generalize (sivQ V').toNat = q' at *
  clear hi lo bit
  constructor
  · rintro ⟨i, h1, j, h2, h3⟩
    omega
  · rintro ⟨h1, h2, h3, h4, h5⟩
    rcases le_total q q' with h6 | h6
    · exact ⟨q' - q, by omega, 0, h3, by omega⟩
    · exact ⟨0, h2, q - q', by omega, by omega⟩

/-- IVs that differ in bit 31 only have the same counters; IVs that differ in bit 32 have no common ones. -/
example : (∃ i < 1, ∃ j < 1, (sivQ (List.replicate 16 0)).toNat + i =
    (sivQ (List.replicate 12 0 ++ [0x80, 0, 0, 0])).toNat + j) ∧
    ¬ (∃ i < 2 ^ 31, ∃ j < 2 ^ 31, (sivQ (List.replicate 16 0)).toNat + i =
      (sivQ (List.replicate 11 0 ++ [1, 0, 0, 0, 0])).toNat + j) := by
  constructor
  · exact ⟨0, by decide, 0, by decide, by decide +kernel⟩
  · rw [C130_when _ _ _ _ le_rfl le_rfl]
    intro h
    have := h.1 32 (by decide) (by decide)
    revert this
    decide +kernel

/-- The toy cipher meets the hypotheses of the theorems above. -/
example : ∃ c c', Model.sivEncrypt (toyCipher 0x11) (List.replicate 32 0) (List.replicate 20 9) [[1], [2]] = .ok c ∧
    Model.sivEncrypt (toyCipher 0x11) (List.replicate 32 0) (List.replicate 40 7) [] = .ok c' ∧
    InjectiveOn16 ((toyCipher 0x11).enc ((List.replicate 32 (0 : UInt8)).drop (32 - 32 / 2))) := by
  have en := fun ads pt hp => C16_siv_encrypt_rfc5297 (toyCipher 0x11) (toyCipher_lawful _) (List.replicate 16 0)
    (List.replicate 16 0) rfl (by decide +kernel) (by decide +kernel)
    (by unfold GoodSubkeys; decide +kernel) ads pt hp
  exact ⟨_, _, en _ _ (by decide), en _ _ (by decide), S2vTags.toy_injective _⟩

end Cryptopy
