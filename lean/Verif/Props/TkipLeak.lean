import Verif.Props.Tkip

/-!
C160: what an RC4 key made by TKIP gives away about the temporal key, and its first three octets.
-/

namespace Cryptopy
open Model Spec

/-- Eight bits of the temporal key, computed from an RC4 key alone. -/
def leakedBits (seed : Bytes) : Nat :=
  (seed.getD 3 0).toNat ^^^ (((seed.getD 14 0).toNat + 256 * (seed.getD 15 0).toNat) / 2 % 256)

/-- C160: every RC4 key gives away bits 1 to 8 of the first two octets of the temporal key, whatever the substitution table,
the phase 1 key (also one that is out of date) and the packet number are. -/
theorem C160_leak (sbox : Nat → Nat) (tk : Bytes) (t : TTAK) (pn : Bytes) :
    ∃ seed, phase2KeyMixing (tkipS sbox) tk (natP1K t) pn = .ok seed ∧
      leakedBits seed = ((tk.getD 0 0).toNat + 256 * (tk.getD 1 0).toNat) / 2 % 256 := by
  refine ⟨_, C52_phase2_value sbox tk t pn, ?_⟩
  obtain ⟨w0, w1, w2, w3, w4, w5⟩ := ppk (tkipSW sbox) tk t (mk16 pn 0)
  have hk : (mk16 tk 0).toNat = (tk.getD 0 0).toNat + 256 * (tk.getD 1 0).toNat := by
    have h0 := (tk.getD 0 0).toNat_lt
    have h1 := (tk.getD 1 0).toNat_lt
    have hv : leValue ((tk.drop 0).take 2) = (tk.getD 0 0).toNat + 256 * (tk.getD 1 0).toNat := by
      match tk with
      | [] => rfl
      | [a] => simp [leValue]
      | a :: b :: l => simp [leValue]
    rw [mk16, hv, BitVec.toNat_ofNat, Nat.mod_eq_of_lt (by omega)]
  have hw := w5.isLt
  have e3 : (([pn.getD 0 0, (pn.getD 0 0 ||| 0x20) &&& 0x7f, pn.getD 1 0] ++ seedTail tk (w0, w1, w2, w3, w4, w5)).getD 3
      0).toNat = ((w5 ^^^ mk16 tk 0) >>> 1).toNat % 256 := by
    simp [seedTail]
  have e14 : (([pn.getD 0 0, (pn.getD 0 0 ||| 0x20) &&& 0x7f, pn.getD 1 0] ++ seedTail tk (w0, w1, w2, w3, w4, w5)).getD 14
      0).toNat = w5.toNat % 256 := by
    simp [seedTail, leBytes]
  have e15 : (([pn.getD 0 0, (pn.getD 0 0 ||| 0x20) &&& 0x7f, pn.getD 1 0] ++ seedTail tk (w0, w1, w2, w3, w4, w5)).getD 15
      0).toNat = w5.toNat / 256 := by
    simp [seedTail, leBytes]
    omega
  rw [leakedBits, e3, e14, e15, show w5.toNat % 256 + 256 * (w5.toNat / 256) = w5.toNat by omega, ← hk,
    BitVec.toNat_ushiftRight, BitVec.toNat_xor, Nat.shiftRight_xor_distrib, show 256 = 2 ^ 8 from rfl, Nat.xor_mod_two_pow,
    Nat.shiftRight_one, Nat.shiftRight_one, Nat.xor_comm, ← Nat.xor_assoc, Nat.xor_self, Nat.zero_xor]

/-- C160: so two equal RC4 keys, of any two stations, tables and counters, come from temporal keys that agree in these eight
bits. -/
theorem C160_same_bits (sbox sbox' : Nat → Nat) (tk ta pn tk' ta' pn' : Bytes)
    (h : mixUncached sbox tk ta pn = mixUncached sbox' tk' ta' pn') :
    ((tk.getD 0 0).toNat + 256 * (tk.getD 1 0).toNat) / 2 % 256 =
      ((tk'.getD 0 0).toNat + 256 * (tk'.getD 1 0).toNat) / 2 % 256 := by
  unfold mixUncached at h
  rw [phase1_eq, phase1_eq] at h
  obtain ⟨s, h1, h2⟩ := C160_leak sbox tk (phase1 (tkipSW sbox) tk ta (pn.drop 2)) pn
  obtain ⟨s', h1', h2'⟩ := C160_leak sbox' tk' (phase1 (tkipSW sbox') tk' ta' (pn'.drop 2)) pn'
  rw [h1, h1'] at h
  rw [Except.ok.injEq] at h
  rw [← h2, ← h2', h]
/-- A case: temporal keys that differ in these bits never give the same RC4 key. -/
example (sbox : Nat → Nat) (ta pn ta' pn' : Bytes) :
    mixUncached sbox (List.replicate 16 2) ta pn ≠ mixUncached sbox (List.replicate 16 4) ta' pn' :=
  fun h => absurd (C160_same_bits sbox sbox _ ta pn _ ta' pn' h) (by decide)

/-- C160: the second octet of an RC4 key is determined by the first, has bit 5 set and bit 7 clear; in particular it never is
255, the value that the weak initialisation vectors of Fluhrer, Mantin and Shamir have there. -/
theorem C160_second_octet (sbox : Nat → Nat) (tk : Bytes) (t : TTAK) (pn : Bytes) :
    ∃ seed, phase2KeyMixing (tkipS sbox) tk (natP1K t) pn = .ok seed ∧
      seed.getD 1 0 = (seed.getD 0 0 ||| 0x20) &&& 0x7f ∧ (seed.getD 1 0).toNat.testBit 5 = true ∧
      (seed.getD 1 0).toNat.testBit 7 = false ∧ seed.getD 1 0 ≠ 255 := by
  refine ⟨_, C52_phase2_value sbox tk t pn, ?_⟩
  generalize seedTail tk (ppk (tkipSW sbox) tk t (mk16 pn 0)) = l
  generalize pn.getD 0 0 = a
  have h : ∀ a : UInt8, ((a ||| 0x20) &&& 0x7f).toNat.testBit 5 = true ∧ ((a ||| 0x20) &&& 0x7f).toNat.testBit 7 = false ∧
      ((a ||| 0x20) &&& 0x7f) ≠ 255 := by
    have h' : ∀ n < 256, ((UInt8.ofNat n ||| 0x20) &&& 0x7f).toNat.testBit 5 = true ∧
        ((UInt8.ofNat n ||| 0x20) &&& 0x7f).toNat.testBit 7 = false ∧ ((UInt8.ofNat n ||| 0x20) &&& 0x7f) ≠ 255 := by
      decide +kernel
    intro a
    have := h' a.toNat a.toNat_lt
    rwa [UInt8.ofNat_toNat] at this
  exact ⟨rfl, h a⟩
/-- The leak on numbers: with the identity as table, an all-zero phase 1 key and packet number, the temporal key
6, 1, 0, … gives an RC4 key with 131 = (6 + 256) / 2 as the leaked bits. -/
example : ∃ seed, phase2KeyMixing (tkipS id) (6 :: 1 :: List.replicate 14 0) (natP1K (0, 0, 0, 0, 0)) (List.replicate 6 0) =
    .ok seed ∧ leakedBits seed = 131 := C160_leak id (6 :: 1 :: List.replicate 14 0) (0, 0, 0, 0, 0) (List.replicate 6 0)

end Cryptopy
