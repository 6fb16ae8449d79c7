import Mathlib.Algebra.CharP.Two
import Mathlib.Dynamics.PeriodicPts.Defs
import Mathlib.Tactic.Ring
import Verif.Spec.Sbox8
import Verif.Model.Analysis
import Verif.Model.Sboxes

/-!
Property C135: what the substitution tables of the analysis scripts are, and their orbits.
-/

namespace Cryptopy
namespace SboxTables
open Model Spec.Sbox8 Polynomial

/-! ### Polynomials as numbers -/

/-- Product without carries. -/
def clmul (a : Nat) : Nat → Nat → Nat
  | 0, _ => 0
  | n + 1, b => (if b.testBit n then a <<< n else 0) ^^^ clmul a n b

theorem poly_xor (a b : Nat) : poly (a ^^^ b) = poly a + poly b := by
  rw [poly, poly, poly, ← Finset.sum_add_distrib]
  refine Finset.sum_congr rfl fun i _ => ?_
  rw [Nat.testBit_xor]
  have h2 : (X : (ZMod 2)[X]) ^ i + X ^ i = 0 := by
    rw [← two_mul, show (2 : (ZMod 2)[X]) = C (2 : ZMod 2) from rfl, show (2 : ZMod 2) = 0 from rfl, C_0, zero_mul]
  cases a.testBit i <;> cases b.testBit i <;> simp [h2]

theorem poly_zero : poly 0 = 0 := by simp [poly]

theorem poly_one : poly 1 = 1 := by
  rw [poly, Finset.sum_eq_single 0]
  · simp
  · intro i _ hi
    rw [if_neg]
    rw [show (1 : Nat) = 2 ^ 0 from rfl, Nat.testBit_two_pow]
    simpa using fun h => hi h.symm
  · simp

theorem poly_shift (a n : Nat) (ha : a < 2 ^ (16 - n)) (hn : n ≤ 16) : poly (a <<< n) = poly a * X ^ n := by
  have hz : ∀ i, 16 - n ≤ i → a.testBit i = false := fun i hi =>
    Nat.testBit_lt_two_pow (lt_of_lt_of_le ha (Nat.pow_le_pow_right (by norm_num) hi))
  have e1 : poly (a <<< n) = ∑ i ∈ Finset.range (n + (16 - n)), if (a <<< n).testBit i then (X : (ZMod 2)[X]) ^ i else 0 := by
    rw [Nat.add_sub_cancel' hn]; rfl
  have e2 : poly a = ∑ i ∈ Finset.range ((16 - n) + n), if a.testBit i then (X : (ZMod 2)[X]) ^ i else 0 := by
    rw [Nat.sub_add_cancel hn]; rfl
  rw [e1, e2, Finset.sum_range_add, Finset.sum_range_add, add_mul]
  rw [Finset.sum_eq_zero (s := Finset.range n)]
  · rw [zero_add, Finset.sum_eq_zero (s := Finset.range n), zero_mul, add_zero, Finset.sum_mul]
    · refine Finset.sum_congr rfl fun i _ => ?_
      rw [Nat.testBit_shiftLeft]
      simp only [ge_iff_le, Nat.le_add_right, decide_true, Bool.true_and, Nat.add_sub_cancel_left]
      split <;> ring
    · intro i _
      rw [hz _ (by omega)]; rfl
  · intro i hi
    rw [Nat.testBit_shiftLeft]
    simp [Finset.mem_range.mp hi]

theorem poly_clmul (a b : Nat) (ha : a < 512) (n : Nat) (hn : n ≤ 8) :
    poly (clmul a n b) = poly a * ∑ i ∈ Finset.range n, if b.testBit i then (X : (ZMod 2)[X]) ^ i else 0 := by
  induction n with
  | zero => simp [clmul, poly_zero]
  | succ n ih =>
    rw [clmul, poly_xor, ih (by omega), Finset.sum_range_succ, mul_add, add_comm]
    congr 1
    split
    · exact poly_shift _ _ (lt_of_lt_of_le ha (by
        rw [show (512 : Nat) = 2 ^ 9 from rfl]; exact Nat.pow_le_pow_right (by norm_num) (by omega))) (by omega)
    · simp [poly_zero]

theorem poly_mul (a b : Nat) (ha : a < 512) (hb : b < 256) : poly (clmul a 8 b) = poly a * poly b := by
  rw [poly_clmul a b ha 8 le_rfl]
  refine congrArg (poly a * ·) ?_
  refine Finset.sum_subset (Finset.range_mono (show 8 ≤ 16 by decide)) fun i _ hi => ?_
  rw [Nat.testBit_lt_two_pow (lt_of_lt_of_le (show b < 2 ^ 8 from hb)
    (Nat.pow_le_pow_right (by norm_num) (by simpa using hi)))]
  rfl

/-- A certificate for an inverse: `x y = m q + 1`. -/
theorem inverse_of (m x y q : Nat) (hm : m < 512) (hx : x < 256) (hy : y < 256) (hq : q < 256)
    (h : (x = 0 ∧ y = 0) ∨ clmul x 8 y = clmul m 8 q ^^^ 1) : InverseMod m x y := by
  refine ⟨hx, hy, h.imp_right fun h => ⟨poly q, ?_⟩⟩
  rw [← poly_mul x y (by omega) hy, h, poly_xor, poly_one, poly_mul m q hm hq]
  ring

/-! ### The checks -/

/-- Inverses modulo the AES polynomial. -/
def aesInv : List Nat :=
  [0, 1, 141, 246, 203, 82, 123, 209, 232, 79, 41, 192, 176, 225, 229, 199, 116, 180, 170, 75, 153, 43, 96, 95,
   88, 63, 253, 204, 255, 64, 238, 178, 58, 110, 90, 241, 85, 77, 168, 201, 193, 10, 152, 21, 48, 68, 162, 194,
   44, 69, 146, 108, 243, 57, 102, 66, 242, 53, 32, 111, 119, 187, 89, 25, 29, 254, 55, 103, 45, 49, 245, 105,
   167, 100, 171, 19, 84, 37, 233, 9, 237, 92, 5, 202, 76, 36, 135, 191, 24, 62, 34, 240, 81, 236, 97, 23,
   22, 94, 175, 211, 73, 166, 54, 67, 244, 71, 145, 223, 51, 147, 33, 59, 121, 183, 151, 133, 16, 181, 186, 60,
   182, 112, 208, 6, 161, 250, 129, 130, 131, 126, 127, 128, 150, 115, 190, 86, 155, 158, 149, 217, 247, 2, 185, 164,
   222, 106, 50, 109, 216, 138, 132, 114, 42, 20, 159, 136, 249, 220, 137, 154, 251, 124, 46, 195, 143, 184, 101, 72,
   38, 200, 18, 74, 206, 231, 210, 98, 12, 224, 31, 239, 17, 117, 120, 113, 165, 142, 118, 61, 189, 188, 134, 87,
   11, 40, 47, 163, 218, 212, 228, 15, 169, 39, 83, 4, 27, 252, 172, 230, 122, 7, 174, 99, 197, 219, 226, 234,
   148, 139, 196, 213, 157, 248, 144, 107, 177, 13, 214, 235, 198, 14, 207, 173, 8, 78, 215, 227, 93, 80, 30, 179,
   91, 35, 56, 52, 104, 70, 3, 140, 221, 156, 125, 160, 205, 26, 65, 28]

/-- `x y = m q + 1` for the AES polynomial `m`. -/
def aesQuo : List Nat :=
  [0, 0, 1, 1, 3, 1, 1, 2, 7, 2, 1, 7, 7, 4, 5, 4, 7, 11, 11, 4, 11, 2, 7, 4,
   7, 2, 9, 11, 11, 7, 11, 13, 7, 13, 11, 30, 11, 8, 23, 26, 31, 1, 23, 2, 7, 11, 19, 29,
   7, 12, 27, 11, 19, 4, 11, 13, 23, 4, 7, 8, 11, 26, 13, 2, 7, 61, 13, 24, 11, 12, 61, 26,
   47, 27, 45, 4, 23, 8, 61, 2, 55, 19, 1, 61, 23, 11, 41, 36, 7, 13, 11, 55, 19, 51, 29, 4,
   7, 29, 61, 44, 27, 61, 11, 24, 39, 26, 49, 40, 11, 50, 13, 8, 23, 50, 61, 58, 7, 48, 51, 11,
   55, 23, 39, 1, 51, 41, 61, 61, 71, 61, 61, 71, 79, 58, 91, 41, 79, 77, 73, 110, 123, 1, 93, 83,
   103, 49, 27, 50, 103, 73, 79, 61, 23, 11, 69, 79, 115, 99, 77, 69, 103, 51, 19, 124, 83, 79, 61, 47,
   23, 127, 11, 45, 127, 110, 115, 61, 7, 103, 13, 96, 11, 48, 55, 50, 79, 93, 51, 26, 67, 67, 91, 36,
   7, 31, 29, 124, 95, 91, 79, 4, 127, 26, 61, 3, 11, 67, 127, 73, 39, 2, 115, 44, 91, 82, 67, 69,
   103, 110, 95, 82, 99, 79, 103, 40, 103, 4, 67, 84, 79, 5, 73, 110, 7, 61, 69, 84, 51, 55, 11, 96,
   55, 30, 23, 19, 39, 61, 1, 123, 79, 115, 41, 103, 67, 9, 61, 11]

/-- Inverses modulo the SMS4 polynomial. -/
def sms4Inv : List Nat :=
  [0, 1, 250, 172, 125, 100, 86, 149, 196, 115, 50, 224, 43, 118, 176, 143, 98, 214, 195, 244, 25, 238, 112, 129,
   239, 20, 59, 130, 88, 243, 189, 97, 49, 140, 107, 132, 155, 169, 122, 81, 246, 240, 119, 12, 56, 126, 186, 117,
   141, 32, 10, 225, 231, 255, 65, 227, 44, 127, 131, 26, 164, 76, 202, 90, 226, 54, 70, 150, 207, 204, 66, 151,
   183, 158, 174, 134, 61, 165, 210, 146, 123, 39, 120, 179, 193, 95, 6, 148, 28, 242, 63, 203, 93, 92, 192, 85,
   188, 31, 16, 215, 5, 124, 138, 111, 137, 156, 133, 34, 218, 216, 139, 103, 22, 128, 197, 9, 187, 47, 13, 42,
   82, 178, 38, 80, 101, 4, 45, 57, 113, 23, 27, 58, 35, 106, 75, 175, 157, 104, 102, 110, 33, 48, 177, 15,
   161, 198, 79, 211, 87, 7, 67, 71, 228, 181, 168, 36, 105, 136, 73, 182, 199, 144, 233, 166, 60, 77, 163, 232,
   154, 37, 213, 185, 3, 251, 74, 135, 14, 142, 121, 83, 229, 153, 159, 72, 212, 171, 46, 116, 96, 30, 208, 220,
   94, 84, 245, 18, 8, 114, 145, 160, 248, 222, 62, 91, 69, 206, 205, 68, 190, 221, 78, 147, 184, 170, 17, 99,
   109, 219, 108, 217, 191, 209, 201, 249, 11, 51, 64, 55, 152, 180, 254, 52, 167, 162, 237, 253, 252, 234, 21, 24,
   41, 247, 89, 29, 19, 194, 40, 241, 200, 223, 2, 173, 236, 235, 230, 53]

/-- `x y = m q + 1` for the SMS4 polynomial `m`. -/
def sms4Quo : List Nat :=
  [0, 0, 1, 1, 1, 1, 1, 2, 5, 2, 1, 5, 1, 3, 5, 4, 5, 11, 11, 9, 1, 11, 5, 14,
   13, 1, 3, 11, 5, 14, 11, 6, 5, 25, 11, 25, 25, 28, 9, 14, 21, 21, 11, 1, 5, 11, 25, 10,
   21, 5, 1, 26, 25, 26, 11, 24, 5, 14, 19, 3, 21, 9, 25, 11, 37, 11, 25, 55, 41, 41, 25, 52,
   61, 51, 57, 55, 9, 56, 41, 51, 21, 14, 21, 52, 33, 26, 1, 57, 5, 47, 11, 36, 25, 25, 37, 26,
   37, 6, 5, 56, 1, 25, 41, 28, 45, 41, 47, 11, 61, 61, 47, 28, 5, 37, 55, 2, 41, 10, 3, 11,
   21, 47, 9, 21, 25, 1, 11, 14, 37, 14, 11, 19, 25, 47, 55, 124, 109, 45, 41, 47, 25, 21, 115, 4,
   117, 91, 51, 84, 57, 2, 55, 52, 69, 124, 117, 25, 41, 109, 51, 127, 69, 117, 95, 103, 21, 56, 103, 93,
   117, 28, 79, 106, 1, 86, 57, 124, 5, 115, 47, 52, 81, 124, 127, 61, 69, 106, 25, 41, 37, 11, 69, 65,
   37, 33, 103, 11, 5, 55, 91, 69, 101, 115, 25, 36, 41, 123, 123, 41, 69, 124, 41, 84, 69, 79, 11, 56,
   61, 122, 61, 122, 65, 124, 115, 110, 5, 26, 37, 24, 69, 81, 113, 25, 93, 95, 127, 118, 117, 127, 11, 13,
   21, 126, 47, 14, 9, 103, 21, 126, 101, 110, 1, 86, 117, 118, 113, 26]

/-- The affine map of FIPS 197. -/
def aesAffine (y : Nat) : Nat :=
  (List.range 8).foldr (fun i a => 2 * a + (bit y i ^^ bit y (i + 4) ^^ bit y (i + 5) ^^ bit y (i + 6) ^^ bit y (i + 7) ^^
    bit 0x63 i).toNat) 0

/-- The affine map of SMS4. -/
def sms4Affine (y : Nat) : Nat :=
  (List.range 8).foldr (fun i a => 2 * a + (bit y i ^^ bit y (i + 1) ^^ bit y (i + 2) ^^ bit y (i + 5) ^^ bit y (i + 7) ^^
    bit 0xd3 i).toNat) 0

theorem aes_check : ∀ x < 256, aesInv.getD x 0 < 256 ∧ aesQuo.getD x 0 < 256 ∧
    ((x = 0 ∧ aesInv.getD x 0 = 0) ∨
      clmul x 8 (aesInv.getD x 0) = clmul 0b100011011 8 (aesQuo.getD x 0) ^^^ 1) := by decide +kernel

theorem sms4_check : ∀ x < 256, sms4Inv.getD x 0 < 256 ∧ sms4Quo.getD x 0 < 256 ∧
    ((x = 0 ∧ sms4Inv.getD x 0 = 0) ∨
      clmul x 8 (sms4Inv.getD x 0) = clmul 0b111110101 8 (sms4Quo.getD x 0) ^^^ 1) := by decide +kernel

theorem sms4Affine_spec : ∀ x < 256, Sms4Affine x (sms4Affine x) := by
  unfold Sms4Affine
  decide +kernel

end SboxTables
open SboxTables Model Spec.Sbox8 Function

/-- C135: every entry of the AES table is the FIPS 197 value: inverse in the field of 256 elements, then the
affine map. -/
theorem C135_aes : aesSbox.length = 256 ∧ ∀ x < 256, IsAes x (aesSbox.getD x 0) := by
  refine ⟨by decide +kernel, fun x hx => ?_⟩
  obtain ⟨h1, h2, h3⟩ := aes_check x hx
  have h4 : ∀ x < 256, aesSbox.getD x 0 < 256 ∧ ∀ i < 8, bit (aesSbox.getD x 0) i =
      (bit (aesInv.getD x 0) i ^^ bit (aesInv.getD x 0) (i + 4) ^^ bit (aesInv.getD x 0) (i + 5) ^^
        bit (aesInv.getD x 0) (i + 6) ^^ bit (aesInv.getD x 0) (i + 7) ^^ bit 0x63 i) := by decide +kernel
  exact ⟨(h4 x hx).1, _, inverse_of _ _ _ _ (by decide) hx h1 h2 h3, (h4 x hx).2⟩

/-- C135: every entry of the SMS4 table is the affine map of the inverse of the affine map. -/
theorem C135_sms4 : sms4Sbox.length = 256 ∧ ∀ x < 256, IsSms4 x (sms4Sbox.getD x 0) := by
  refine ⟨by decide +kernel, fun x hx => ?_⟩
  have ha := sms4Affine_spec x hx
  obtain ⟨h1, h2, h3⟩ := sms4_check _ ha.1
  have h4 : ∀ x < 256, sms4Affine (sms4Inv.getD (sms4Affine x) 0) = sms4Sbox.getD x 0 := by decide +kernel
  refine ⟨_, _, ha, inverse_of _ _ _ _ (by decide) ha.1 h1 h2 h3, ?_⟩
  rw [← h4 x hx]
  exact sms4Affine_spec _ h1

/-- C135: the table called `streebog_sbbytes` is the table of BelT, and the Streebog table, which the script calls
`pi`, differs from it. -/
theorem C135_streebog : IsBelt streebogSbox ∧ piSbox.length = 256 ∧ piSbox ≠ streebogSbox := by
  refine ⟨⟨by decide +kernel, by decide +kernel, by decide +kernel, by decide +kernel⟩, by decide +kernel, by decide +kernel⟩

/-- C135: `sbox_analysis.py` lists, in some order, these orbits of the AES and SMS4 tables. -/
theorem C135_orbits (keys : List (Nat × List Nat) → List Nat) (hk : ∀ d, (keys d).Perm (d.map Prod.fst)) :
    (∃ v, orbitStartAndLength keys aesSbox = .ok v ∧ v.Perm [(0, 59), (1, 81), (4, 87), (11, 27), (115, 2)]) ∧
    ∃ v, orbitStartAndLength keys sms4Sbox = .ok v ∧
      v.Perm [(0, 120), (1, 24), (4, 56), (13, 35), (36, 9), (45, 3), (54, 6), (171, 1), (180, 2)] := by
  have key : ∀ (t : List Nat) (l : List (Nat × Nat)),
      ((mapOrbits t).toOption.map fun d => d.map fun e => (e.1, ((d.lookup e.1).getD []).length)) = some l →
      ∃ v, orbitStartAndLength keys t = .ok v ∧ v.Perm l := by
    intro t l h
    rw [orbitStartAndLength]
    cases hm : mapOrbits t with
    | error e => rw [hm] at h; cases h
    | ok d =>
      rw [hm] at h
      injection h with h
      refine ⟨_, rfl, ?_⟩
      rw [← h]
      have := (hk d).map fun i => (i, ((d.lookup i).getD []).length)
      rwa [List.map_map] at this
  exact ⟨key _ _ (by decide +kernel), key _ _ (by decide +kernel)⟩
example := C135_orbits (fun d => d.map Prod.fst) fun _ => .refl _

/-- C135: the AES table has no fixed point and no octet goes to its complement; the SMS4 table fixes AB alone. -/
theorem C135_fixed : (∀ x < 256, aesSbox.getD x 0 ≠ x ∧ aesSbox.getD x 0 ≠ 255 - x) ∧
    ∀ x < 256, sms4Sbox.getD x 0 = x ↔ x = 0xab := by
  constructor <;> decide +kernel

/-- C135, a case: `0x53` has inverse `0xca` and goes to `0xed`, the example of FIPS 197. -/
example : aesSbox.getD 0x53 0 = 0xed ∧ aesInv.getD 0x53 0 = 0xca := by decide

end Cryptopy
