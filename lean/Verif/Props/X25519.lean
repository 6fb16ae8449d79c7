import Verif.Lemmas.Ladder
import Verif.Props.Ladder
import Verif.Props.EdwardsCurves
import Verif.Spec.Rfc7748

/-!
C111: `montgomery_ladder` against RFC 7748.
-/

namespace Cryptopy
open Model Spec

variable {p : Nat} [hpf : Fact p.Prime]

/-- The pairs of the code, cast to the field, and those of the RFC with the pending swap undone agree up to nonzero
factors. -/
private def Same (s : Int × Int × Int × Int) (t : Rfc7748.State (ZMod p)) : Prop :=
  ∃ l m : ZMod p, l ≠ 0 ∧ m ≠ 0 ∧
    (t.cswap t.swap).x2 = l * s.1 ∧ (t.cswap t.swap).z2 = l * s.2.1 ∧
    (t.cswap t.swap).x3 = m * s.2.2.1 ∧ (t.cswap t.swap).z3 = m * s.2.2.2

omit hpf in
private theorem bit_eq (k i : Nat) : ((k : Int).fdiv (2 ^ i)) % 2 = if k.testBit i then 1 else 0 := by
  rw [Int.fdiv_eq_ediv_of_nonneg _ (by positivity)]
  have : ((k : Int) / 2 ^ i) % 2 = ((k / 2 ^ i % 2 : Nat) : Int) := by push_cast; rfl
  rw [this, Nat.testBit_eq_decide_div_mod_eq]
  rcases Nat.mod_two_eq_zero_or_one (k / 2 ^ i) with h | h <;> simp [h]

private theorem same_step (h2 : p ≠ 2) (a x1 : Int) (a24 : ZMod p) (ha : 4 * a24 = a - 2) (k i : Nat)
    (s : Int × Int × Int × Int) (t : Rfc7748.State (ZMod p)) (h : Same s t) :
    Same (ladderStep x1 a k s i) (Rfc7748.step a24 x1 k t i) := by
  obtain ⟨x2, z2, x3, z3⟩ := s
  obtain ⟨l, m, hl, hm, e1, e2, e3, e4⟩ := h
  have h4 : (4 : ZMod p) ≠ 0 := by
    rw [show (4 : ZMod p) = 2 * 2 by norm_num]
    exact mul_ne_zero (two_ne_zero_zmod h2) (two_ne_zero_zmod h2)
  have hb := bit_eq k i
  have hc : t.cswap (t.swap ^^ k.testBit i) = (t.cswap t.swap).cswap (k.testBit i) := by
    cases t.swap <;> cases k.testBit i <;> rfl
  have key : Rfc7748.step a24 (x1 : ZMod p) k t i =
      let u := (t.cswap t.swap).cswap (k.testBit i)
      { x3 := ((u.x3 - u.z3) * (u.x2 + u.z2) + (u.x3 + u.z3) * (u.x2 - u.z2)) ^ 2
        z3 := (x1 : ZMod p) * ((u.x3 - u.z3) * (u.x2 + u.z2) - (u.x3 + u.z3) * (u.x2 - u.z2)) ^ 2
        x2 := (u.x2 + u.z2) ^ 2 * (u.x2 - u.z2) ^ 2
        z2 := ((u.x2 + u.z2) ^ 2 - (u.x2 - u.z2) ^ 2) *
          ((u.x2 + u.z2) ^ 2 + a24 * ((u.x2 + u.z2) ^ 2 - (u.x2 - u.z2) ^ 2))
        swap := k.testBit i } := by
    rw [Rfc7748.step]
    simp only [hc]
  rw [key]
  generalize t.cswap t.swap = u at e1 e2 e3 e4 ⊢
  obtain ⟨u1, u2, u3, u4, u5⟩ := u
  simp only at e1 e2 e3 e4
  subst e1 e2 e3 e4
  cases hk : k.testBit i
  · rw [hk] at hb
    rw [ladderStep_even _ _ _ _ _ _ _ _ hb]
    refine ⟨l ^ 4, 4 * (l * m) ^ 2, pow_ne_zero _ hl, mul_ne_zero h4 (pow_ne_zero _ (mul_ne_zero hl hm)), ?_, ?_, ?_, ?_⟩
    · simp only [Rfc7748.State.cswap]; push_cast; ring
    · simp only [Rfc7748.State.cswap]; push_cast
      linear_combination (4 * l ^ 4 * (x2 : ZMod p) ^ 2 * z2 ^ 2) * ha
    · simp only [Rfc7748.State.cswap]; push_cast; ring
    · simp only [Rfc7748.State.cswap]; push_cast; ring
  · rw [hk] at hb
    rw [ladderStep_odd _ _ _ _ _ _ _ _ hb]
    refine ⟨4 * (l * m) ^ 2, m ^ 4, mul_ne_zero h4 (pow_ne_zero _ (mul_ne_zero hl hm)), pow_ne_zero _ hm, ?_, ?_, ?_, ?_⟩
    · simp only [Rfc7748.State.cswap, if_true]; push_cast; ring
    · simp only [Rfc7748.State.cswap, if_true]; push_cast; ring
    · simp only [Rfc7748.State.cswap, if_true]; push_cast; ring
    · simp only [Rfc7748.State.cswap, if_true]; push_cast
      linear_combination (4 * m ^ 4 * (x3 : ZMod p) ^ 2 * z3 ^ 2) * ha

private theorem same_loop (h2 : p ≠ 2) (a x1 : Int) (a24 : ZMod p) (ha : 4 * a24 = a - 2) (k : Nat) (is : List Nat) :
    ∀ (s : Int × Int × Int × Int) (t : Rfc7748.State (ZMod p)), Same s t →
      Same (is.foldl (ladderStep x1 a k) s) (is.foldl (Rfc7748.step a24 (x1 : ZMod p) k) t) := by
  induction is with
  | nil => intro s t h; exact h
  | cons i is ih =>
    intro s t h
    exact ih _ _ (same_step h2 a x1 a24 ha k i s t h)

/-- C111: for every odd prime `p`, every `a`, every scalar and every integer, on the curve or not, the value of
`montgomery_ladder` is the value of the ladder of RFC 7748 over 255 bits with the constant `a24`, `4 a24 = a - 2`. -/
theorem C111_ladder (c : MCurve) (a : Int) (hca : c.a = some a) (hp : c.p = p) (h2 : p ≠ 2) (a24 : ZMod p)
    (ha : 4 * a24 = a - 2) (k : Nat) (x : Int) :
    ∃ r : Int, c.montgomeryLadder k x = .ok r ∧ 0 ≤ r ∧ r < p ∧ (r : ZMod p) = Rfc7748.ladder p 255 a24 k x := by
  have h := same_loop h2 a x a24 ha k (List.range 255).reverse (1, 0, x, 1) ⟨1, 0, x, 1, false⟩
    ⟨1, 1, one_ne_zero, one_ne_zero, by simp [Rfc7748.State.cswap], by simp [Rfc7748.State.cswap],
      by simp [Rfc7748.State.cswap], by simp [Rfc7748.State.cswap]⟩
  rw [MCurve.montgomeryLadder, hca, hp]
  have he : ((p : Int) - 2).toNat = p - 2 := by omega
  rw [he, Rfc7748.ladder, Rfc7748.loop]
  generalize 255 = n at h ⊢
  obtain ⟨l, m, hl, hm, e1, e2, -, -⟩ := h
  obtain ⟨r, h1, h3, h4, h5⟩ := pyMod_ok hpf.out.pos
    (((List.range n).reverse.foldl (ladderStep x a k) (1, 0, x, 1)).1 *
      ((List.range n).reverse.foldl (ladderStep x a k) (1, 0, x, 1)).2.1 ^ (p - 2))
  refine ⟨r, h1, h3, h4, ?_⟩
  rw [h5, e1, e2]
  push_cast
  generalize (List.range n).reverse.foldl (ladderStep x a k) (1, 0, x, 1) = s
  obtain ⟨x2, z2, x3, z3⟩ := s
  simp only
  have hf := ZMod.pow_card_sub_one_eq_one hl
  have hp2 := hpf.out.two_le
  rw [show p - 1 = p - 2 + 1 by omega, pow_succ] at hf
  rw [mul_pow]
  linear_combination (-((x2 : ZMod p) * (z2 : ZMod p) ^ (p - 2))) * hf
example [Fact (Nat.Prime 13)] (k : Nat) (x : Int) := C111_ladder (p := 13) ⟨13, some 6⟩ 6 rfl rfl (by decide) 1 (by norm_num) k x

omit hpf in
set_option maxRecDepth 2000 in
/-- C111: X25519 of RFC 7748 on any two strings is the encoding of `montgomery_ladder` of Curve25519 on the decoded
scalar and the decoded coordinate; the code has no such decoding itself. -/
theorem C111_x25519 (k u : Bytes) :
    ∃ r : Int, Curve25519.curve.montgomeryLadder (Rfc7748.decodeScalar k) (Rfc7748.decodeU u) = .ok r ∧
      0 ≤ r ∧ r < 2 ^ 255 - 19 ∧ Rfc7748.x25519 k u = Rfc7748.encodeU r.toNat := by
  have hq : Fact (Nat.Prime (2 ^ 255 - 19)) := ⟨by
    have := Curve25519_p_prime
    rwa [show Curve25519.p.toNat = 2 ^ 255 - 19 by decide +kernel] at this⟩
  have hN : ((2 ^ 255 - 19 : Nat) : Int) = 2 ^ 255 - 19 := by norm_num
  obtain ⟨r, h1, h2, h3, h4⟩ := C111_ladder (p := 2 ^ 255 - 19) Curve25519.curve 486662 rfl (by rw [hN]; rfl) (by norm_num)
    121665 (by norm_num) (Rfc7748.decodeScalar k) (Rfc7748.decodeU u)
  refine ⟨r, h1, h2, by rwa [hN] at h3, ?_⟩
  rw [Int.cast_natCast] at h4
  rw [Rfc7748.x25519, ← h4]
  congr 1
  have hr : r = (r.toNat : Int) := (Int.toNat_of_nonneg h2).symm
  rw [hr, Int.cast_natCast, Int.toNat_natCast, ZMod.val_natCast, Nat.mod_eq_of_lt]
  rw [hr] at h3
  exact_mod_cast h3

/-! The specification on the first test vector of RFC 7748, section 5.2 -/

private def vecK : List UInt8 :=
  [0xa5, 0x46, 0xe3, 0x6b, 0xf0, 0x52, 0x7c, 0x9d, 0x3b, 0x16, 0x15, 0x4b, 0x82, 0x46, 0x5e, 0xdd,
    0x62, 0x14, 0x4c, 0x0a, 0xc1, 0xfc, 0x5a, 0x18, 0x50, 0x6a, 0x22, 0x44, 0xba, 0x44, 0x9a, 0xc4]

private def vecU : List UInt8 :=
  [0xe6, 0xdb, 0x68, 0x67, 0x58, 0x30, 0x30, 0xdb, 0x35, 0x94, 0xc1, 0xa4, 0x24, 0xb1, 0x5f, 0x7c,
    0x72, 0x66, 0x24, 0xec, 0x26, 0xb3, 0x35, 0x3b, 0x10, 0xa9, 0x03, 0xa6, 0xd0, 0xab, 0x1c, 0x4c]

private def vecOut : List UInt8 :=
  [0xc3, 0xda, 0x55, 0x37, 0x9d, 0xe9, 0xc6, 0x90, 0x8e, 0x94, 0xea, 0x4d, 0xf2, 0x8d, 0x08, 0x4f,
    0x32, 0xec, 0xcf, 0x03, 0x49, 0x1c, 0x71, 0xf7, 0x54, 0xb4, 0x07, 0x55, 0x77, 0xa2, 0x85, 0x52]

example :
    let s := Rfc7748.loop 255 (121665 : ZMod (2 ^ 255 - 19)) (Rfc7748.decodeU vecU : ZMod (2 ^ 255 - 19))
      (Rfc7748.decodeScalar vecK)
    s.z2 ≠ 0 ∧ s.x2 = (Rfc7748.decodeLE vecOut : ZMod (2 ^ 255 - 19)) * s.z2 := by
  decide +kernel

end Cryptopy
