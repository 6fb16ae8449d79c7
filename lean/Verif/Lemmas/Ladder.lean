import Verif.Lemmas.XOnly
import Verif.Lemmas.Ecc

/-!
The Montgomery ladder.
-/

namespace Cryptopy
open Model Spec WeierstrassCurve XOnly

section Field
variable {F : Type} [Field F] [DecidableEq F] {W : Affine F}

/-- Differential addition on a Montgomery curve. -/
theorem xrep_diffAdd (h1 : W.a₁ = 0) (h3 : W.a₃ = 0) (h4 : W.a₄ = 1) (h6 : W.a₆ = 0) (h2 : (2 : F) ≠ 0)
    {x1 y1 : F} (n1 : W.Nonsingular x1 y1) (hx1 : x1 ≠ 0) {X2 Z2 X3 Z3 : F} {Q R : W.Point}
    (hR : R = Q + Affine.Point.some x1 y1 n1) (r2 : XRep X2 Z2 Q) (r3 : XRep X3 Z3 R) :
    XRep ((X2 * X3 - Z2 * Z3) ^ 2) (x1 * (X2 * Z3 - Z2 * X3) ^ 2) (Q + R) := by
  cases Q with
  | zero =>
    change R = 0 + _ at hR
    change XRep _ _ (0 + R)
    rw [zero_add] at hR ⊢
    subst hR
    obtain ⟨rfl, hx⟩ := r2
    obtain ⟨hz3, rfl⟩ := xrep_some.mp r3
    rw [xrep_some]
    constructor
    · rw [zero_mul, sub_zero]
      exact mul_ne_zero hx1 (pow_ne_zero _ (mul_ne_zero hx hz3))
    · ring
  | some x2 y2 n2 =>
    obtain ⟨hz2, rfl⟩ := xrep_some.mp r2
    cases R with
    | zero =>
      change XRep _ _ (_ + 0)
      change 0 = _ at hR
      obtain ⟨rfl, hx⟩ := r3
      have hQ : Affine.Point.some x2 y2 n2 = -Affine.Point.some x1 y1 n1 := eq_neg_of_add_eq_zero_left hR.symm
      rw [Affine.Point.neg_some, Affine.Point.some.injEq] at hQ
      obtain ⟨rfl, -⟩ := hQ
      rw [add_zero, xrep_some]
      constructor
      · rw [mul_zero, zero_sub, neg_sq]
        exact mul_ne_zero hx1 (pow_ne_zero _ (mul_ne_zero hz2 hx))
      · ring
    | some x3 y3 n3 =>
      obtain ⟨hz3, rfl⟩ := xrep_some.mp r3
      have hP : Affine.Point.some x3 y3 n3 - Affine.Point.some x2 y2 n2 = Affine.Point.some x1 y1 n1 := by
        rw [hR]; abel
      have e2 := equation h1 h3 n2.1
      by_cases hx : x2 = x3
      · subst hx
        have hne : Affine.Point.some x2 y3 n3 ≠ Affine.Point.some x2 y2 n2 := by
          intro h
          rw [h, sub_self] at hP
          exact Affine.Point.some_ne_zero n1 hP.symm
        have hneg := (eq_or_neg h1 h3 n3 n2).resolve_left hne
        rw [hneg, add_neg_cancel, xrep_zero]
        refine ⟨by ring, ?_⟩
        rw [show (x2 * Z2 * (x2 * Z3) - Z2 * Z3) ^ 2 = ((x2 ^ 2 - 1) * (Z2 * Z3)) ^ 2 by ring]
        refine pow_ne_zero _ (mul_ne_zero ?_ (mul_ne_zero hz2 hz3))
        have hy2 : y2 ≠ 0 := by
          rintro rfl
          refine hne ?_
          rw [hneg, Affine.Point.neg_some, Affine.Point.some.injEq, negY_eq h1 h3, neg_zero]
          exact ⟨rfl, rfl⟩
        obtain ⟨x', y', h', hs, hx'⟩ := dbl_x h1 h3 h2 n2 hy2
        rw [hneg, ← neg_add', hs, Affine.Point.neg_some, Affine.Point.some.injEq] at hP
        obtain ⟨rfl, -⟩ := hP
        intro h0
        have : x' * (4 * y2 ^ 2) = 0 := by
          rw [hx', e2, h4, h6]
          linear_combination (x2 ^ 2 - 1) * h0
        have h4' : (4 : F) ≠ 0 := by
          rw [show (4 : F) = 2 * 2 by norm_num]; exact mul_ne_zero h2 h2
        exact mul_ne_zero hx1 (mul_ne_zero h4' (pow_ne_zero _ hy2)) this
      · obtain ⟨xs, ys, hs, xd, yd, hd, k1, k2, k3, -⟩ := sum_diff h1 h3 n2 n3 hx
        rw [k2, Affine.Point.some.injEq] at hP
        obtain ⟨rfl, -⟩ := hP
        rw [k1, xrep_some]
        have hd : x2 - x3 ≠ 0 := sub_ne_zero.mpr hx
        constructor
        · rw [show x2 * Z2 * Z3 - Z2 * (x3 * Z3) = (x2 - x3) * (Z2 * Z3) by ring]
          exact mul_ne_zero hx1 (pow_ne_zero _ (mul_ne_zero hd (mul_ne_zero hz2 hz3)))
        · rw [h4, h6] at k3
          linear_combination (- Z2 ^ 2 * Z3 ^ 2) * k3

/-- Doubling on a Montgomery curve. -/
theorem xrep_mdouble (h1 : W.a₁ = 0) (h3 : W.a₃ = 0) (h4 : W.a₄ = 1) (h6 : W.a₆ = 0) (h2 : (2 : F) ≠ 0)
    (ha : W.a₂ ^ 2 ≠ 4) {X Z : F} {Q : W.Point} (h : XRep X Z Q) :
    XRep ((X ^ 2 - Z ^ 2) ^ 2) (4 * X * Z * (X ^ 2 + W.a₂ * X * Z + Z ^ 2)) (Q + Q) := by
  have := xrep_double h1 h3 h2 h (by
    intro x hx
    rw [h4, h6] at *
    intro h0
    have h5 : (x ^ 2 - 1) ^ 2 = 0 := by linear_combination h0
    have h6 : x ^ 2 - 1 = 0 := by simpa using h5
    apply ha
    have h7 : x * (2 + W.a₂ * x) = 0 := by linear_combination hx - x * h6
    rcases mul_eq_zero.mp h7 with h8 | h8
    · rw [h8] at h6; norm_num at h6
    · linear_combination (-W.a₂ ^ 2) * h6 + (W.a₂ * x - 2) * h8)
  rw [h4, h6] at this
  convert this using 1 <;> ring

end Field

theorem ladderStep_even (x1 a scalar : Int) (x2 z2 x3 z3 : Int) (i : Nat) (h : scalar.fdiv (2 ^ i) % 2 = 0) :
    ladderStep x1 a scalar (x2, z2, x3, z3) i =
      ((x2 ^ 2 - z2 ^ 2) ^ 2, 4 * x2 * z2 * (x2 ^ 2 + a * x2 * z2 + z2 ^ 2),
        (x2 * x3 - z2 * z3) ^ 2, x1 * (x2 * z3 - z2 * x3) ^ 2) := by
  simp [ladderStep, h, cswap]

theorem ladderStep_odd (x1 a scalar : Int) (x2 z2 x3 z3 : Int) (i : Nat) (h : scalar.fdiv (2 ^ i) % 2 = 1) :
    ladderStep x1 a scalar (x2, z2, x3, z3) i =
      ((x2 * x3 - z2 * z3) ^ 2, x1 * (x2 * z3 - z2 * x3) ^ 2,
        (x3 ^ 2 - z3 ^ 2) ^ 2, 4 * x3 * z3 * (x3 ^ 2 + a * x3 * z3 + z3 ^ 2)) := by
  simp only [ladderStep, h, cswap, one_mul]
  refine Prod.ext ?_ (Prod.ext ?_ (Prod.ext ?_ ?_)) <;> simp only <;> ring

theorem fdiv_bit (s : Int) (i : Nat) : s % 2 ^ (i + 1) = s.fdiv (2 ^ i) % 2 * 2 ^ i + s % 2 ^ i := by
  have hp : (0 : Int) < 2 ^ i := by positivity
  rw [Int.fdiv_eq_ediv_of_nonneg _ hp.le, pow_succ]
  have h1 := Int.mul_ediv_add_emod s (2 ^ i)
  have h2 := Int.mul_ediv_add_emod (s / 2 ^ i) 2
  have h3 := Int.emod_nonneg s hp.ne'
  have h4 := Int.emod_lt_of_pos s hp
  have key : s = s / 2 ^ i % 2 * 2 ^ i + s % 2 ^ i + 2 ^ i * 2 * (s / 2 ^ i / 2) := by
    linear_combination (-1 : Int) * h1 - 2 ^ i * h2
  conv_lhs => rw [key]
  rw [Int.add_mul_emod_self_left]
  generalize s / 2 ^ i % 2 = b at *
  have hb : b = 0 ∨ b = 1 := by omega
  refine Int.emod_eq_of_lt ?_ ?_ <;> rcases hb with rfl | rfl <;> omega

section Loop
variable {p : Nat} [hpf : Fact p.Prime] {K : Type} [Field K] [DecidableEq K] [CharP K p]

omit [DecidableEq K] in
/-- An integer of a field of characteristic `p`. -/
theorem fermat_char {z : Int} (hz : (z : K) ≠ 0) : (z : K) ^ (p - 1) = 1 := by
  have hz' : (z : ZMod p) ≠ 0 := by
    rw [Ne, ZMod.intCast_zmod_eq_zero_iff_dvd]
    intro h
    exact hz ((CharP.intCast_eq_zero_iff K p z).mpr h)
  have h := ZMod.pow_card_sub_one_eq_one hz'
  have h' : (((z ^ (p - 1) - 1 : Int)) : ZMod p) = 0 := by push_cast; rw [h, sub_self]
  rw [ZMod.intCast_zmod_eq_zero_iff_dvd] at h'
  have := (CharP.intCast_eq_zero_iff K p _).mpr h'
  push_cast at this
  linear_combination this

omit [DecidableEq K] in
theorem two_ne_zero_char (h : p ≠ 2) : (2 : K) ≠ 0 := by
  intro h2
  have := (CharP.cast_eq_zero_iff K p 2).mp (by push_cast; exact h2)
  exact h ((Nat.prime_dvd_prime_iff_eq hpf.out Nat.prime_two).mp this)

def LInv {a : Int} (P : (mCurveOver K a).Point) (m : Int) (s : Int × Int × Int × Int) : Prop :=
  XRep (s.1 : K) (s.2.1 : K) (m • P) ∧ XRep (s.2.2.1 : K) (s.2.2.2 : K) ((m + 1) • P)

theorem ladder_step {a : Int} (h2 : (2 : K) ≠ 0) (ha : (a : K) ^ 2 ≠ 4) (x1 : Int) (y1 : K)
    (n1 : (mCurveOver K a).Nonsingular (x1 : K) y1) (hx1 : (x1 : K) ≠ 0) (scalar m : Int)
    (i : Nat) (s : Int × Int × Int × Int) (h : LInv (.some (x1 : K) y1 n1) m s) :
    LInv (.some (x1 : K) y1 n1) (2 * m + scalar.fdiv (2 ^ i) % 2)
      (ladderStep x1 a scalar s i) := by
  obtain ⟨x2, z2, x3, z3⟩ := s
  obtain ⟨r2, r3⟩ := h
  simp only at r2 r3
  generalize hP : Affine.Point.some (x1 : K) y1 n1 = P at r2 r3
  have hR : (m + 1) • P = m • P + P := by rw [add_zsmul, one_zsmul]
  have hsum := xrep_diffAdd rfl rfl rfl rfl h2 n1 hx1 (by rw [hP]; exact hR) r2 r3
  have ed : m • P + m • P = (2 * m) • P := by rw [← add_zsmul, two_mul]
  have es : m • P + (m + 1) • P = (2 * m + 1) • P := by rw [← add_zsmul]; congr 1; ring
  have et : (m + 1) • P + (m + 1) • P = (2 * m + 1 + 1) • P := by rw [← add_zsmul]; congr 1; ring
  rw [es] at hsum
  rcases Int.emod_two_eq_zero_or_one (scalar.fdiv (2 ^ i)) with hb | hb
  · rw [hb, add_zero, ladderStep_even _ _ _ _ _ _ _ _ hb]
    have hd := xrep_mdouble rfl rfl rfl rfl h2 ha r2
    rw [ed] at hd
    constructor
    · push_cast; exact hd
    · push_cast; exact hsum
  · rw [hb, ladderStep_odd _ _ _ _ _ _ _ _ hb]
    have hd := xrep_mdouble rfl rfl rfl rfl h2 ha r3
    rw [et] at hd
    constructor
    · push_cast; exact hsum
    · push_cast; exact hd

private theorem ladder_loop {a : Int} (h2 : (2 : K) ≠ 0) (ha : (a : K) ^ 2 ≠ 4) (x1 : Int) (y1 : K)
    (n1 : (mCurveOver K a).Nonsingular (x1 : K) y1) (hx1 : (x1 : K) ≠ 0) (scalar : Int)
    (n : Nat) : ∀ (m : Int) (s : Int × Int × Int × Int), LInv (.some (x1 : K) y1 n1) m s →
    LInv (.some (x1 : K) y1 n1) (m * 2 ^ n + scalar % 2 ^ n)
      ((List.range n).reverse.foldl (ladderStep x1 a scalar) s) := by
  induction n with
  | zero =>
    intro m s h
    simpa using h
  | succ n ih =>
    intro m s h
    rw [List.range_succ, List.reverse_append, List.reverse_singleton, List.singleton_append, List.foldl_cons]
    have := ih _ _ (ladder_step h2 ha x1 y1 n1 hx1 scalar m n s h)
    rw [fdiv_bit]
    convert this using 1
    ring

omit [DecidableEq K] in
private theorem ladder_zero_loop (x1 a : Int) (hx1 : (x1 : K) = 0) (scalar : Int) (l : List Nat) :
    ∀ s : Int × Int × Int × Int, ((s.1 : K) * s.2.1 = 0 ∧ (s.2.2.1 : K) * s.2.2.2 = 0) →
    ((l.foldl (ladderStep x1 a scalar) s).1 : K) * (l.foldl (ladderStep x1 a scalar) s).2.1 = 0 ∧
    ((l.foldl (ladderStep x1 a scalar) s).2.2.1 : K) * (l.foldl (ladderStep x1 a scalar) s).2.2.2 = 0 := by
  induction l with
  | nil => intro s h; exact h
  | cons i l ih =>
    intro s h
    rw [List.foldl_cons]
    refine ih _ ?_
    obtain ⟨x2, z2, x3, z3⟩ := s
    obtain ⟨h2, h3⟩ := h
    simp only at h2 h3
    rcases Int.emod_two_eq_zero_or_one (scalar.fdiv (2 ^ i)) with hb | hb
    · rw [ladderStep_even _ _ _ _ _ _ _ _ hb]
      push_cast
      rw [hx1]
      exact ⟨by linear_combination 4 * (x2 ^ 2 - z2 ^ 2 : K) ^ 2 * (x2 ^ 2 + a * x2 * z2 + z2 ^ 2) * h2, by ring⟩
    · rw [ladderStep_odd _ _ _ _ _ _ _ _ hb]
      push_cast
      rw [hx1]
      exact ⟨by ring, by linear_combination 4 * (x3 ^ 2 - z3 ^ 2 : K) ^ 2 * (x3 ^ 2 + a * x3 * z3 + z3 ^ 2) * h3⟩

theorem zsmul_order_two {a : Int} (x1 : Int) (y1 : K) (n1 : (mCurveOver K a).Nonsingular (x1 : K) y1)
    (hx1 : (x1 : K) = 0) (k : Int) :
    xOrZero (k • (Affine.Point.some (x1 : K) y1 n1)) = 0 := by
  have e := XOnly.equation (W := mCurveOver K a) rfl rfl n1.1
  rw [hx1] at e
  have hy : y1 = 0 := by
    have : y1 ^ 2 = 0 := by rw [e]; simp [mCurveOver]
    simpa using this
  have h2 : (Affine.Point.some (x1 : K) y1 n1) + (Affine.Point.some (x1 : K) y1 n1) = 0 := by
    refine Affine.Point.add_of_Y_eq rfl ?_
    rw [negY_eq rfl rfl, hy, neg_zero]
  rcases Int.even_or_odd' k with ⟨m, rfl | rfl⟩
  · rw [mul_comm, mul_zsmul, two_zsmul, h2, zsmul_zero]; rfl
  · rw [add_zsmul, mul_comm, mul_zsmul, two_zsmul, h2, zsmul_zero, zero_add, one_zsmul]
    exact hx1

/-- The ladder over any number of bits, modulo `p`. -/
private theorem ladder_bits (a : Int) (h2p : p ≠ 2)
    (ha : (a : K) ^ 2 ≠ 4) (x1 : Int) (y1 : K) (n1 : (mCurveOver K a).Nonsingular (x1 : K) y1)
    (scalar : Int) (n : Nat) :
    (((List.range n).reverse.foldl (ladderStep x1 a scalar) (1, 0, x1, 1)).1 : K) *
      (((List.range n).reverse.foldl (ladderStep x1 a scalar) (1, 0, x1, 1)).2.1 : K) ^ (p - 2) =
    xOrZero ((scalar % 2 ^ n) • (Affine.Point.some (x1 : K) y1 n1)) := by
  have h2 : (2 : K) ≠ 0 := two_ne_zero_char h2p
  have hge : 3 ≤ p := by
    have := hpf.out.two_le; omega
  by_cases hx1 : (x1 : K) = 0
  · rw [zsmul_order_two x1 y1 n1 hx1]
    have := (ladder_zero_loop x1 a hx1 scalar (List.range n).reverse (1, 0, x1, 1) ⟨by simp, by simp [hx1]⟩).1
    rcases mul_eq_zero.mp this with h | h
    · rw [h, zero_mul]
    · rw [h, zero_pow (by omega), mul_zero]
  · have h0 : LInv (.some (x1 : K) y1 n1) 0 (1, 0, x1, 1) := by
      refine ⟨?_, ?_⟩
      · rw [zero_zsmul, xrep_zero]; simp
      · rw [zero_add, one_zsmul, xrep_some]; simp
    have := (ladder_loop h2 ha x1 y1 n1 hx1 scalar n 0 _ h0).1
    rw [zero_mul, zero_add] at this
    generalize (List.range n).reverse.foldl (ladderStep x1 a scalar) (1, 0, x1, 1) = s at this
    generalize (scalar % 2 ^ n) • (Affine.Point.some (x1 : K) y1 n1) = Q at this
    cases Q with
    | zero =>
      obtain ⟨hz, -⟩ := this
      rw [hz, zero_pow (by omega), mul_zero]; rfl
    | some x y h =>
      obtain ⟨hz, hx⟩ := this
      have hf : ((s.2.1 : Int) : K) ^ (p - 1) = 1 := fermat_char hz
      rw [hx, mul_assoc, ← pow_succ', show p - 2 + 1 = p - 1 by omega, hf, mul_one]; rfl

/-- The ladder on the integers, modulo `p`, for a point with its ordinate in any field of characteristic `p`. -/
theorem montgomeryLadder_over (c : MCurve) (a : Int) (hca : c.a = some a) (hp : c.p = p) (h2p : p ≠ 2)
    (ha : (a : K) ^ 2 ≠ 4) (x1 : Int) (y1 : K) (n1 : (mCurveOver K a).Nonsingular (x1 : K) y1)
    (scalar : Int) :
    ∃ r, c.montgomeryLadder scalar x1 = .ok r ∧ 0 ≤ r ∧ r < p ∧
      (r : K) = xOrZero ((scalar % 2 ^ 255) • (Affine.Point.some (x1 : K) y1 n1)) := by
  have hb := ladder_bits a h2p ha x1 y1 n1 scalar
  rw [MCurve.montgomeryLadder, hca, hp]
  have he : ((p : Int) - 2).toNat = p - 2 := by omega
  rw [he]
  generalize 255 = n
  obtain ⟨r, k1, k2, k3, k4⟩ := pyMod_ok hpf.out.pos
    (((List.range n).reverse.foldl (ladderStep x1 a scalar) (1, 0, x1, 1)).1 *
        ((List.range n).reverse.foldl (ladderStep x1 a scalar) (1, 0, x1, 1)).2.1 ^ (p - 2))
  refine ⟨r, k1, k2, k3, ?_⟩
  have k5 : (r : K) = (((((List.range n).reverse.foldl (ladderStep x1 a scalar) (1, 0, x1, 1)).1 *
        ((List.range n).reverse.foldl (ladderStep x1 a scalar) (1, 0, x1, 1)).2.1 ^ (p - 2) : Int)) : K) := by
    rw [← sub_eq_zero, ← Int.cast_sub, CharP.intCast_eq_zero_iff K p, ← ZMod.intCast_zmod_eq_zero_iff_dvd,
      Int.cast_sub, k4, sub_self]
  rw [k5, ← hb n]
  push_cast
  rfl

/-- The ladder on the integers modulo `p`. -/
theorem montgomeryLadder_spec (c : MCurve) (a : Int) (hca : c.a = some a) (hp : c.p = p) (h2p : p ≠ 2)
    (ha : (a : ZMod p) ^ 2 ≠ 4) (x1 y1 : Int) (n1 : (mCurve p a).Nonsingular (x1 : ZMod p) (y1 : ZMod p))
    (scalar : Int) :
    ∃ r, c.montgomeryLadder scalar x1 = .ok r ∧ 0 ≤ r ∧ r < p ∧
      (r : ZMod p) = xOrZero ((scalar % 2 ^ 255) • (Affine.Point.some (x1 : ZMod p) (y1 : ZMod p) n1)) :=
  montgomeryLadder_over (K := ZMod p) c a hca hp h2p ha x1 (y1 : ZMod p) n1 scalar

end Loop

end Cryptopy
