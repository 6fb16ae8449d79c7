import Verif.Lemmas.Edwards
import Verif.Lemmas.Ecc
import Verif.Model.Edwards

/-!
Properties C108 and C109: `TwistedEdwardsCurveFp`, `ecc/ecc.py`.
-/

namespace Cryptopy
open Model Spec

variable {p : Nat} [hpf : Fact p.Prime]

/-! ### C108: the equation that `on_curve` checks -/

private theorem e_onCurve (c : ECurve) (hp : c.p = p) (x y : Int) :
    c.onCurve x y = .ok (decide ((c.a * x ^ 2 - 1 + y - c.d * x ^ 2 * y ^ 2 : ZMod p) = 0)) := by
  obtain ⟨r, h1, h2, h3, h4⟩ := pyMod_ok hpf.out.pos (c.a * (x * x) - 1 + y * (1 - c.d * (x * x) * y))
  rw [ECurve.onCurve, hp, h1]
  change Except.ok (r == 0) = _
  congr 1
  rw [Bool.eq_iff_iff, beq_iff_eq, decide_eq_true_eq]
  push_cast at h4
  rw [show (c.a * x ^ 2 - 1 + y - c.d * x ^ 2 * y ^ 2 : ZMod p) =
    c.a * (x * x) - 1 + y * (1 - c.d * (x * x) * y) by ring, ← h4]
  constructor
  · rintro rfl; simp
  · intro h
    exact eq_of_cast_eq h2 h3 le_rfl (by exact_mod_cast hpf.out.pos) (by rw [h]; simp)

private theorem e_point (c : ECurve) (hp : c.p = p) (x y : Int) :
    c.point x y = if (c.a * x ^ 2 - 1 + y - c.d * x ^ 2 * y ^ 2 : ZMod p) = 0 then .ok (x, y)
      else .error .assertion := by
  rw [ECurve.point, e_onCurve c hp]
  change (if decide _ = true then _ else _) = _
  simp only [decide_eq_true_eq]

/-- C108: for every prime `p`, a pair is accepted exactly if `a x² + y ≡ 1 + d x² y²`, with `y` where the curve has
`y²`; otherwise `AssertionError` is raised. -/
theorem C108_implemented_equation (c : ECurve) (hp : c.p = p) (x y : Int) :
    (c.a * x ^ 2 + y ≡ 1 + c.d * x ^ 2 * y ^ 2 [ZMOD p] → c.point x y = .ok (x, y)) ∧
    (¬ c.a * x ^ 2 + y ≡ 1 + c.d * x ^ 2 * y ^ 2 [ZMOD p] → c.point x y = .error .assertion) := by
  have e : (c.a * x ^ 2 + y ≡ 1 + c.d * x ^ 2 * y ^ 2 [ZMOD p]) ↔
      (c.a * x ^ 2 - 1 + y - c.d * x ^ 2 * y ^ 2 : ZMod p) = 0 := by
    rw [← ZMod.intCast_eq_intCast_iff, ← sub_eq_zero]
    push_cast
    rw [show (c.a * x ^ 2 + y - (1 + c.d * x ^ 2 * y ^ 2) : ZMod p) = c.a * x ^ 2 - 1 + y - c.d * x ^ 2 * y ^ 2 by ring]
  rw [e, e_point c hp]
  exact ⟨fun h => if_pos h, fun h => if_neg h⟩
example := haveI : Fact (Nat.Prime 7) := ⟨by norm_num⟩
  (C108_implemented_equation (p := 7) ⟨7, 1, 5⟩ rfl 1 0).1 (by decide)

/-- C108: of the pairs that satisfy the equation of the curve, `a x² + y² ≡ 1 + d x² y²`, the constructor accepts
exactly those with `y ≡ 0` or `y ≡ 1`; if `a` and `d` differ these are `(0, 1)` and the `(x, 0)` with `a x² ≡ 1`. -/
theorem C108_curve_points (c : ECurve) (hp : c.p = p) (x y : Int)
    (on : c.a * x ^ 2 + y ^ 2 ≡ 1 + c.d * x ^ 2 * y ^ 2 [ZMOD p]) :
    c.point x y = (if (p : Int) ∣ y ∨ (p : Int) ∣ y - 1 then .ok (x, y) else .error .assertion) ∧
    ((p : Int) ∣ y → c.a * x ^ 2 ≡ 1 [ZMOD p]) ∧ ((p : Int) ∣ y - 1 → ¬ c.a ≡ c.d [ZMOD p] → (p : Int) ∣ x) := by
  rw [← ZMod.intCast_eq_intCast_iff] at on
  push_cast at on
  simp only [← ZMod.intCast_zmod_eq_zero_iff_dvd, ← ZMod.intCast_eq_intCast_iff]
  push_cast
  refine ⟨?_, ?_, ?_⟩
  · rw [e_point c hp]
    have e : (c.a * x ^ 2 - 1 + y - c.d * x ^ 2 * y ^ 2 : ZMod p) = -(y * (y - 1)) := by linear_combination on
    simp only [e, neg_eq_zero, mul_eq_zero]
  · intro h
    rw [h] at on
    linear_combination on
  · intro h hne
    have h1 : (y : ZMod p) = 1 := sub_eq_zero.mp h
    rw [h1] at on
    have : (c.a - c.d : ZMod p) * (x : ZMod p) ^ 2 = 0 := by linear_combination on
    rcases mul_eq_zero.mp this with h2 | h2
    · exact absurd (sub_eq_zero.mp h2) hne
    · simpa using h2
example := haveI : Fact (Nat.Prime 7) := ⟨by norm_num⟩
  C108_curve_points (p := 7) ⟨7, 1, 5⟩ rfl 0 (-1) (by decide)

omit hpf in
/-- C108: the generator of every Edwards class of `curves.py` is rejected with `AssertionError`, although all of them
but Ed25519 satisfy the equation of their curve. -/
theorem C108_generators :
    (∀ K ∈ edwardsClasses, K.generator = .error .assertion) ∧
    (∀ K ∈ [GOSTmsg05975te, E382, Curve3617, E521],
      K.a * K.xG ^ 2 + K.yG ^ 2 ≡ 1 + K.d * K.xG ^ 2 * K.yG ^ 2 [ZMOD K.p]) ∧
    ¬ Ed25519.a * Ed25519.xG ^ 2 + Ed25519.yG ^ 2 ≡
      1 + Ed25519.d * Ed25519.xG ^ 2 * Ed25519.yG ^ 2 [ZMOD Ed25519.p] := by
  refine ⟨?_, ?_, ?_⟩
  · have : ∀ K ∈ edwardsClasses, (match K.generator with | .error .assertion => true | _ => false) = true := by
      decide +kernel
    intro K hK
    have h := this K hK
    split at h
    · assumption
    · cases h
  · unfold Int.ModEq
    decide +kernel
  · unfold Int.ModEq
    decide +kernel

/-- With `a = d = 1` the equation of the curve is that of four lines. -/
theorem four_lines (x y : Int) :
    1 * x ^ 2 + y ^ 2 ≡ 1 + 1 * x ^ 2 * y ^ 2 [ZMOD p] ↔
      x ≡ 1 [ZMOD p] ∨ x ≡ -1 [ZMOD p] ∨ y ≡ 1 [ZMOD p] ∨ y ≡ -1 [ZMOD p] := by
  simp only [← ZMod.intCast_eq_intCast_iff]
  push_cast
  have e : ((1 : ZMod p) * x ^ 2 + y ^ 2 = 1 + 1 * x ^ 2 * y ^ 2) ↔
      ((x : ZMod p) - 1) * ((x + 1) * ((y - 1) * (y + 1))) = 0 := by
    constructor <;> intro h <;> linear_combination -h
  rw [e, mul_eq_zero, mul_eq_zero, mul_eq_zero, sub_eq_zero, sub_eq_zero, add_eq_zero_iff_eq_neg,
    add_eq_zero_iff_eq_neg]

/-! ### C109: addition -/

/-- C109: on a complete curve (`a` a nonzero square and `d` not a square modulo the odd prime `p`) the sum computed by
`add_points` has the reduced coordinates of the sum in the group; no inverse is ever missing. It is returned if its y
is 0 or 1; otherwise the check of the result raises `AssertionError`. -/
theorem C109_add (c : ECurve) (hp : c.p = p) (E : Edwards (ZMod p)) (ha : E.a = c.a) (hd : E.d = c.d)
    (x1 y1 x2 y2 : Int) (P Q : E.Point) (hP : P.x = x1 ∧ P.y = y1) (hQ : Q.x = x2 ∧ Q.y = y2) :
    ∃ x3 y3 : Int, 0 ≤ x3 ∧ x3 < p ∧ 0 ≤ y3 ∧ y3 < p ∧ (P + Q).x = x3 ∧ (P + Q).y = y3 ∧
      c.addPoints (x1, y1) (x2, y2) = if y3 = 0 ∨ y3 = 1 then .ok (x3, y3) else .error .assertion := by
  have n1 := Edwards.one_add_ne P.eqn Q.eqn
  have n2 := Edwards.one_sub_ne P.eqn Q.eqn
  have e1 := Edwards.add_x P Q
  have e2 := Edwards.add_y P Q
  rw [hP.1, hP.2, hQ.1, hQ.2, hd] at n1 n2 e1 e2
  rw [ha] at e2
  obtain ⟨i, i1, i2⟩ := inverseMod_zmod (p := p) (1 + c.d * x1 * x2 * y1 * y2) (by push_cast; exact n1)
  obtain ⟨j, j1, j2⟩ := inverseMod_zmod (p := p) (1 - c.d * x1 * x2 * y1 * y2) (by push_cast; exact n2)
  obtain ⟨x3, a1, a2, a3, a4⟩ := pyMod_ok hpf.out.pos ((x1 * y2 + x2 * y1) * i)
  obtain ⟨y3, b1, b2, b3, b4⟩ := pyMod_ok hpf.out.pos ((y1 * y2 - c.a * x1 * x2) * j)
  push_cast at i2 j2 a4 b4
  have h3 : (P + Q).x = x3 := by rw [e1, a4, i2, div_eq_mul_inv]
  have h4 : (P + Q).y = y3 := by rw [e2, b4, j2, div_eq_mul_inv]
  refine ⟨x3, y3, a2, a3, b2, b3, h3, h4, ?_⟩
  rw [ECurve.addPoints, hp]
  rw [i1]
  change (do let x3 ← pyMod ((x1 * y2 + x2 * y1) * i) p; _) = _
  rw [a1]
  change (do let j ← inverseMod (1 - c.d * x1 * x2 * y1 * y2) p; _) = _
  rw [j1]
  change (do let y3 ← pyMod ((y1 * y2 - c.a * x1 * x2) * j) p; _) = _
  rw [b1]
  change c.point x3 y3 = _
  have on : c.a * x3 ^ 2 + y3 ^ 2 ≡ 1 + c.d * x3 ^ 2 * y3 ^ 2 [ZMOD p] := by
    rw [← ZMod.intCast_eq_intCast_iff]
    push_cast
    have := (P + Q).eqn
    unfold Edwards.Equation at this
    rw [h3, h4, ha, hd] at this
    exact this
  rw [(C108_curve_points c hp x3 y3 on).1]
  have k1 : (p : Int) ∣ y3 ↔ y3 = 0 :=
    ⟨fun h => Int.eq_zero_of_dvd_of_nonneg_of_lt b2 b3 h, fun h => h ▸ dvd_zero _⟩
  have k2 : (p : Int) ∣ y3 - 1 ↔ y3 = 1 := by
    refine ⟨fun h => ?_, fun h => by rw [h, sub_self]; exact dvd_zero _⟩
    have hp2 : (2 : Int) ≤ p := by exact_mod_cast hpf.out.two_le
    by_contra hne
    rcases lt_or_ge y3 1 with hl | hl
    · have : y3 - 1 = -1 := by omega
      rw [this, dvd_neg] at h
      have := Int.le_of_dvd one_pos h
      omega
    · have := Int.le_of_dvd (by omega) h
      omega
  simp only [k1, k2]

/-- C109: doubling is the sum of the point with itself, and the opposite point is the group inverse; it is accepted
exactly if the point is. -/
theorem C109_double_negate (c : ECurve) (hp : c.p = p) (E : Edwards (ZMod p)) (x y : Int) (P : E.Point)
    (hP : P.x = x ∧ P.y = y) :
    c.doublePoint (x, y) = c.addPoints (x, y) (x, y) ∧
    (-P).x = ((-x : Int) : ZMod p) ∧ (-P).y = (y : ZMod p) ∧
    (c.negate (x, y) = .ok (-x, y) ↔ c.point x y = .ok (x, y)) ∧
    (c.negate (x, y) = .error .assertion ↔ c.point x y = .error .assertion) := by
  refine ⟨rfl, ?_, ?_, ?_⟩
  · rw [Edwards.neg_x, hP.1]; push_cast; rfl
  · rw [Edwards.neg_y, hP.2]
  · rw [ECurve.negate, e_point c hp, e_point c hp]
    push_cast
    rw [neg_sq]
    split
    · exact ⟨⟨fun _ => rfl, fun _ => rfl⟩, ⟨nofun, nofun⟩⟩
    · exact ⟨⟨nofun, nofun⟩, ⟨fun _ => rfl, fun _ => rfl⟩⟩

/-- The hypotheses of C109 in terms of squares. -/
theorem edwards_exists (a d : Int) (h2 : p ≠ 2) (ha : IsSquare (a : ZMod p)) (ha0 : (a : ZMod p) ≠ 0)
    (hd : ¬ IsSquare (d : ZMod p)) : ∃ E : Edwards (ZMod p), E.a = a ∧ E.d = d := by
  obtain ⟨r, hr⟩ := ha
  exact ⟨⟨r, d, two_ne_zero_zmod h2, fun h => ha0 (by rw [hr, h, mul_zero]), hd⟩, by rw [Edwards.a, pow_two]; exact hr.symm, rfl⟩

/-! ### An instance: `x² + y² = 1 + 5 x² y²` over GF(7), `5` is not a square -/

private def toyE : ECurve := ⟨7, 1, 5⟩

omit hpf in
private theorem toyE_facts : IsSquare ((1 : Int) : ZMod 7) ∧ ((1 : Int) : ZMod 7) ≠ 0 ∧ ¬ IsSquare ((5 : Int) : ZMod 7) ∧
    -((1 : Int) : ZMod 7) ≠ ((0 : Int) : ZMod 7) ∧ -((1 : Int) : ZMod 7) ≠ ((1 : Int) : ZMod 7) := by decide

-- (1, 0) doubled is (0, -1), which is rejected; (1, 0) + (-1, 0) is (0, 1).
example : toyE.addPoints (1, 0) (1, 0) = .error .assertion ∧ toyE.addPoints (1, 0) (-1, 0) = .ok (0, 1) := by
  have : Fact (Nat.Prime 7) := ⟨by norm_num⟩
  obtain ⟨E, ha, hd⟩ := edwards_exists (p := 7) 1 5 (by decide) toyE_facts.1 toyE_facts.2.1
    toyE_facts.2.2.1
  have on : E.Equation 1 0 := by unfold Edwards.Equation; rw [ha]; push_cast; ring
  have on' : E.Equation (-1) 0 := by unfold Edwards.Equation; rw [ha]; push_cast; ring
  obtain ⟨x3, y3, h1, h2, h3, h4, h5, h6, h7⟩ := C109_add toyE rfl E ha hd 1 0 1 0 ⟨1, 0, on⟩ ⟨1, 0, on⟩ (by simp) (by simp)
  obtain ⟨u3, v3, k1, k2, k3, k4, k5, k6, k7⟩ := C109_add toyE rfl E ha hd 1 0 (-1) 0 ⟨1, 0, on⟩ ⟨-1, 0, on'⟩ (by simp) (by simp)
  constructor
  · rw [h7, if_neg]
    rw [Edwards.add_y, ha] at h6
    simp only [mul_zero, sub_zero, div_one, mul_one, zero_sub] at h6
    rintro (rfl | rfl)
    · exact toyE_facts.2.2.2.1 h6
    · exact toyE_facts.2.2.2.2 h6
  · rw [Edwards.add_y, ha] at k6
    rw [Edwards.add_x] at k5
    simp only [mul_zero, add_zero, sub_zero, div_one, mul_one, zero_sub] at k5 k6
    have hu : u3 = 0 := eq_of_cast_eq (p := 7) k1 k2 le_rfl (by norm_num) (by rw [← k5]; simp)
    have hv : v3 = 1 := eq_of_cast_eq (p := 7) k3 k4 (by norm_num) (by norm_num) (by rw [← k6]; simp)
    rw [k7, hu, hv, if_pos (Or.inr rfl)]

end Cryptopy
