import Verif.Lemmas.Growth
import Mathlib.Data.Nat.Size

/-!
Properties C82, C104 and C105: `MontgomeryCurveFp.montgomery_ladder`, `ecc/ecc.py`.
-/

namespace Cryptopy
open Model Spec WeierstrassCurve

variable {p : Nat} [hpf : Fact p.Prime]

private theorem mCurve_nonsingular (h2p : p ≠ 2) (a x y : Int) (ha : ¬ a ^ 2 ≡ 4 [ZMOD p])
    (he : y ^ 2 ≡ x ^ 3 + a * x ^ 2 + x [ZMOD p]) : (mCurve p a).Nonsingular (x : ZMod p) (y : ZMod p) := by
  rw [← ZMod.intCast_eq_intCast_iff] at ha he
  push_cast at ha he
  have h2 := two_ne_zero_zmod (p := p) h2p
  refine (Affine.equation_iff_nonsingular_of_Δ_ne_zero ?_).mp ?_
  · have : (mCurve p a).Δ = 2 ^ 4 * ((a : ZMod p) ^ 2 - 4) := by
      simp only [WeierstrassCurve.Δ, WeierstrassCurve.b₂, WeierstrassCurve.b₄, WeierstrassCurve.b₆,
        WeierstrassCurve.b₈, mCurve]
      ring
    rw [this]
    exact mul_ne_zero (pow_ne_zero _ h2) (sub_ne_zero.mpr ha)
  · rw [Affine.equation_iff]
    simp only [mCurve]
    linear_combination he

/-- C82: for every odd prime `p`, every `a` with `a² ≢ 4`, every point `(x1, y1)` of
`y² = x³ + a x² + x` and every integer scalar, the ladder returns the reduced x-coordinate of
`scalar mod 2^255` times the point, 0 for the point at infinity. -/
theorem C82_ladder (c : MCurve) (a : Int) (hca : c.a = some a) (hp : c.p = p) (h2p : p ≠ 2)
    (ha : ¬ a ^ 2 ≡ 4 [ZMOD p]) (x1 y1 : Int) (hon : c.onCurve x1 y1 = .ok true) (scalar : Int) :
    ∃ (h : (mCurve p a).Nonsingular (x1 : ZMod p) (y1 : ZMod p)) (r : Int),
      c.montgomeryLadder scalar x1 = .ok r ∧ 0 ≤ r ∧ r < p ∧
      (r : ZMod p) = xOrZero ((scalar % 2 ^ 255) • (Affine.Point.some (x1 : ZMod p) (y1 : ZMod p) h)) := by
  have hp0 := hpf.out.pos
  have he : y1 ^ 2 ≡ x1 ^ 3 + a * x1 ^ 2 + x1 [ZMOD p] := by
    rw [MCurve.onCurve, hca, hp] at hon
    simp only [attr, pyMod, if_neg (show ((p : Nat) : Int) ≠ 0 by omega)] at hon
    change Except.ok ((y1 * y1).fmod p == (x1 * (x1 * x1) + a * (x1 * x1) + x1).fmod p) = _ at hon
    injection hon with hon
    rw [beq_iff_eq, fmod_pos_eq _ (by omega), fmod_pos_eq _ (by omega)] at hon
    rw [Int.ModEq, show y1 ^ 2 = y1 * y1 by ring, hon]
    congr 1
    ring
  have hn := mCurve_nonsingular h2p a x1 y1 ha he
  have ha' : (a : ZMod p) ^ 2 ≠ 4 := by
    rw [← ZMod.intCast_eq_intCast_iff] at ha
    push_cast at ha
    exact ha
  exact ⟨hn, montgomeryLadder_spec c a hca hp h2p ha' x1 y1 hn scalar⟩

/-- C82: for scalars in `[0, 2^255)` nothing is dropped. -/
theorem C82_in_range (c : MCurve) (a : Int) (hca : c.a = some a) (hp : c.p = p) (h2p : p ≠ 2)
    (ha : ¬ a ^ 2 ≡ 4 [ZMOD p]) (x1 y1 : Int) (hon : c.onCurve x1 y1 = .ok true) (scalar : Nat)
    (hs : scalar < 2 ^ 255) :
    ∃ (h : (mCurve p a).Nonsingular (x1 : ZMod p) (y1 : ZMod p)) (r : Int),
      c.montgomeryLadder scalar x1 = .ok r ∧ 0 ≤ r ∧ r < p ∧
      (r : ZMod p) = xOrZero (scalar • (Affine.Point.some (x1 : ZMod p) (y1 : ZMod p) h)) := by
  obtain ⟨h, r, h1, h2, h3, h4⟩ := C82_ladder c a hca hp h2p ha x1 y1 hon scalar
  refine ⟨h, r, h1, h2, h3, ?_⟩
  have e : (scalar : Int) % 2 ^ 255 = scalar := Int.emod_eq_of_lt (by omega) (by exact_mod_cast hs)
  rw [h4, e, natCast_zsmul]

-- `y² = x³ + 3x² + x` over GF(13) with the point (2, 3).
example (scalar : Int) : ∃ r, (⟨13, some 3⟩ : MCurve).montgomeryLadder scalar 2 = .ok r ∧ 0 ≤ r ∧ r < (13 : Nat) := by
  have : Fact (Nat.Prime 13) := ⟨by norm_num⟩
  obtain ⟨-, r, h1, h2, h3, -⟩ := C82_ladder (p := 13) ⟨13, some 3⟩ 3 rfl rfl (by decide) (by decide) 2 3
    (by decide +kernel) scalar
  exact ⟨r, h1, h2, h3⟩

/-! ### C104 -/

omit hpf in
theorem cast_ne {K : Type} [Field K] [CharP K p] {a : Int} (ha : ¬ a ^ 2 ≡ 4 [ZMOD p]) : (a : K) ^ 2 ≠ 4 := by
  intro h
  apply ha
  rw [Int.modEq_comm, Int.modEq_iff_dvd, ← CharP.intCast_eq_zero_iff K p]
  push_cast
  rw [h, sub_self]

/-- Every integer is the x-coordinate of a point over the algebraic closure. -/
theorem exists_point (h2p : p ≠ 2) (a x : Int) (ha : ¬ a ^ 2 ≡ 4 [ZMOD p]) :
    ∃ y : AlgebraicClosure (ZMod p), (mCurveOver (AlgebraicClosure (ZMod p)) a).Nonsingular x y := by
  have h2 : (2 : AlgebraicClosure (ZMod p)) ≠ 0 := two_ne_zero_char h2p
  obtain ⟨y, hy⟩ := IsAlgClosed.exists_pow_nat_eq
    ((x : AlgebraicClosure (ZMod p)) ^ 3 + a * (x : AlgebraicClosure (ZMod p)) ^ 2 + x) (n := 2) (by norm_num)
  refine ⟨y, (Affine.equation_iff_nonsingular_of_Δ_ne_zero ?_).mp ?_⟩
  · have : (mCurveOver (AlgebraicClosure (ZMod p)) a).Δ = 2 ^ 4 * ((a : AlgebraicClosure (ZMod p)) ^ 2 - 4) := by
      simp only [WeierstrassCurve.Δ, WeierstrassCurve.b₂, WeierstrassCurve.b₄, WeierstrassCurve.b₆,
        WeierstrassCurve.b₈, mCurveOver]
      ring
    rw [this]
    refine mul_ne_zero (pow_ne_zero _ h2) (sub_ne_zero.mpr ?_)
    exact cast_ne ha
  · rw [Affine.equation_iff]
    simp only [mCurveOver]
    linear_combination hy

open Classical in
/-- The ladder applied to the x-coordinate of any point. -/
private theorem ladder_of_x (c : MCurve) (a : Int) (hca : c.a = some a) (hp : c.p = p) (h2p : p ≠ 2)
    (ha : ¬ a ^ 2 ≡ 4 [ZMOD p]) (Q : (mCurveOver (AlgebraicClosure (ZMod p)) a).Point) (x k : Int)
    (hx : (x : AlgebraicClosure (ZMod p)) = xOrZero Q) :
    ∃ r, c.montgomeryLadder k x = .ok r ∧ 0 ≤ r ∧ r < p ∧
      (r : AlgebraicClosure (ZMod p)) = xOrZero ((k % 2 ^ 255) • Q) := by
  have ha' : (a : AlgebraicClosure (ZMod p)) ^ 2 ≠ 4 := cast_ne ha
  cases Q with
  | zero =>
    obtain ⟨y, hn⟩ := exists_point h2p a x ha
    obtain ⟨r, h1, h2, h3, h4⟩ := montgomeryLadder_over c a hca hp h2p ha' x y hn k
    refine ⟨r, h1, h2, h3, ?_⟩
    rw [h4, zsmul_order_two x y hn hx]
    change _ = xOrZero ((k % 2 ^ 255) • (0 : (mCurveOver (AlgebraicClosure (ZMod p)) a).Point))
    rw [zsmul_zero]
    rfl
  | some x' y' h =>
    change (x : AlgebraicClosure (ZMod p)) = x' at hx
    subst hx
    exact montgomeryLadder_over c a hca hp h2p ha' x y' h k

/-- C104: for every odd prime `p`, every `a` with `a² ≢ 4`, every integer `x` (whether or not it belongs to
a point modulo `p`) and all scalars, applying the ladder twice gives the same value in both orders. -/
theorem C104_ladder_agreement (c : MCurve) (a : Int) (hca : c.a = some a) (hp : c.p = p) (h2p : p ≠ 2)
    (ha : ¬ a ^ 2 ≡ 4 [ZMOD p]) (x k l : Int) :
    ∃ r s t, c.montgomeryLadder k x = .ok r ∧ c.montgomeryLadder l x = .ok s ∧
      c.montgomeryLadder l r = .ok t ∧ c.montgomeryLadder k s = .ok t ∧ 0 ≤ t ∧ t < p := by
  classical
  have ha' : (a : AlgebraicClosure (ZMod p)) ^ 2 ≠ 4 := cast_ne ha
  obtain ⟨y, hn⟩ := exists_point h2p a x ha
  obtain ⟨r, hr, hr0, hrp, hrx⟩ := montgomeryLadder_over c a hca hp h2p ha' x y hn k
  obtain ⟨s, hs, hs0, hsp, hsx⟩ := montgomeryLadder_over c a hca hp h2p ha' x y hn l
  obtain ⟨t, ht, ht0, htp, htx⟩ := ladder_of_x c a hca hp h2p ha _ r l hrx
  obtain ⟨u, hu, hu0, hup, hux⟩ := ladder_of_x c a hca hp h2p ha _ s k hsx
  refine ⟨r, s, t, hr, hs, ht, ?_, ht0, htp⟩
  have : u = t := by
    have e : (u : AlgebraicClosure (ZMod p)) = t := by
      rw [hux, htx, ← mul_zsmul, ← mul_zsmul, mul_comm]
    have hd := (CharP.intCast_eq_zero_iff (AlgebraicClosure (ZMod p)) p (u - t)).mp (by
      push_cast; rw [e, sub_self])
    have := Int.eq_zero_of_abs_lt_dvd hd (by rw [abs_lt]; omega)
    omega
  rw [← this]
  exact hu

-- `y² = x³ + 3x² + x` over GF(13); 5 is not the x-coordinate of a point modulo 13.
example (k l : Int) : ∃ r s t, (⟨13, some 3⟩ : MCurve).montgomeryLadder k 5 = .ok r ∧
    (⟨13, some 3⟩ : MCurve).montgomeryLadder l 5 = .ok s ∧
    (⟨13, some 3⟩ : MCurve).montgomeryLadder l r = .ok t ∧
    (⟨13, some 3⟩ : MCurve).montgomeryLadder k s = .ok t ∧ 0 ≤ t ∧ t < (13 : Nat) := by
  have : Fact (Nat.Prime 13) := ⟨by norm_num⟩
  exact C104_ladder_agreement (p := 13) ⟨13, some 3⟩ 3 rfl rfl (by decide) (by decide) 5 k l

/-! ### C105 -/

omit hpf in
/-- C105: for every `x` other than 0, 1 and -1 and every `a` other than 2 and -2, after `k + 2` of the 255
iterations one of the four variables is at least `|x|^(2^k)` in absolute value, whatever the scalar. -/
theorem C105_growth (x a scalar : Int) (hx : 2 ≤ |x|) (ha : a ≠ 2 ∧ a ≠ -2) (k : Nat) (hk : k + 2 ≤ 255) :
    let s := ((List.range 255).reverse.take (k + 2)).foldl (ladderStep x a scalar) (1, 0, x, 1)
    ∃ v ∈ [s.1, s.2.1, s.2.2.1, s.2.2.2], |x| ^ 2 ^ k ≤ |v| := by
  have ha' : a ^ 2 ≠ 4 := by
    intro h
    have : (a - 2) * (a + 2) = 0 := by linear_combination h
    rcases mul_eq_zero.mp this with h | h <;> omega
  have := ladder_growth x a scalar hx ha' ((List.range 255).reverse.take (k + 2)) k (by
    rw [List.length_take, List.length_reverse, List.length_range]; omega)
  generalize ((List.range 255).reverse.take (k + 2)).foldl (ladderStep x a scalar) (1, 0, x, 1) = s at this
  obtain ⟨x2, z2, x3, z3⟩ := s
  simp only at this ⊢
  rcases this with h | h | h | h
  · exact ⟨x2, by simp, h⟩
  · exact ⟨z2, by simp, h⟩
  · exact ⟨x3, by simp, h⟩
  · exact ⟨z3, by simp, h⟩
example (scalar : Int) := C105_growth 9 486662 scalar (by decide) (by decide) 253 (by decide)

omit hpf in
private theorem last_size (x a scalar : Int) (hx : 2 ≤ |x|) (ha : a ≠ 2 ∧ a ≠ -2) (k n : Nat) (hn : k + 2 = n) :
    let s := (List.range n).reverse.foldl (ladderStep x a scalar) (1, 0, x, 1)
    ∃ v ∈ [s.1, s.2.1, s.2.2.1, s.2.2.2], 2 ^ k < Nat.size v.natAbs := by
  have ha' : a ^ 2 ≠ 4 := by
    intro h
    have : (a - 2) * (a + 2) = 0 := by linear_combination h
    rcases mul_eq_zero.mp this with h | h <;> omega
  have := ladder_growth x a scalar hx ha' (List.range n).reverse k (by
    rw [List.length_reverse, List.length_range]; omega)
  generalize (List.range n).reverse.foldl (ladderStep x a scalar) (1, 0, x, 1) = s at this ⊢
  obtain ⟨x2, z2, x3, z3⟩ := s
  have big : ∀ v : Int, |x| ^ 2 ^ k ≤ |v| → 2 ^ k < Nat.size v.natAbs := by
    intro v h
    rw [Nat.lt_size]
    have h1 : (2 : Int) ^ 2 ^ k ≤ |v| := le_trans (pow_le_pow_left₀ (by norm_num) hx _) h
    zify
    exact h1
  simp only at this ⊢
  rcases this with h | h | h | h
  · exact ⟨x2, by simp, big _ h⟩
  · exact ⟨z2, by simp, big _ h⟩
  · exact ⟨x3, by simp, big _ h⟩
  · exact ⟨z3, by simp, big _ h⟩

omit hpf in
/-- C105: in the last iteration one of the variables needs more than `2^253` binary digits. -/
theorem C105_memory (x a scalar : Int) (hx : 2 ≤ |x|) (ha : a ≠ 2 ∧ a ≠ -2) :
    let s := (List.range 255).reverse.foldl (ladderStep x a scalar) (1, 0, x, 1)
    ∃ v ∈ [s.1, s.2.1, s.2.2.1, s.2.2.2], 2 ^ 253 < Nat.size v.natAbs := by
  exact last_size x a scalar hx ha 253 255 (by omega)

-- The generator of Curve25519.
example : 2 ≤ |(9 : Int)| ∧ (486662 : Int) ≠ 2 ∧ (486662 : Int) ≠ -2 := by decide

end Cryptopy
