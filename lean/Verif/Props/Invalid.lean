import Verif.Props.Ecc

/-!
Points made with `validate=False` that are not on the curve: what the arithmetic does with them.

`curve.point(x, y, validate=False)` is the only way to make such a point (C78): as a value of the model it
is `⟨c, some x, some y⟩` with a false curve equation.
-/

namespace Cryptopy

open Model

/-- C113: negating an off-curve point is refused.  -/
theorem C113_negate (c : WCurve) (hp : c.p ≠ 0) (x y : Int)
    (hoff : ¬ y ^ 2 ≡ x ^ 3 + c.a * x + c.b [ZMOD c.p]) :
    (⟨c, some x, some y⟩ : WPoint).neg = .error .assertion := by
  have : ¬ (-y) ^ 2 ≡ x ^ 3 + c.a * x + c.b [ZMOD c.p] := by rwa [neg_sq]
  exact (C78_point c hp x (-y)).2 this
example := C113_negate ⟨1, 17, 2, 2, 19⟩ (by decide) 6 1 (by decide)

/-- C113: multiplying an off-curve point by a scalar that is not a multiple of `n` is refused; a multiple
of `n` gives the identity without the point being looked at. -/
theorem C113_scalar (c : WCurve) (hp : c.p ≠ 0) (hn : c.n ≠ 0) (x y : Int)
    (hoff : ¬ y ^ 2 ≡ x ^ 3 + c.a * x + c.b [ZMOD c.p]) (k : Int) :
    (⟨c, some x, some y⟩ : WPoint).mul k = if c.n ∣ k then .ok c.identity else .error .assertion := by
  have hneg : c.point (some x) (some (-y)) = .error .assertion := C113_negate c hp x y hoff
  rw [WPoint.mul, WCurve.scalarMultiple]
  simp only [pyMod, if_neg hn]
  change (if k.fmod c.n = 0 then _ else _) = _
  by_cases hd : c.n ∣ k
  · rw [if_pos (Int.dvd_iff_fmod_eq_zero.mp hd), if_pos hd]
  · rw [if_neg (fun h => hd (Int.dvd_iff_fmod_eq_zero.mpr h)), if_neg hd,
      if_neg (by simp [eq_identity_affine])]
    by_cases h0 : k.fmod c.n > 0
    · simp only [Py.assert, h0, num]
      change (do let _ ← c.point (some x) (some (-y)); _) = _
      rw [hneg]
      rfl
    · simp only [Py.assert, h0]
      rfl

variable {p : Nat} [hpf : Fact p.Prime]

/-- C113: doubling an off-curve point is refused, for every prime: the doubled point lies on the curve with another
`b`, so the check of the result fails. -/
theorem C113_double (c : WCurve) (hp : c.p = p) (x y : Int)
    (hoff : ¬ y ^ 2 ≡ x ^ 3 + c.a * x + c.b [ZMOD p]) :
    (⟨c, some x, some y⟩ : WPoint).double = .error .assertion := by
  have hoff' : ¬ (y : ZMod p) ^ 2 = (x : ZMod p) ^ 3 + c.a * x + c.b := by
    intro h
    apply hoff
    rw [← ZMod.intCast_eq_intCast_iff]
    push_cast
    exact h
  rw [WPoint.double, WCurve.doublePoint]
  simp only [num, WCurve.inverse, hp]
  by_cases hy : ((2 * y : Int) : ZMod p) = 0
  · change (do let i ← inverseMod (2 * y) p; _) = _
    rw [inverseMod_zero _ hy]
    rfl
  obtain ⟨i, hi, hi'⟩ := inverseMod_zmod _ hy
  obtain ⟨l, hl, -, -, hl'⟩ := pyMod_ok hpf.out.pos ((3 * x * x + c.a) * i)
  obtain ⟨x3, hx, -, -, hx'⟩ := pyMod_ok hpf.out.pos (l * l - 2 * x)
  obtain ⟨y3, hy3, -, -, hy'⟩ := pyMod_ok hpf.out.pos (l * (x - x3) - y)
  change (do let i ← inverseMod (2 * y) p; _) = _
  rw [hi]
  change (do let l ← pyMod ((3 * x * x + c.a) * i) p; _) = _
  rw [hl]
  change (do let x3 ← pyMod (l * l - 2 * x) p; _) = _
  rw [hx]
  change (do let y3 ← pyMod (l * (x - x3) - y) p; _) = _
  rw [hy3]
  change c.point (some x3) (some y3) = _
  rw [point_affine c hp, if_neg]
  intro h
  apply hoff'
  push_cast at hy hi' hl' hx' hy'
  have hl2 : (l : ZMod p) * (2 * y) = 3 * x ^ 2 + c.a := by
    rw [hl', hi', mul_assoc, inv_mul_cancel₀ hy]; ring
  rw [hy', hx'] at h
  linear_combination (norm := skip) h
  generalize (l : ZMod p) = L at *
  generalize (x : ZMod p) = X at *
  generalize (y : ZMod p) = Y at *
  have ha : (c.a : ZMod p) = L * (2 * Y) - 3 * X ^ 2 := by rw [hl2]; ring
  rw [ha]
  ring
example := haveI : Fact (Nat.Prime 17) := ⟨by norm_num⟩
  C113_double (p := 17) ⟨1, 17, 2, 2, 19⟩ rfl 6 1 (by decide)

/-- The chord through a point `(x1, y1)` of the curve and a point `(x2, y2)` that is off it meets the check of
the result only above `x1`. -/
private theorem chord {a b L x1 y1 x2 y2 x3 : ZMod p} (h1 : y1 ^ 2 = x1 ^ 3 + a * x1 + b)
    (h2 : ¬ y2 ^ 2 = x2 ^ 3 + a * x2 + b) (hL : L * (x2 - x1) = y2 - y1) (hx : x3 = L * L - x1 - x2)
    (h3 : (L * (x1 - x3) - y1) ^ 2 = x3 ^ 3 + a * x3 + b) : x3 = x1 := by
  have hy : y2 = L * (x2 - x1) + y1 := by rw [hL]; ring
  have hb : b = y1 ^ 2 - x1 ^ 3 - a * x1 := by rw [h1]; ring
  have key : (x3 - x1) * (x2 ^ 3 + a * x2 + b - y2 ^ 2) = 0 := by
    rw [hy, hb]
    rw [hb] at h3
    rw [hx] at h3 ⊢
    linear_combination (x1 - x2) * h3
  rcases mul_eq_zero.mp key with h | h
  · exact sub_eq_zero.mp h
  · exact absurd (sub_eq_zero.mp h).symm h2

private theorem add_cases (c : WCurve) (hp : c.p = p) (x1 y1 x2 y2 : Int) (hx : x1 ≠ x2) :
    (⟨c, some x1, some y1⟩ : WPoint).add ⟨c, some x2, some y2⟩ = .error .assertion ∨
    ∃ x3 y3 : Int, ∃ L : ZMod p, (⟨c, some x1, some y1⟩ : WPoint).add ⟨c, some x2, some y2⟩ = .ok ⟨c, some x3, some y3⟩ ∧
      (x1 : ZMod p) ≠ x2 ∧ L * (x2 - x1) = y2 - y1 ∧ (x3 : ZMod p) = L * L - x1 - x2 ∧
      (y3 : ZMod p) = L * (x1 - x3) - y1 ∧ (y3 : ZMod p) ^ 2 = (x3 : ZMod p) ^ 3 + c.a * x3 + c.b := by
  rw [WPoint.add, WCurve.addPoints]
  simp only [eq_identity_affine, num, WCurve.inverse, hp, Py.assert]
  change (if some x1 = some x2 then _ else _) = _ ∨ ∃ x3 y3 : Int, ∃ L : ZMod p, (if some x1 = some x2 then _ else _) = _ ∧ _
  rw [if_neg (by simpa using hx)]
  by_cases hy : ((x2 - x1 : Int) : ZMod p) = 0
  · left
    change (do let i ← inverseMod (x2 - x1) p; _) = _
    rw [inverseMod_zero _ hy]
    rfl
  obtain ⟨i, hi, hi'⟩ := inverseMod_zmod _ hy
  obtain ⟨l, hl, -, -, hl'⟩ := pyMod_ok hpf.out.pos ((y2 - y1) * i)
  obtain ⟨x3, hx, -, -, hx'⟩ := pyMod_ok hpf.out.pos (l * l - x1 - x2)
  obtain ⟨y3, hy3, -, -, hy'⟩ := pyMod_ok hpf.out.pos (l * (x1 - x3) - y1)
  have e : (do
      let i ← inverseMod (x2 - x1) p
      let l ← pyMod ((y2 - y1) * i) p
      let x3 ← pyMod (l * l - x1 - x2) p
      let y3 ← pyMod (l * (x1 - x3) - y1) p
      c.point (some x3) (some y3)) = c.point (some x3) (some y3) := by
    rw [hi]
    change (do let l ← pyMod ((y2 - y1) * i) p; _) = _
    rw [hl]
    change (do let x3 ← pyMod (l * l - x1 - x2) p; _) = _
    rw [hx]
    change (do let y3 ← pyMod (l * (x1 - x3) - y1) p; _) = _
    rw [hy3]
    rfl
  rw [point_affine c hp] at e
  push_cast at hy hi' hl' hx' hy'
  by_cases h : (y3 : ZMod p) ^ 2 = (x3 : ZMod p) ^ 3 + c.a * x3 + c.b
  · right
    rw [if_pos h] at e
    refine ⟨x3, y3, l, e, fun h => hy (by rw [h, sub_self]), ?_, hx', hy', h⟩
    rw [hl', hi', mul_assoc, inv_mul_cancel₀ hy, mul_one]
  · left
    rw [if_neg h] at e
    exact e

/-- C113: an off-curve point `Q` added to a point `P` of the curve, in either order, is refused or gives one of
two multiples of `P` that do not depend on `Q`: `-P`, or `2P` when the coordinates `x` are the same integer and
`P` comes first.  -/
theorem C113_add (c : WCurve) (hp : c.p = p) (x1 y1 x2 y2 : Int)
    (hon : y1 ^ 2 ≡ x1 ^ 3 + c.a * x1 + c.b [ZMOD p]) (hoff : ¬ y2 ^ 2 ≡ x2 ^ 3 + c.a * x2 + c.b [ZMOD p]) :
    let P : WPoint := ⟨c, some x1, some y1⟩
    let Q : WPoint := ⟨c, some x2, some y2⟩
    (P.add Q = .error .assertion ∨ (x1 = x2 ∧ P.add Q = P.double) ∨
      ∃ x3 y3 : Int, P.add Q = .ok ⟨c, some x3, some y3⟩ ∧ x3 ≡ x1 [ZMOD p] ∧ y3 ≡ -y1 [ZMOD p]) ∧
    (Q.add P = .error .assertion ∨
      ∃ x3 y3 : Int, Q.add P = .ok ⟨c, some x3, some y3⟩ ∧ x3 ≡ x1 [ZMOD p] ∧ y3 ≡ -y1 [ZMOD p]) := by
  intro P Q
  have hd := C113_double c hp x2 y2 hoff
  have hoff0 := hoff
  rw [← ZMod.intCast_eq_intCast_iff] at hon hoff
  push_cast at hon hoff
  by_cases hx : x1 = x2
  · subst hx
    have hs : ¬ (p : Int) ∣ y1 + y2 := by
      intro h
      apply hoff
      rw [← ZMod.intCast_zmod_eq_zero_iff_dvd] at h
      push_cast at h
      rw [← hon, eq_neg_of_add_eq_zero_right h, neg_sq]
    have hs1 : ∀ v : Int, ¬ (p : Int) ∣ v → v.fmod p ≠ 0 := fun v h h' => h (Int.dvd_iff_fmod_eq_zero.mpr h')
    have hp0 : (p : Int) ≠ 0 := by exact_mod_cast hpf.out.ne_zero
    constructor
    · right; left
      refine ⟨rfl, ?_⟩
      rw [WPoint.add, WCurve.addPoints]
      simp only [P, Q, eq_identity_affine, num, Py.assert, hp, pyMod, if_neg hp0]
      change (if (y1 + y2).fmod p = 0 then .ok c.identity else P.double) = _
      rw [if_neg (hs1 _ hs)]
    · left
      rw [← hd, WPoint.add, WCurve.addPoints]
      simp only [P, Q, eq_identity_affine, num, Py.assert, hp, pyMod, if_neg hp0]
      change (if (y2 + y1).fmod p = 0 then .ok c.identity else Q.double) = _
      rw [if_neg (hs1 _ (by rwa [add_comm]))]
  · constructor
    · rcases add_cases c hp x1 y1 x2 y2 hx with h | ⟨x3, y3, L, h, -, h2, h3, h4, h5⟩
      · exact .inl h
      · right; right
        have e := chord hon hoff h2 h3 (h4 ▸ h5)
        refine ⟨x3, y3, h, (ZMod.intCast_eq_intCast_iff _ _ _).mp e, (ZMod.intCast_eq_intCast_iff _ _ _).mp ?_⟩
        rw [h4, e]
        push_cast
        ring
    · rcases add_cases c hp x2 y2 x1 y1 (Ne.symm hx) with h | ⟨x3, y3, L, h, -, h2, h3, h4, h5⟩
      · exact .inl h
      · right
        have h4' : (y3 : ZMod p) = L * (x1 - x3) - y1 := by
          rw [h4]; linear_combination -h2
        have e := chord hon hoff (L := L) (x3 := x3) (by linear_combination -h2) (by rw [h3]; ring) (h4' ▸ h5)
        refine ⟨x3, y3, h, (ZMod.intCast_eq_intCast_iff _ _ _).mp e, (ZMod.intCast_eq_intCast_iff _ _ _).mp ?_⟩
        rw [h4', e]
        push_cast
        ring

-- Each case occurs: on y² = x³ + 2x + 2 over GF(17) with generator (5, 1) of order 19.
private def toyW : WCurve := ⟨1, 17, 2, 2, 19⟩
private def toyP : WPoint := ⟨toyW, some 5, some 1⟩

example : ¬ (1 : Int) ^ 2 ≡ 6 ^ 3 + toyW.a * 6 + toyW.b [ZMOD toyW.p] := by decide
example : (⟨toyW, some 6, some 1⟩ : WPoint).mul 38 = .ok toyW.identity := by
  rw [show (⟨toyW, some 6, some 1⟩ : WPoint).mul 38 = _ from
    C113_scalar toyW (by decide) (by decide) 6 1 (by decide) 38, if_pos (by decide)]
example : (⟨toyW, some 6, some 1⟩ : WPoint).mul 20 = .error .assertion := by
  rw [show (⟨toyW, some 6, some 1⟩ : WPoint).mul 20 = _ from
    C113_scalar toyW (by decide) (by decide) 6 1 (by decide) 20, if_neg (by decide)]
example : ¬ (2 : Int) ^ 2 ≡ 16 ^ 3 + toyW.a * 16 + toyW.b [ZMOD 17] ∧
    toyP.add ⟨toyW, some 16, some 2⟩ = .ok ⟨toyW, some 5, some 16⟩ := by decide +kernel
example : ¬ (2 : Int) ^ 2 ≡ 5 ^ 3 + toyW.a * 5 + toyW.b [ZMOD 17] ∧
    toyP.add ⟨toyW, some 5, some 2⟩ = .ok ⟨toyW, some 6, some 3⟩ := by decide +kernel
example : toyP.add ⟨toyW, some 6, some 1⟩ = .error .assertion := by decide +kernel

end Cryptopy
