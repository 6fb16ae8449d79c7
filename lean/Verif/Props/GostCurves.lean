import Verif.Lemmas.EdwardsWeierstrass
import Verif.Lemmas.Twist
import Verif.Props.EdwardsCurves
import Verif.Props.Scalar

/-!
Property C136: `GOSTmsg05975sw` is `GOSTmsg05975te` in other coordinates. `C136_gost` is a case in which the hypotheses
of `C136_map` hold.
-/

namespace Cryptopy
open Model Spec WeierstrassCurve

/-- C136: a complete Edwards curve modulo `p > 3` and the Weierstrass curve with
`48 A = 3 (a - d)² - 4 (a + d)²` and `864 B = 8 (a + d)³ - 9 (a + d) (a - d)²` have isomorphic groups; with
`w = (1 + y) / (1 - y)`, the point `(x, y)` goes to `((a - d) w / 4 + (a + d) / 6, (a - d) w / (4 x))`, and `(0, -1)` to
`((a + d) / 6, 0)`. -/
theorem C136_map (p : Nat) [Fact p.Prime] (h3 : 3 < p) (E : Edwards (ZMod p)) (A B : Int)
    (hA : 48 * (A : ZMod p) = 3 * (E.a - E.d) ^ 2 - 4 * (E.a + E.d) ^ 2)
    (hB : 864 * (B : ZMod p) = 8 * (E.a + E.d) ^ 3 - 9 * (E.a + E.d) * (E.a - E.d) ^ 2) :
    ∃ φ : E.Point ≃+ (wCurve p A B).Point,
      (∀ P : E.Point, P.x ≠ 0 → ∃ n, φ P = .some ((E.a - E.d) / 4 * ((1 + P.y) / (1 - P.y)) + (E.a + E.d) / 6)
        ((E.a - E.d) / 4 * ((1 + P.y) / (1 - P.y)) / P.x) n) ∧
      ∀ P : E.Point, P.x = 0 → P.y = -1 → ∃ n, φ P = .some ((E.a + E.d) / 6) 0 n := by
  have h3' : (3 : ZMod p) ≠ 0 := by
    intro h
    have : p ∣ 3 := (ZMod.natCast_eq_zero_iff 3 p).mp (by exact_mod_cast h)
    exact absurd (Nat.le_of_dvd (by norm_num) this) (by omega)
  have h2' := E.two
  have hs := EW.s_eq E
  have ht := EW.t_eq E h3'
  have hW : wCurve p A B = EW.curve E := by
    have e1 : (A : ZMod p) = EW.sOf E ^ 2 - 3 * EW.tOf E ^ 2 := by
      have n48 : (48 : ZMod p) ≠ 0 := by
        rw [show (48 : ZMod p) = 2 ^ 4 * 3 by norm_num]; exact mul_ne_zero (pow_ne_zero _ h2') h3'
      refine mul_left_cancel₀ n48 ?_
      rw [hA, ← hs, ← ht]; ring
    have e2 : (B : ZMod p) = 2 * EW.tOf E ^ 3 - EW.tOf E * EW.sOf E ^ 2 := by
      have n864 : (864 : ZMod p) ≠ 0 := by
        rw [show (864 : ZMod p) = 2 ^ 5 * 3 ^ 3 by norm_num]
        exact mul_ne_zero (pow_ne_zero _ h2') (pow_ne_zero _ h3')
      refine mul_left_cancel₀ n864 ?_
      rw [hB, ← hs, ← ht]; ring
    rw [wCurve, EW.curve, e1, e2]
  rw [hW]
  exact ⟨EW.equiv h3', fun P h => EW.toW_is h3' h, fun P h h' =>
    (show P = EW.two E from Edwards.Point.ext h h') ▸ EW.toW_two h3'⟩

set_option maxRecDepth 20000 in
/-- C136: `GOSTmsg05975sw` has the coefficients of `GOSTmsg05975te` under this map, and the generators correspond. -/
theorem C136_gost : ∃ (p : Nat) (_ : Fact p.Prime), GOSTmsg05975te.p = p ∧ GOSTmsg05975sw.p = p ∧
    ∃ E : Edwards (ZMod p), E.a = GOSTmsg05975te.a ∧ E.d = GOSTmsg05975te.d ∧
    ∃ φ : E.Point ≃+ (wCurve p GOSTmsg05975sw.a GOSTmsg05975sw.b).Point,
      (∀ P : E.Point, P.x ≠ 0 → ∃ n, φ P = .some ((E.a - E.d) / 4 * ((1 + P.y) / (1 - P.y)) + (E.a + E.d) / 6)
        ((E.a - E.d) / 4 * ((1 + P.y) / (1 - P.y)) / P.x) n) ∧
      (∀ P : E.Point, P.x = 0 → P.y = -1 → ∃ n, φ P = .some ((E.a + E.d) / 6) 0 n) ∧
      ∃ G : E.Point, G.x = GOSTmsg05975te.xG ∧ G.y = GOSTmsg05975te.yG ∧
        Represents (some GOSTmsg05975sw.xG) (some GOSTmsg05975sw.yG) (φ G) ∧
        (addOrderOf G : Int) = GOSTmsg05975te_q ∧ GOSTmsg05975sw.n = 4 * GOSTmsg05975te_q ∧
        (Nat.card (wCurve p GOSTmsg05975sw.a GOSTmsg05975sw.b).Point : Int) = GOSTmsg05975sw.n := by
  obtain ⟨p, q, hp, h1, h2, h3, h4, h5, h6, h7, E, e1, e2, G, g1, g2, g3, -, g4⟩ := C110_gost
  have hq : GOSTmsg05975sw.n = 4 * GOSTmsg05975te_q := by decide +kernel
  have hh : GOSTmsg05975te.h = 4 := rfl
  have hpp : GOSTmsg05975te.p = GOSTmsg05975sw.p := rfl
  have hgt : (3 : Int) < GOSTmsg05975te.p := by decide +kernel
  have cA : GOSTmsg05975te.p ∣ 48 * GOSTmsg05975sw.a - (3 * (GOSTmsg05975te.a - GOSTmsg05975te.d) ^ 2 -
      4 * (GOSTmsg05975te.a + GOSTmsg05975te.d) ^ 2) := by decide +kernel
  have cB : GOSTmsg05975te.p ∣ 864 * GOSTmsg05975sw.b - (8 * (GOSTmsg05975te.a + GOSTmsg05975te.d) ^ 3 -
      9 * (GOSTmsg05975te.a + GOSTmsg05975te.d) * (GOSTmsg05975te.a - GOSTmsg05975te.d) ^ 2) := by decide +kernel
  have cX : GOSTmsg05975te.p ∣ 12 * GOSTmsg05975sw.xG * (1 - GOSTmsg05975te.yG) -
      (3 * (GOSTmsg05975te.a - GOSTmsg05975te.d) * (1 + GOSTmsg05975te.yG) +
        2 * (GOSTmsg05975te.a + GOSTmsg05975te.d) * (1 - GOSTmsg05975te.yG)) := by decide +kernel
  have cY : GOSTmsg05975te.p ∣ 4 * GOSTmsg05975sw.yG * (1 - GOSTmsg05975te.yG) * GOSTmsg05975te.xG -
      (GOSTmsg05975te.a - GOSTmsg05975te.d) * (1 + GOSTmsg05975te.yG) := by decide +kernel
  have cn : ¬ GOSTmsg05975te.p ∣ GOSTmsg05975te.xG := by decide +kernel
  generalize GOSTmsg05975te = T at *
  generalize GOSTmsg05975sw = S at *
  generalize GOSTmsg05975te_q = Q at *
  rw [h1] at cA cB cX cY cn hgt
  simp only [← ZMod.intCast_zmod_eq_zero_iff_dvd] at cA cB cX cY cn
  push_cast at cA cB cX cY
  rw [← e1, ← e2] at cA cB cX cY
  rw [← g1, ← g2] at cY
  rw [← g2] at cX
  obtain ⟨φ, f1, f2⟩ := C136_map p (by exact_mod_cast hgt) E S.a S.b (by linear_combination cA) (by linear_combination cB)
  have hG : G.x ≠ 0 := by rw [g1]; exact cn
  refine ⟨p, hp, h1, hpp ▸ h1, E, e1, e2, φ, f1, f2, G, g1, g2, ?_, by rw [g3, h2], hq, ?_⟩
  · obtain ⟨n, hn⟩ := f1 G hG
    have y1 := (EW.y_ne hG).1
    have h3' : (3 : ZMod p) ≠ 0 := by
      intro h
      have : p ∣ 3 := (ZMod.natCast_eq_zero_iff 3 p).mp (by exact_mod_cast h)
      have : p ≤ 3 := Nat.le_of_dvd (by norm_num) this
      have : (3 : Int) < p := hgt
      omega
    have n2 := E.two
    have n4 : (4 : ZMod p) ≠ 0 := EW.four_ne E
    have n6 : (6 : ZMod p) ≠ 0 := by rw [show (6 : ZMod p) = 2 * 3 by norm_num]; exact mul_ne_zero n2 h3'
    have ex : (E.a - E.d) / 4 * ((1 + G.y) / (1 - G.y)) + (E.a + E.d) / 6 = (S.xG : ZMod p) := by
      have n12 : (12 : ZMod p) * (1 - G.y) ≠ 0 := mul_ne_zero (by
        rw [show (12 : ZMod p) = 2 ^ 2 * 3 by norm_num]; exact mul_ne_zero (pow_ne_zero _ n2) h3') y1
      refine mul_left_cancel₀ n12 ?_
      have : (12 : ZMod p) * (1 - G.y) * ((E.a - E.d) / 4 * ((1 + G.y) / (1 - G.y)) + (E.a + E.d) / 6) =
          3 * (E.a - E.d) * (1 + G.y) + 2 * (E.a + E.d) * (1 - G.y) := by
        rw [show (6 : ZMod p) = 2 * 3 by norm_num, show (4 : ZMod p) = 2 * 2 by norm_num]
        field_simp
        ring
      rw [this]
      linear_combination -cX
    have ey : (E.a - E.d) / 4 * ((1 + G.y) / (1 - G.y)) / G.x = (S.yG : ZMod p) := by
      rw [div_eq_iff hG, div_mul_div_comm, div_eq_iff (mul_ne_zero n4 y1)]
      linear_combination -cY
    rw [hn]
    simp only [ex, ey]
    exact .affine _ _ _
  · rw [← Nat.card_congr φ.toEquiv, g4, hh, hq, h2]

/-- C136: so, except for the `k` at which `GOSTmsg05975sw` raises (C101), the library's `k * G` on `GOSTmsg05975sw` is the
image of the `k`-fold sum of the generator of `GOSTmsg05975te` in the group of the Edwards curve. -/
theorem C136_scalar (oid : Nat) (k : Int)
    (hk : ¬ (k % GOSTmsg05975sw.n = GOSTmsg05975sw.n / 2 ∨ k % GOSTmsg05975sw.n = GOSTmsg05975sw.n - 1)) :
    ∃ W R, GOSTmsg05975sw.generator oid = .ok W ∧ W.mul k = .ok R ∧ ∃ (p : Nat) (_ : Fact p.Prime), GOSTmsg05975te.p = p ∧
      ∃ E : Edwards (ZMod p), E.a = GOSTmsg05975te.a ∧ E.d = GOSTmsg05975te.d ∧ ∃ G : E.Point,
        G.x = GOSTmsg05975te.xG ∧ G.y = GOSTmsg05975te.yG ∧
        (k • G = 0 ↔ R.x = none ∧ R.y = none) ∧
        ((k • G).x ≠ 0 → ∃ u v : Int, R.x = some u ∧ R.y = some v ∧
          (u : ZMod p) = (E.a - E.d) / 4 * ((1 + (k • G).y) / (1 - (k • G).y)) + (E.a + E.d) / 6 ∧
          (v : ZMod p) = (E.a - E.d) / 4 * ((1 + (k • G).y) / (1 - (k • G).y)) / (k • G).x) := by
  obtain ⟨W, w1, -, w2⟩ := C101_gost_scalar oid k
  obtain ⟨R, r1, -, r2⟩ := w2 hk
  obtain ⟨p, hp, h1, h2, E, e1, e2, φ, f1, f2, G, g1, g2, g3, -⟩ := C136_gost
  obtain ⟨-, -, -, -, -, -, -, -, -, -, -, -, -, hG, -⟩ := C101_gost_parameters
  have hW : W.x = some GOSTmsg05975sw.xG ∧ W.y = some GOSTmsg05975sw.yG := by
    rw [hG oid] at w1
    injection w1 with w1
    rw [← w1]
    exact ⟨rfl, rfl⟩
  have hr := r2 p h2 hp (φ G) (by rw [hW.1, hW.2]; exact g3)
  rw [← map_zsmul] at hr
  refine ⟨W, R, w1, r1, p, hp, h1, E, e1, e2, G, g1, g2, ?_, fun h => ?_⟩
  · rw [← map_eq_zero_iff φ φ.injective]
    generalize φ (k • G) = Z at hr
    generalize R.x = rx at *
    generalize R.y = ry at *
    cases hr with
    | infinity => simp
    | affine x y n => simp [Affine.Point.some_ne_zero]
  · obtain ⟨n, hn⟩ := f1 _ h
    rw [hn] at hr
    generalize R.x = rx at *
    generalize R.y = ry at *
    generalize (E.a - E.d) / 4 * ((1 + (k • G).y) / (1 - (k • G).y)) / (k • G).x = Y at *
    generalize (E.a - E.d) / 4 * ((1 + (k • G).y) / (1 - (k • G).y)) + (E.a + E.d) / 6 = X at *
    cases hr with
    | affine x y n => exact ⟨x, y, rfl, rfl, rfl, rfl⟩
example (oid : Nat) := C136_scalar oid 12345 (by decide +kernel)

/-- The number of points of a Weierstrass curve. -/
private theorem card_w {p : Nat} [Fact p.Prime] (a b : Int) (h2 : p ≠ 2) (hd : (4 * a ^ 3 + 27 * b ^ 2 : ZMod p) ≠ 0) :
    Nat.card (wCurve p a b).Point =
      Nat.card {q : ZMod p × ZMod p // q.2 ^ 2 = q.1 ^ 3 + a * q.1 + b} + 1 := by
  have ns : ∀ {x y : ZMod p}, y ^ 2 = x ^ 3 + a * x + b ↔ (wCurve p a b).Nonsingular x y := by
    intro x y
    rw [← Affine.equation_iff_nonsingular_of_Δ_ne_zero (wCurve_disc h2 hd), wCurve_equation]
  let B := {q : ZMod p × ZMod p // q.2 ^ 2 = q.1 ^ 3 + a * q.1 + b}
  let g : Option B → (wCurve p a b).Point
    | none => 0
    | some q => .some q.1.1 q.1.2 (ns.mp q.2)
  have gb : Function.Bijective g := by
    constructor
    · rintro (_ | q) (_ | r) h
      · rfl
      · exact absurd h.symm (Affine.Point.some_ne_zero _)
      · exact absurd h (Affine.Point.some_ne_zero _)
      · injection h with h1 h3
        exact congrArg some (Subtype.ext (Prod.ext h1 h3))
    · intro P
      cases P with
      | zero => exact ⟨none, rfl⟩
      | some x y n => exact ⟨some ⟨(x, y), ns.mpr n⟩, rfl⟩
  rw [← Nat.card_congr (Equiv.ofBijective g gb)]
  exact Finite.card_option

/-- Modulo a prime that is 3 modulo 4, the curves with `b` and `-b` have `2 p + 2` points together. -/
private theorem card_twist {p : Nat} [Fact p.Prime] (a b : Int) (h4 : p % 4 = 3)
    (hd : (4 * a ^ 3 + 27 * b ^ 2 : ZMod p) ≠ 0) :
    Nat.card (wCurve p a b).Point + Nat.card (wCurve p a (-b)).Point = 2 * p + 2 := by
  have h2 : p ≠ 2 := by omega
  have hsq : ¬ IsSquare (-1 : ZMod p) := by
    rw [ZMod.exists_sq_eq_neg_one_iff]; omega
  have e := Twist.card_sum h2 hsq fun x => x ^ 3 + a * x + b
  have e' : Nat.card {q : ZMod p × ZMod p // -1 * q.2 ^ 2 = q.1 ^ 3 + a * q.1 + b} =
      Nat.card {q : ZMod p × ZMod p // q.2 ^ 2 = q.1 ^ 3 + a * q.1 + ((-b : Int) : ZMod p)} := by
    refine Nat.card_congr ⟨fun q => ⟨(-q.1.1, q.1.2), ?_⟩, fun q => ⟨(-q.1.1, q.1.2), ?_⟩, fun q => ?_, fun q => ?_⟩
    · have := q.2
      push_cast
      linear_combination -this
    · have := q.2
      push_cast at this
      linear_combination -this
    · exact Subtype.ext (Prod.ext (neg_neg _) rfl)
    · exact Subtype.ext (Prod.ext (neg_neg _) rfl)
  rw [card_w a b h2 hd, card_w a (-b) h2 (by push_cast; rw [neg_sq]; exact hd)]
  rw [e'] at e
  omega

set_option maxRecDepth 20000 in
/-- C136: the attribute `n` of `GOSTmsg05975te` is a quarter of the number of points of the twist of the curve,
`y² = x³ + a x - b`, and not of the curve. -/
theorem C136_twist : ∃ (p : Nat) (_ : Fact p.Prime), GOSTmsg05975sw.p = p ∧
    ¬ IsSquare (-1 : ZMod p) ∧
    (Nat.card (wCurve p GOSTmsg05975sw.a (-GOSTmsg05975sw.b)).Point : Int) = 4 * GOSTmsg05975te.n ∧
    GOSTmsg05975te.n ≠ GOSTmsg05975te_q := by
  obtain ⟨p, hp, h1, h2, E, e1, e2, φ, f1, f2, G, g1, g2, g3, -, g4, g5⟩ := C136_gost
  obtain ⟨p', -, p1, -, -, -, -, -, hd, -⟩ := C101_gost_parameters
  have hpp : p' = p := by rw [h2] at p1; exact_mod_cast p1.symm
  subst hpp
  have h4 : GOSTmsg05975sw.p % 4 = 3 := by decide +kernel
  have hn : 2 * GOSTmsg05975sw.p + 2 = GOSTmsg05975sw.n + 4 * GOSTmsg05975te.n := by decide +kernel
  have hne : GOSTmsg05975te.n ≠ GOSTmsg05975te_q := by decide +kernel
  rw [h2] at h4 hn
  have hm : p' % 4 = 3 := by exact_mod_cast h4
  have := card_twist GOSTmsg05975sw.a GOSTmsg05975sw.b hm hd
  refine ⟨p', hp, h2, ?_, ?_, hne⟩
  · rw [ZMod.exists_sq_eq_neg_one_iff]; omega
  · have : (Nat.card (wCurve p' GOSTmsg05975sw.a GOSTmsg05975sw.b).Point : Int) +
      Nat.card (wCurve p' GOSTmsg05975sw.a (-GOSTmsg05975sw.b)).Point = 2 * p' + 2 := by exact_mod_cast this
    rw [g5] at this
    linarith

end Cryptopy
