import Verif.Lemmas.Ecc

/-!
Scalar multiplication on Weierstrass curves for a point of any order: when it raises.
-/

namespace Cryptopy.Model
open Cryptopy.Spec WeierstrassCurve

variable {p : Nat} [hpf : Fact p.Prime]

/-- The exception of doubling a point of order one or two. -/
def doubleErr {G : Type} [Zero G] [DecidableEq G] (Q : G) : PyErr := if Q = 0 then .type else .assertion

open Classical in
theorem double_fails {c : WCurve} (g : Good c p) {P : WPoint} {Q : (wCurve p c.a c.b).Point}
    (s : Stands c p P Q) (h : Q + Q = 0) : P.double = .error (doubleErr Q) := by
  obtain ⟨c1, px, py⟩ := P
  obtain ⟨hc, r, d⟩ := s
  simp only at hc r d
  subst hc
  cases r with
  | infinity => rw [doubleErr, if_pos rfl]; rfl
  | affine x y hn =>
    rw [doubleErr, if_neg (Affine.Point.some_ne_zero hn)]
    have hneg := eq_neg_of_add_eq_zero_left h
    rw [Affine.Point.neg_some, Affine.Point.some.injEq] at hneg
    have hy : (y : ZMod p) = -(y : ZMod p) := by
      have := hneg.2
      simpa [Affine.negY, wCurve] using this
    have hy0 : (y : ZMod p) = 0 := by
      have h3 : 2 * (y : ZMod p) = 0 := by linear_combination hy
      exact (mul_eq_zero.mp h3).resolve_left (two_ne_zero_zmod g.two)
    rw [WPoint.double, WCurve.doublePoint]
    simp only [num, WCurve.inverse]
    rw [g.hp]
    change (do let i ← inverseMod (2 * y) p; _) = _
    rw [inverseMod_zero (p := p) _ (by push_cast; rw [hy0, mul_zero])]
    rfl

open Classical in
theorem scalarLoop_fails {c : WCurve} (g : Good c p) {P N : WPoint} {Q : (wCurve p c.a c.b).Point}
    (s : Stands c p P Q) (sn : Stands c p N (-Q)) (hQ : Q ≠ 0) (e : Nat) :
    ∀ (j : Nat) (R : WPoint), Stands c p R (partialScalar e (j + 1) • Q) → ∀ i, 2 ≤ i → i ≤ j + 1 →
      (partialScalar e i • Q) + (partialScalar e i • Q) = 0 →
      (∀ i', i < i' → i' ≤ j + 1 → (partialScalar e i' • Q) + (partialScalar e i' • Q) ≠ 0) →
      scalarLoop e (3 * e) P N (2 ^ j) R = .error (doubleErr (partialScalar e i • Q)) := by
  intro j
  induction j with
  | zero => intro R hR i h1 h2; omega
  | succ j ih =>
    intro R hR i h1 h2 h3 h4
    have hi : 2 ^ (j + 1) / 2 = 2 ^ j := by rw [pow_succ]; omega
    by_cases hij : i = j + 1 + 1
    · subst hij
      rw [scalarLoop, dif_pos (Nat.one_lt_two_pow (by omega)), scalarStep, double_fails g hR h3]
      rfl
    · obtain ⟨D, hD, yD, sD⟩ := scalarStep_spec g s sn hQ e (j + 1) _ hR (h4 _ (by omega) (by omega))
      rw [← partialScalar_succ, natCast_zsmul] at sD
      rw [scalarLoop, dif_pos (Nat.one_lt_two_pow (by omega)), hD, hi]
      exact ih D sD i h1 (by omega) h3 (fun i' h5 h6 => h4 i' h5 (by omega))

/-- The loop succeeds when none of the partial multiples has order one or two. -/
theorem scalarLoop_ok {c : WCurve} (g : Good c p) {P N : WPoint} {Q : (wCurve p c.a c.b).Point}
    (s : Stands c p P Q) (sn : Stands c p N (-Q)) (hQ : Q ≠ 0) (e : Nat) :
    ∀ (j : Nat) (R : WPoint), Stands c p R (partialScalar e (j + 1) • Q) →
      (∀ i, 2 ≤ i → i ≤ j + 1 → (partialScalar e i • Q) + (partialScalar e i • Q) ≠ 0) →
      ∃ T, scalarLoop e (3 * e) P N (2 ^ j) R = .ok T ∧ Stands c p T (e • Q) ∧
        (InRange p R.y → InRange p T.y) := by
  intro j
  induction j with
  | zero =>
    intro R hR _
    rw [zero_add, partialScalar_one] at hR
    refine ⟨R, ?_, hR, fun h => h⟩
    rw [scalarLoop, dif_neg (by simp)]
  | succ j ih =>
    intro R hR hord
    obtain ⟨D, hD, yD, sD⟩ := scalarStep_spec g s sn hQ e (j + 1) _ hR (hord _ (by omega) (by omega))
    rw [← partialScalar_succ, natCast_zsmul] at sD
    have hi : 2 ^ (j + 1) / 2 = 2 ^ j := by rw [pow_succ]; omega
    obtain ⟨T, hT, sT, yT⟩ := ih D sD (fun i h1 h2 => hord i h1 (by omega))
    refine ⟨T, ?_, sT, fun _ => yT yD⟩
    rw [scalarLoop, dif_pos (Nat.one_lt_two_pow (by omega)), hD, hi]
    exact hT

/-- `P * k` for a finite point is the loop, started at the leading bit. -/
theorem mul_loop {c : WCurve} (g : Good c p) {P : WPoint} {Q : (wCurve p c.a c.b).Point}
    (s : Stands c p P Q) (hQ : Q ≠ 0) (k : Int) (e : Nat) (he : pyMod k c.n = .ok (e : Int)) (he0 : 1 ≤ e) :
    ∃ N t, Stands c p N (-Q) ∧ 2 ^ (t + 1) ≤ 3 * e ∧ 3 * e < 2 ^ (t + 2) ∧ partialScalar e (t + 1) = 1 ∧
      P.mul k = scalarLoop e (3 * e) P N (2 ^ t) P := by
  obtain ⟨N, hN, sN, -, -⟩ := neg_stands g s hQ
  obtain ⟨t, ht1, ht2, ht3⟩ := leftmostBit_spec (3 * e) (by omega)
  have ht : 1 ≤ t := by
    by_contra h
    have : t = 0 := by omega
    subst this
    simp at ht3
    omega
  have hps : partialScalar e t = 1 := by
    have h1 := partialScalar_pos e t ht2
    rw [partialScalar] at *
    have h2 : 3 * e / 2 ^ t < 2 := by
      rw [Nat.div_lt_iff_lt_mul (Nat.two_pow_pos t)]
      rw [pow_succ] at ht3
      omega
    have h3 := Nat.zero_le (e / 2 ^ t)
    generalize 3 * e / 2 ^ t = u at *
    generalize e / 2 ^ t = v at *
    omega
  obtain ⟨t, rfl⟩ : ∃ u, t = u + 1 := ⟨t - 1, by omega⟩
  refine ⟨N, t, sN, ht2, ht3, hps, ?_⟩
  have hdiv : 2 ^ (t + 1) / 2 = 2 ^ t := by rw [pow_succ]; simp
  obtain ⟨c1, px, py⟩ := P
  obtain ⟨hc, r, d⟩ := s
  simp only at hc r d
  subst hc
  cases r with
  | infinity => exact absurd rfl hQ
  | affine x y hn =>
    rw [WPoint.mul, WCurve.scalarMultiple]
    simp only
    rw [he]
    change (if (e : Int) = 0 then _ else _) = _
    rw [if_neg (by omega), if_neg (by rw [eq_identity_affine]; simp), Py.assert, if_pos (by omega)]
    change (do let N ← c1.negate ⟨c1, some x, some y⟩; _) = _
    change c1.negate ⟨c1, some x, some y⟩ = _ at hN
    rw [hN]
    simp only [Int.toNat_natCast]
    change scalarLoop e (3 * e) _ N (leftmostBit (3 * e) / 2) _ = _
    rw [ht1, hdiv]

open Classical in
/-- Scalar multiplication of a finite point by a reduced scalar: the outcome. -/
theorem mul_outcome {c : WCurve} (g : Good c p) {P : WPoint} {Q : (wCurve p c.a c.b).Point}
    (s : Stands c p P Q) (hQ : Q ≠ 0) (k : Int) (e : Nat) (he : pyMod k c.n = .ok (e : Int)) (he0 : 1 ≤ e) :
    ((∀ i, 2 ≤ i → 2 ^ i ≤ 3 * e → (partialScalar e i • Q) + (partialScalar e i • Q) ≠ 0) →
      ∃ R, P.mul k = .ok R ∧ Stands c p R (e • Q) ∧ (InRange p P.y → InRange p R.y)) ∧
    (∀ i, 2 ≤ i → 2 ^ i ≤ 3 * e → (partialScalar e i • Q) + (partialScalar e i • Q) = 0 →
      (∀ i', i < i' → 2 ^ i' ≤ 3 * e → (partialScalar e i' • Q) + (partialScalar e i' • Q) ≠ 0) →
      P.mul k = .error (doubleErr (partialScalar e i • Q))) := by
  obtain ⟨N, t, sN, h1, h2, h3, h4⟩ := mul_loop g s hQ k e he he0
  have hiff : ∀ i, 2 ^ i ≤ 3 * e ↔ i ≤ t + 1 := by
    intro i
    constructor
    · intro h
      by_contra hlt
      have : 2 ^ (t + 2) ≤ 2 ^ i := Nat.pow_le_pow_right (by omega) (by omega)
      omega
    · intro h
      exact le_trans (Nat.pow_le_pow_right (by omega) h) h1
  have hst : Stands c p P (partialScalar e (t + 1) • Q) := by rw [h3, one_nsmul]; exact s
  simp only [hiff]
  refine ⟨fun h => ?_, fun i hi1 hi2 hz hn => ?_⟩
  · obtain ⟨T, a1, a2, a3⟩ := scalarLoop_ok g s sN hQ e t P hst h
    exact ⟨T, h4.trans a1, a2, a3⟩
  · rw [h4]
    exact scalarLoop_fails g s sN hQ e t P hst i hi1 hi2 hz hn

end Cryptopy.Model
