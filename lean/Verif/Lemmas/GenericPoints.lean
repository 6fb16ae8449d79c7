import Verif.Lemmas.Generic
import Verif.Lemmas.Scalar

/-!
The point objects of a curve of odd prime order behave like elements of a group with a mark for negative y-coordinates.
-/

namespace Cryptopy.Model
open Cryptopy.Spec WeierstrassCurve

variable {p : Nat} [hpf : Fact p.Prime]

/-- A point object stands for a group element; the mark says that its y-coordinate is between `-p` and 0. -/
structure Marks (c : WCurve) (p : Nat) (a : (wCurve p c.a c.b).Point × Bool) (P : WPoint) : Prop where
  stands : Stands c p P a.1
  zero : a.1 = 0 → a.2 = false
  plain : a.2 = false → InRange p P.y
  negated : a.2 = true → ∀ y, P.y = some y → -(p : Int) < y ∧ y < 0

omit hpf in
theorem stands_zero {c : WCurve} {P : WPoint} (s : Stands c p P (0 : (wCurve p c.a c.b).Point)) : P = c.identity := by
  obtain ⟨c1, px, py⟩ := P
  obtain ⟨rfl, r, -⟩ := s
  simp only at r
  generalize hz : (0 : (wCurve p c1.a c1.b).Point) = Z at r
  cases r with
  | infinity => rfl
  | affine x y h => cases hz

omit hpf in
theorem stands_some {c : WCurve} {P : WPoint} {U : (wCurve p c.a c.b).Point} (s : Stands c p P U) (hU : U ≠ 0) :
    ∃ x y, P = ⟨c, some x, some y⟩ := by
  obtain ⟨c1, px, py⟩ := P
  obtain ⟨rfl, r, -⟩ := s
  simp only at r
  cases r with
  | infinity => exact absurd rfl hU
  | affine x y h => exact ⟨x, y, rfl⟩

/-- The y-coordinate of a point that is not of order two is not 0. -/
theorem stands_y_ne {c : WCurve} {x y : Int} {U : (wCurve p c.a c.b).Point} (s : Stands c p ⟨c, some x, some y⟩ U)
    (hU : U + U ≠ 0) : (y : ZMod p) ≠ 0 := by
  obtain ⟨-, r, -⟩ := s
  simp only at r
  cases r with
  | affine _ _ h =>
    intro h0
    apply hU
    rw [add_eq_zero_iff_eq_neg, Affine.Point.neg_some, Affine.Point.some.injEq]
    refine ⟨rfl, ?_⟩
    simp [Affine.negY, wCurve, h0]

theorem add_identity_right {c : WCurve} {P : WPoint} (hc : P.curve = c) : P.add c.identity = .ok P := by
  obtain ⟨c1, px, py⟩ := P
  subst hc
  change WCurve.addPoints c1 ⟨c1, px, py⟩ ⟨c1, none, none⟩ = _
  rw [WCurve.addPoints]
  simp only [Py.assert, if_true, eq_identity_infinity]
  rfl

theorem add_identity_left {c : WCurve} (x y : Int) :
    c.identity.add ⟨c, some x, some y⟩ = .ok ⟨c, some x, some y⟩ := by
  change WCurve.addPoints c ⟨c, none, none⟩ ⟨c, some x, some y⟩ = _
  rw [WCurve.addPoints]
  simp only [Py.assert, if_true, eq_identity_infinity, eq_identity_affine, Bool.false_eq_true, if_false]
  rfl

omit hpf in
theorem identity_marks (c : WCurve) : Marks c p ((0 : (wCurve p c.a c.b).Point), false) c.identity :=
  ⟨⟨rfl, .infinity, fun v hv => by simp [WCurve.identity] at hv⟩, fun _ => rfl, fun _ v hv => by simp [WCurve.identity] at hv,
    fun h => by cases h⟩

/-- The multiple of a finite point by a scalar that is 1 modulo the order is the point object itself; by other scalars it has
reduced coordinates. -/
theorem mul_marks {c : WCurve} (g : Good c p) {P : WPoint} {Q : (wCurve p c.a c.b).Point} (s : Stands c p P Q)
    (n : Nat) (hn : c.n = n) (hodd : n % 2 = 1) (ho : addOrderOf Q = n) (hQ : Q ≠ 0) (k : Int) (hk : ¬ (n : Int) ∣ k) :
    if (n : Int) ∣ k - 1 then P.mul k = .ok P else ∃ R, P.mul k = .ok R ∧ Stands c p R (k • Q) ∧ InRange p R.y := by
  have hn0 : 0 < n := by omega
  have hmod : pyMod k c.n = .ok (((k % n).toNat : Nat) : Int) := by
    rw [hn, pyMod, if_neg (by omega), Int.fmod_eq_emod_of_nonneg _ (by omega),
      Int.toNat_of_nonneg (Int.emod_nonneg _ (by omega))]
  have hlt := Int.emod_lt_of_pos k (show (0 : Int) < n by omega)
  have hnn := Int.emod_nonneg k (show (n : Int) ≠ 0 by omega)
  have hpos : k % n ≠ 0 := fun h => hk (Int.dvd_of_emod_eq_zero h)
  have hkQ : k • Q = ((k % n).toNat : Nat) • Q := by
    rw [← natCast_zsmul, Int.toNat_of_nonneg hnn, ← ho, mod_addOrderOf_zsmul]
  have hd : ∀ m : Nat, 1 ≤ m → m < n → m • Q + m • Q ≠ 0 := by
    intro m h1 h2 h
    rw [← add_smul, ← two_mul, ← addOrderOf_dvd_iff_nsmul_eq_zero, ho] at h
    have : n ∣ m := (Nat.Coprime.dvd_of_dvd_mul_left (by
      rw [Nat.coprime_two_right]; exact Nat.odd_iff.mpr hodd) h)
    exact absurd (Nat.le_of_dvd (by omega) this) (by omega)
  generalize he : (k % n).toNat = e at hmod hkQ
  obtain ⟨N, t, sN, h1, h2, h3, h4⟩ := mul_loop g s hQ k e hmod (by omega)
  have hone : (n : Int) ∣ k - 1 ↔ e = 1 := by
    constructor
    · intro h
      have h5 : k % n = 1 % n := (Int.emod_emod_of_dvd k dvd_rfl).symm.trans (by
        rw [Int.emod_emod_of_dvd k dvd_rfl]; exact Int.emod_eq_emod_iff_emod_sub_eq_zero.mpr (Int.emod_eq_zero_of_dvd h))
      have h6 : (1 : Int) % n = 1 ∨ n = 1 := by
        by_cases hn1 : n = 1
        · exact .inr hn1
        · exact .inl (Int.emod_eq_of_lt (by omega) (by omega))
      rcases h6 with h6 | h6
      · rw [h6] at h5
        rw [h5] at he
        exact he.symm
      · exact absurd (by rw [h6]; exact one_dvd k) hk
    · intro h
      have : k % n = 1 := by omega
      apply Int.dvd_of_emod_eq_zero
      rw [Int.sub_emod, this]
      simp
  simp only [hone]
  by_cases he1 : e = 1
  · rw [if_pos he1]
    have ht : t = 0 := by
      by_contra h
      have : 2 ^ 2 ≤ 2 ^ (t + 1) := Nat.pow_le_pow_right (by omega) (by omega)
      omega
    rw [h4, ht, scalarLoop, dif_neg (by simp)]
  · rw [if_neg he1]
    obtain ⟨t, rfl⟩ : ∃ u, t = u + 1 := ⟨t - 1, by
      have : t ≠ 0 := by rintro rfl; omega
      omega⟩
    have hps : ∀ i, 1 ≤ i → i ≤ t + 1 + 1 → 1 ≤ partialScalar e i ∧ partialScalar e i < n := by
      intro i hi1 hi2
      have hle : 2 ^ i ≤ 3 * e := le_trans (Nat.pow_le_pow_right (by omega) hi2) h1
      have ha := partialScalar_pos e i hle
      refine ⟨by omega, ?_⟩
      have hb : partialScalar e i ≤ e := by
        rw [partialScalar]
        have h2i : 2 ≤ 2 ^ i := by
          calc 2 = 2 ^ 1 := rfl
            _ ≤ 2 ^ i := Nat.pow_le_pow_right (by omega) hi1
        have h5 : 3 * e / 2 ^ i ≤ e + e / 2 ^ i := by
          rw [show 3 * e = 2 * e + e by ring]
          have h6 : (2 * e + e) / 2 ^ i < e + e / 2 ^ i + 1 := by
            rw [Nat.div_lt_iff_lt_mul (by omega)]
            have h7 := Nat.div_add_mod e (2 ^ i)
            have h8 := Nat.mod_lt e (show 0 < 2 ^ i by omega)
            nlinarith [Nat.mul_le_mul_left e h2i]
          omega
        omega
      omega
    have hst : Stands c p P (partialScalar e (t + 1 + 1) • Q) := by rw [h3, one_nsmul]; exact s
    obtain ⟨D, hD, yD, sD⟩ := scalarStep_spec g s sN hQ e (t + 1) _ hst
      (hd _ (hps _ (by omega) (by omega)).1 (hps _ (by omega) (by omega)).2)
    rw [← partialScalar_succ, natCast_zsmul] at sD
    have hi : 2 ^ (t + 1) / 2 = 2 ^ t := by rw [pow_succ]; omega
    obtain ⟨T, hT, sT, yT⟩ := scalarLoop_ok g s sN hQ e t D sD
      (fun i a b => hd _ (hps i (by omega) (by omega)).1 (hps i (by omega) (by omega)).2)
    refine ⟨T, ?_, hkQ ▸ sT, yT yD⟩
    rw [h4, scalarLoop, dif_pos (Nat.one_lt_two_pow (by omega)), hD, hi]
    exact hT

/-- The operators of the point objects and those of the group with marks. -/
theorem points_alike {c : WCurve} (g : Good c p) (n : Nat) (hn : c.n = n) (hnp : n.Prime) (hn2 : n ≠ 2)
    (hall : ∀ U : (wCurve p c.a c.b).Point, n • U = 0) :
    Alike (marked (wCurve p c.a c.b).Point n) pointOps (fun _ => True) (Marks c p) := by
  have hodd : n % 2 = 1 := hnp.eq_two_or_odd.resolve_left hn2
  have : Fact n.Prime := ⟨hnp⟩
  have hord : ∀ U : (wCurve p c.a c.b).Point, U ≠ 0 → addOrderOf U = n := fun U hU => addOrderOf_eq_prime (hall U) hU
  have hdbl : ∀ U : (wCurve p c.a c.b).Point, U ≠ 0 → U + U ≠ 0 := by
    intro U hU h
    have h2 : addOrderOf U ∣ 2 := addOrderOf_dvd_iff_nsmul_eq_zero.mpr (by rw [two_smul]; exact h)
    rw [hord U hU] at h2
    have := Nat.le_of_dvd (by omega) h2
    have := hnp.two_le
    omega
  have hneg : ∀ (a : (wCurve p c.a c.b).Point × Bool) (P : WPoint), Marks c p a P → a.1 ≠ 0 →
      ∃ R, P.neg = .ok R ∧ Marks c p (-a.1, !a.2) R := by
    intro a P h h0
    obtain ⟨x, y, rfl⟩ := stands_some h.stands h0
    obtain ⟨R, h1, h2, h3, h4⟩ := neg_stands g h.stands h0
    have hy := stands_y_ne h.stands (hdbl _ h0)
    have hy0 : y ≠ 0 := fun h => hy (by rw [h]; simp)
    refine ⟨R, h1, h2, fun hz => absurd (neg_eq_zero.mp hz) h0, fun hm v hv => ?_, fun hm v hv => ?_⟩
    · have hm' : a.2 = true := by simpa using hm
      have := h.negated hm' y rfl
      rw [h4] at hv
      have hv' : -y = v := by simpa using hv
      omega
    · have hm' : a.2 = false := by simpa using hm
      have := h.plain hm' y rfl
      rw [h4] at hv
      have hv' : -y = v := by simpa using hv
      omega
  have hadd : ∀ (a b : (wCurve p c.a c.b).Point × Bool) (P Q : WPoint), Marks c p a P → Marks c p b Q →
      ∃ R, P.add Q = .ok R ∧ ∃ r, (marked (wCurve p c.a c.b).Point n).add a b = some r ∧ Marks c p r R := by
    intro a b P Q ha hb
    by_cases h2 : b.1 = 0
    · refine ⟨P, ?_, a, by simp [marked, h2], ha⟩
      have := hb.stands
      rw [h2] at this
      rw [stands_zero this]
      exact add_identity_right ha.stands.curve
    · by_cases h1 : a.1 = 0
      · refine ⟨Q, ?_, b, by simp [marked, h1, h2], hb⟩
        have := ha.stands
        rw [h1] at this
        rw [stands_zero this]
        obtain ⟨x, y, rfl⟩ := stands_some hb.stands h2
        exact add_identity_left x y
      · obtain ⟨R, r1, r2, -, r3⟩ := add_stands g ha.stands hb.stands
        exact ⟨R, r1, (a.1 + b.1, false), by simp [marked, h1, h2], r2, fun _ => rfl, fun _ => r3 h1 h2, fun h => by cases h⟩
  refine ⟨?_, ?_, ?_, ?_, ?_, ?_⟩
  · intro a b P Q _ _ ha hb
    obtain ⟨R, h1, r, h2, h3⟩ := hadd a b P Q ha hb
    have e' : pointOps.add P Q = some R := by simp only [pointOps, h1]; rfl
    rw [h2, e']
    exact h3
  · intro a b P Q _ _ ha hb
    by_cases h2 : b.1 = 0
    · have := hb.stands
      rw [h2] at this
      rw [stands_zero this]
      simp only [marked, h2, if_true]
      trivial
    · obtain ⟨N, n1, n2⟩ := hneg b Q hb h2
      obtain ⟨R, h1, r, h3, h4⟩ := hadd a (-b.1, !b.2) P N ha n2
      have e : (marked (wCurve p c.a c.b).Point n).sub a b = some r := by
        rw [← h3]
        simp [marked, h2, sub_eq_add_neg]
      have e' : pointOps.sub P Q = some R := by
        simp only [pointOps, WPoint.sub, n1]
        change (P.add N).toOption = _
        rw [h1]
        rfl
      rw [e, e']
      exact h4
  · intro a P _ ha
    by_cases h0 : a.1 = 0
    · have := ha.stands
      rw [h0] at this
      rw [stands_zero this]
      simp only [marked, h0, if_true]
      trivial
    · obtain ⟨N, n1, n2⟩ := hneg a P ha h0
      simp only [marked, h0, if_false, pointOps, n1]
      exact n2
  · intro a P _ ha
    by_cases h0 : a.1 = 0
    · have := ha.stands
      rw [h0] at this
      rw [stands_zero this]
      simp only [marked, h0, if_true]
      trivial
    · obtain ⟨D, d1, d2, d3⟩ := double_stands g ha.stands (hdbl _ h0)
      simp only [marked, h0, if_false, pointOps, d1]
      exact ⟨d2, fun _ => rfl, fun _ => d3, fun h => by cases h⟩
  · intro k a P _ ha
    by_cases hk : (n : Int) ∣ k
    · have e : P.mul k = .ok c.identity := by
        rw [WPoint.mul, WCurve.scalarMultiple, ha.stands.curve, hn, pyMod, if_neg (by have := hnp.pos; omega),
          Int.fmod_eq_emod_of_nonneg _ (by omega), Int.emod_eq_zero_of_dvd hk]
        rfl
      simp only [marked, hk, true_or, if_true, pointOps, e]
      exact identity_marks c
    · by_cases h0 : a.1 = 0
      · have hs := ha.stands
        rw [h0] at hs
        have e : P.mul k = .ok c.identity := by
          rw [stands_zero hs, WPoint.mul, WCurve.scalarMultiple]
          have : c.identity.curve = c := rfl
          rw [this, hn, pyMod, if_neg (by have := hnp.pos; omega), Int.fmod_eq_emod_of_nonneg _ (by omega)]
          change (if k % (n : Int) = 0 then _ else _) = _
          rw [if_neg fun h => hk (Int.dvd_of_emod_eq_zero h), if_pos (show c.identity.eq c.identity = true from eq_identity_infinity c)]
        simp only [marked, h0, or_true, if_true, pointOps, e]
        exact identity_marks c
      · have := mul_marks g ha.stands n hn hodd (hord _ h0) h0 k hk
        by_cases h1 : (n : Int) ∣ k - 1
        · rw [if_pos h1] at this
          simp only [marked, h0, hk, h1, or_self, if_true, if_false, pointOps, this]
          exact ha
        · rw [if_neg h1] at this
          obtain ⟨R, r1, r2, r3⟩ := this
          simp only [marked, h0, hk, h1, or_self, if_false, pointOps, r1]
          exact ⟨r2, fun _ => rfl, fun _ => r3, fun h => by cases h⟩
  · intro a b P Q _ _ ha hb
    rw [Bool.eq_iff_iff]
    simp only [marked, decide_eq_true_eq, pointOps]
    have hrep : ∀ {x y : Option Int} {U V : (wCurve p c.a c.b).Point}, Represents x y U → Represents x y V → U = V := by
      intro x y U V h h'
      cases h <;> cases h' <;> rfl
    have hpp : (0 : Int) < p := by exact_mod_cast hpf.out.pos
    constructor
    · rintro rfl
      by_cases h0 : a.1 = 0
      · have h1 := ha.stands
        have h2 := hb.stands
        rw [h0] at h1 h2
        rw [stands_zero h1, stands_zero h2]
        exact eq_identity_infinity c
      · obtain ⟨x, y, rfl⟩ := stands_some ha.stands h0
        obtain ⟨x', y', rfl⟩ := stands_some hb.stands h0
        have r1 := ha.stands.rep
        have r2 := hb.stands.rep
        simp only at r1 r2
        have hx := ha.stands.red x rfl
        have hx' := hb.stands.red x' rfl
        generalize a.1 = U at r1 r2
        cases r1 with
        | affine _ _ h =>
          generalize hz : Affine.Point.some (x : ZMod p) (y : ZMod p) h = Z at r2
          cases r2 with
          | affine _ _ h' =>
            rw [Affine.Point.some.injEq] at hz
            have e1 := eq_of_cast_eq hx.1 hx.2 hx'.1 hx'.2 hz.1
            have e2 : y = y' := by
              cases hm : a.2 with
              | false =>
                have u := ha.plain hm y rfl
                have u' := hb.plain hm y' rfl
                exact eq_of_cast_eq u.1 u.2 u'.1 u'.2 hz.2
              | true =>
                have u := ha.negated hm y rfl
                have u' := hb.negated hm y' rfl
                have : y + p = y' + p := eq_of_cast_eq (p := p) (by omega) (by omega) (by omega) (by omega) (by
                  push_cast; rw [hz.2])
                omega
            rw [e1, e2]
            simp [WPoint.eq]
    · intro h
      have h' : P.curve.oid = Q.curve.oid ∧ P.x = Q.x ∧ P.y = Q.y := by simpa [WPoint.eq, and_assoc] using h
      have r1 := ha.stands.rep
      have r2 := hb.stands.rep
      rw [h'.2.1, h'.2.2] at r1
      have e := hrep r1 r2
      refine Prod.ext e ?_
      by_cases h0 : b.1 = 0
      · rw [ha.zero (e.trans h0), hb.zero h0]
      · obtain ⟨x', y', rfl⟩ := stands_some hb.stands h0
        have hy : P.y = some y' := h'.2.2
        cases hm : a.2 <;> cases hm' : b.2
        · rfl
        · have := ha.plain hm y' hy
          have := hb.negated hm' y' rfl
          omega
        · have := ha.negated hm y' hy
          have := hb.plain hm' y' rfl
          omega
        · rfl

end Cryptopy.Model
