import Verif.Lemmas.Ecc
import Verif.Lemmas.Encoding

/-!
Properties C74-C81 and C83-C86: `ecc/ecc.py` and `ecc/ellipticcurve.py`.
-/

namespace Cryptopy
open Model Spec WeierstrassCurve

variable {p : Nat} [hpf : Fact p.Prime]

theorem stands_of_onCurve {c : WCurve} (g : Good c p) (P : WPoint) (hc : P.curve = c)
    (hon : c.onCurve P = .ok true) (hx : InRange p P.x) :
    ∃ Q : (wCurve p c.a c.b).Point, Stands c p P Q := by
  obtain ⟨c1, px, py⟩ := P
  simp only at hc hx
  subst hc
  cases px with
  | none =>
    cases py with
    | none => exact ⟨0, rfl, .infinity, hx⟩
    | some y =>
      exfalso
      rw [WCurve.onCurve, if_neg (by simp [WPoint.eq, WCurve.identity])] at hon
      simp only [num] at hon
      obtain ⟨r, h1, -⟩ := pyMod_ok hpf.out.pos (y ^ 2)
      rw [g.hp] at hon
      change (do let l ← pyMod (y ^ 2) p; _) = _ at hon
      rw [h1] at hon
      cases hon
  | some x =>
    cases py with
    | none =>
      exfalso
      rw [WCurve.onCurve, if_neg (by simp [WPoint.eq, WCurve.identity])] at hon
      cases hon
    | some y =>
      rw [onCurve_affine c1 g.hp] at hon
      injection hon with hon
      rw [decide_eq_true_eq] at hon
      exact ⟨_, rfl, .affine x y (nonsing g hon), hx⟩

theorem onCurve_of_stands {c : WCurve} (g : Good c p) {P : WPoint} {Q : (wCurve p c.a c.b).Point}
    (s : Stands c p P Q) : c.onCurve P = .ok true := by
  obtain ⟨c1, px, py⟩ := P
  obtain ⟨hc, r, d⟩ := s
  simp only at hc r d
  subst hc
  cases r with
  | infinity => rw [WCurve.onCurve, if_pos (eq_identity_infinity _)]
  | affine x y h =>
    rw [onCurve_affine c1 g.hp, decide_eq_true ((wCurve_equation _ _).mp h.1)]

/-- Two point objects with reduced coordinates that stand for the same group element are the same. -/
theorem stands_unique {c : WCurve} {P P' : WPoint} {Q : (wCurve p c.a c.b).Point}
    (s : Stands c p P Q) (s' : Stands c p P' Q) (hy : InRange p P.y) (hy' : InRange p P'.y) : P = P' := by
  obtain ⟨c1, px, py⟩ := P
  obtain ⟨c2, px', py'⟩ := P'
  obtain ⟨hc, r, d⟩ := s
  obtain ⟨hc', r', d'⟩ := s'
  simp only at hc r d hc' r' d' hy hy'
  subst hc hc'
  cases r with
  | infinity =>
    generalize hz : (0 : (wCurve p c2.a c2.b).Point) = Z at r'
    cases r' with
    | infinity => rfl
    | affine x y h => exact absurd hz.symm (Affine.Point.some_ne_zero h)
  | affine x y h =>
    generalize hz : Affine.Point.some (x : ZMod p) (y : ZMod p) h = Z at r'
    cases r' with
    | infinity => exact absurd hz (Affine.Point.some_ne_zero h)
    | affine x' y' h' =>
      rw [Affine.Point.some.injEq] at hz
      have e1 := eq_of_cast_eq (d x rfl).1 (d x rfl).2 (d' x' rfl).1 (d' x' rfl).2 hz.1
      have e2 := eq_of_cast_eq (hy y rfl).1 (hy y rfl).2 (hy' y' rfl).1 (hy' y' rfl).2 hz.2
      rw [e1, e2]

/-! ### A concrete curve

`y² = x³ + 2x + 2` over GF(17) has 19 points; `(5, 1)` generates them. -/

private def toy : WCurve := ⟨1, 17, 2, 2, 19⟩
private def toyG : WPoint := ⟨toy, some 5, some 1⟩

private instance : Fact (Nat.Prime 17) := ⟨by norm_num⟩

private theorem toy_good : Good toy 17 := ⟨rfl, by decide, by decide⟩

private theorem toy_stands : ∃ Q : (wCurve 17 toy.a toy.b).Point, Stands toy 17 toyG Q ∧ 19 • Q = 0 ∧ Q ≠ 0 := by
  obtain ⟨Q, hG, hne⟩ : ∃ Q : (wCurve 17 toy.a toy.b).Point, Stands toy 17 toyG Q ∧ Q ≠ 0 :=
    ⟨.some (((5 : Int) : ZMod 17)) ((1 : Int) : ZMod 17) (nonsing toy_good (by decide)),
      ⟨rfl, .affine 5 1 _, reduced_some (by decide) (by decide)⟩, Affine.Point.some_ne_zero _⟩
  refine ⟨Q, hG, ?_, hne⟩
  have step : ∀ {P1 P2 R : WPoint} {Q1 Q2 : (wCurve 17 toy.a toy.b).Point}, Stands toy 17 P1 Q1 →
      Stands toy 17 P2 Q2 → P1.add P2 = .ok R → Stands toy 17 R (Q1 + Q2) := by
    intro P1 P2 R Q1 Q2 s1 s2 h
    obtain ⟨R', h', s, -⟩ := add_stands toy_good s1 s2
    rw [h] at h'; injection h' with h'; exact h' ▸ s
  have h2 := step (R := ⟨toy, some 6, some 3⟩) hG hG (by decide +kernel)
  have h4 := step (R := ⟨toy, some 3, some 1⟩) h2 h2 (by decide +kernel)
  have h8 := step (R := ⟨toy, some 13, some 7⟩) h4 h4 (by decide +kernel)
  have h16 := step (R := ⟨toy, some 10, some 11⟩) h8 h8 (by decide +kernel)
  have h18 := step (R := ⟨toy, some 5, some 16⟩) h16 h2 (by decide +kernel)
  have h19 := step (R := ⟨toy, none, none⟩) h18 hG (by decide +kernel)
  have e : ∀ T : (wCurve 17 toy.a toy.b).Point, Represents (none : Option Int) none T → T = 0 := by
    intro T hT; cases hT; rfl
  have := e _ h19.rep
  have e2 : 19 • Q = Q + Q + (Q + Q) + (Q + Q + (Q + Q)) + (Q + Q + (Q + Q) + (Q + Q + (Q + Q))) + (Q + Q) + Q := by
    abel
  rw [e2]; exact this

/-! ### C74: addition -/

/-- C74: adding two points of the curve with reduced x coordinates never raises and gives the sum of
the group law, a point of the same curve object with reduced x coordinate; y coordinates in range are
kept in range. -/
theorem C74_add (c : WCurve) (hp : c.p = p) (h2 : p ≠ 2)
    (hd : (4 * c.a ^ 3 + 27 * c.b ^ 2 : ZMod p) ≠ 0) (P1 P2 : WPoint) (hc1 : P1.curve = c)
    (hc2 : P2.curve = c) (hx1 : InRange p P1.x) (hx2 : InRange p P2.x)
    (Q1 Q2 : (wCurve p c.a c.b).Point) (hr1 : Represents P1.x P1.y Q1) (hr2 : Represents P2.x P2.y Q2) :
    ∃ R, P1.add P2 = .ok R ∧ R.curve = c ∧ Represents R.x R.y (Q1 + Q2) ∧ InRange p R.x ∧
      (InRange p P1.y → InRange p P2.y → InRange p R.y) := by
  obtain ⟨R, h1, s, h3, -⟩ := add_stands ⟨hp, h2, hd⟩ ⟨hc1, hr1, hx1⟩ ⟨hc2, hr2, hx2⟩
  exact ⟨R, h1, s.curve, s.rep, s.red, h3⟩

example : ∃ Q1 Q2 : (wCurve 17 toy.a toy.b).Point, Represents (some 5) (some 1) Q1 ∧
    Represents (some 6) (some 3) Q2 ∧ Q1 ≠ 0 ∧ Q2 ≠ 0 ∧
    (⟨toy, some 5, some 1⟩ : WPoint).add ⟨toy, some 6, some 3⟩ = .ok ⟨toy, some 10, some 6⟩ :=
  ⟨_, _, .affine 5 1 (nonsing toy_good (by decide)), .affine 6 3 (nonsing toy_good (by decide)),
    Affine.Point.some_ne_zero _, Affine.Point.some_ne_zero _, by decide +kernel⟩

/-- C74: every point that `on_curve` accepts stands for an element of the group. -/
theorem C74_points_of_group (c : WCurve) (hp : c.p = p) (h2 : p ≠ 2)
    (hd : (4 * c.a ^ 3 + 27 * c.b ^ 2 : ZMod p) ≠ 0) (P : WPoint) (hc : P.curve = c)
    (hx : InRange p P.x) (hon : c.onCurve P = .ok true) :
    ∃ Q : (wCurve p c.a c.b).Point, Represents P.x P.y Q := by
  obtain ⟨Q, s⟩ := stands_of_onCurve ⟨hp, h2, hd⟩ P hc hon hx
  exact ⟨Q, s.rep⟩

example : toy.onCurve ⟨toy, some 10, some 11⟩ = .ok true := by decide +kernel

/-- C74: on points with coordinates in range addition is associative and commutative, exactly, with
the point at infinity as identity. -/
theorem C74_group (c : WCurve) (hp : c.p = p) (h2 : p ≠ 2)
    (hd : (4 * c.a ^ 3 + 27 * c.b ^ 2 : ZMod p) ≠ 0) (P1 P2 P3 : WPoint)
    (hP : ∀ P ∈ [P1, P2, P3], P.curve = c ∧ c.onCurve P = .ok true ∧ InRange p P.x ∧ InRange p P.y) :
    (∃ R, (do let S ← P1.add P2; S.add P3) = .ok R ∧ (do let S ← P2.add P3; P1.add S) = .ok R) ∧
    (∃ R, P1.add P2 = .ok R ∧ P2.add P1 = .ok R) ∧
    P1.add c.identity = .ok P1 ∧ c.identity.add P1 = .ok P1 := by
  have g : Good c p := ⟨hp, h2, hd⟩
  simp only [List.mem_cons, List.not_mem_nil, or_false, forall_eq_or_imp, forall_eq] at hP
  obtain ⟨⟨a1, a2, a3, a4⟩, ⟨b1, b2, b3, b4⟩, ⟨c1, c2, c3, c4⟩⟩ := hP
  obtain ⟨Q1, s1⟩ := stands_of_onCurve g P1 a1 a2 a3
  obtain ⟨Q2, s2⟩ := stands_of_onCurve g P2 b1 b2 b3
  obtain ⟨Q3, s3⟩ := stands_of_onCurve g P3 c1 c2 c3
  obtain ⟨R12, r12, s12, y12, -⟩ := add_stands g s1 s2
  obtain ⟨R21, r21, s21, y21, -⟩ := add_stands g s2 s1
  obtain ⟨R23, r23, s23, y23, -⟩ := add_stands g s2 s3
  obtain ⟨L, rL, sL, yL, -⟩ := add_stands g s12 s3
  obtain ⟨R, rR, sR, yR, -⟩ := add_stands g s1 s23
  have sI : Stands c p c.identity (0 : (wCurve p c.a c.b).Point) :=
    ⟨rfl, .infinity, fun v hv => by simp [WCurve.identity] at hv⟩
  have yI : InRange p c.identity.y := fun v hv => by simp [WCurve.identity] at hv
  obtain ⟨I1, ri1, si1, yi1, -⟩ := add_stands g s1 sI
  obtain ⟨I2, ri2, si2, yi2, -⟩ := add_stands g sI s1
  rw [add_zero] at si1
  rw [zero_add] at si2
  rw [add_comm] at s21
  rw [add_assoc] at sL
  refine ⟨⟨L, ?_, ?_⟩, ⟨R12, r12, ?_⟩, ?_, ?_⟩
  · rw [r12]; exact rL
  · rw [r23, stands_unique sL sR (yL (y12 a4 b4) c4) (yR a4 (y23 b4 c4))]; exact rR
  · rw [r21, stands_unique s12 s21 (y12 a4 b4) (y21 b4 a4)]
  · rw [ri1, stands_unique si1 s1 (yi1 a4 yI) a4]
  · rw [ri2, stands_unique si2 s1 (yi2 yI a4) a4]

example : ∃ R, (do let S ← toyG.add ⟨toy, some 6, some 3⟩; S.add ⟨toy, some 13, some 7⟩) = .ok R ∧
    (do let S ← (⟨toy, some 6, some 3⟩ : WPoint).add ⟨toy, some 13, some 7⟩; toyG.add S) = .ok R := by
  refine (C74_group (p := 17) toy rfl (by decide) (by decide) toyG ⟨toy, some 6, some 3⟩ ⟨toy, some 13, some 7⟩ ?_).1
  simp only [List.mem_cons, List.not_mem_nil, or_false, forall_eq_or_imp, forall_eq]
  exact ⟨⟨rfl, by decide +kernel, reduced_some (by decide) (by decide), reduced_some (by decide) (by decide)⟩,
    ⟨trivial, by decide +kernel, reduced_some (by decide) (by decide), reduced_some (by decide) (by decide)⟩,
    ⟨trivial, by decide +kernel, reduced_some (by decide) (by decide), reduced_some (by decide) (by decide)⟩⟩

/-! ### C75: doubling and negation -/

/-- C75: doubling a finite point whose y is not 0 modulo `p` gives the group double, with both
coordinates reduced. -/
theorem C75_double (c : WCurve) (hp : c.p = p) (h2 : p ≠ 2)
    (hd : (4 * c.a ^ 3 + 27 * c.b ^ 2 : ZMod p) ≠ 0) (x y : Int) (hy : ¬ (p : Int) ∣ y)
    (Q : (wCurve p c.a c.b).Point) (hr : Represents (some x) (some y) Q) :
    ∃ R, (⟨c, some x, some y⟩ : WPoint).double = .ok R ∧ R.curve = c ∧
      Represents R.x R.y (Q + Q) ∧ InRange p R.x ∧ InRange p R.y := by
  cases hr with
  | affine _ _ hn =>
    rw [← ZMod.intCast_zmod_eq_zero_iff_dvd] at hy
    obtain ⟨x3, y3, k1, k2, k3, k4, k5, k6⟩ := double_affine ⟨hp, h2, hd⟩ c x y hn hy
    exact ⟨_, k1, rfl, k6, reduced_some k2 k3, reduced_some k4 k5⟩

example : toyG.double = .ok ⟨toy, some 6, some 3⟩ := by decide +kernel

/-- C75: negating a finite point gives the group inverse, on the same curve object; the x coordinate is
kept and the y coordinate becomes its integer negative. -/
theorem C75_negate (c : WCurve) (hp : c.p = p) (h2 : p ≠ 2)
    (hd : (4 * c.a ^ 3 + 27 * c.b ^ 2 : ZMod p) ≠ 0) (x y : Int)
    (Q : (wCurve p c.a c.b).Point) (hr : Represents (some x) (some y) Q) :
    (⟨c, some x, some y⟩ : WPoint).neg = .ok ⟨c, some x, some (-y)⟩ ∧
      Represents (some x) (some (-y)) (-Q) := by
  cases hr with
  | affine _ _ hn =>
    have e2 : (((-y : Int)) : ZMod p) ^ 2 = (x : ZMod p) ^ 3 + c.a * x + c.b := by
      push_cast; rw [neg_sq]; exact (wCurve_equation _ _).mp hn.1
    have hns := nonsing ⟨hp, h2, hd⟩ e2
    constructor
    · rw [WPoint.neg, WCurve.negate]
      change c.point (some x) (some (-y)) = _
      rw [point_affine c hp, if_pos e2]
    · have : -(Affine.Point.some (x : ZMod p) (y : ZMod p) hn) = Affine.Point.some (x : ZMod p) ((-y : Int) : ZMod p) hns := by
        rw [Affine.Point.neg_some, Affine.Point.some.injEq, Affine.negY]
        refine ⟨rfl, ?_⟩
        simp [wCurve]
      rw [this]
      exact .affine x (-y) hns

example : toyG.neg = .ok ⟨toy, some 5, some (-1)⟩ := by decide +kernel

/-- C75: subtracting a finite point from a point of the same curve object, both with reduced x coordinates, gives the
difference of the group. -/
theorem C75_subtract (c : WCurve) (hp : c.p = p) (h2 : p ≠ 2)
    (hd : (4 * c.a ^ 3 + 27 * c.b ^ 2 : ZMod p) ≠ 0) (P : WPoint) (hc : P.curve = c) (hx : InRange p P.x) (x y : Int)
    (hx2 : InRange p (some x)) (Q1 Q2 : (wCurve p c.a c.b).Point) (hr1 : Represents P.x P.y Q1)
    (hr2 : Represents (some x) (some y) Q2) :
    ∃ R, P.sub ⟨c, some x, some y⟩ = .ok R ∧ R.curve = c ∧ Represents R.x R.y (Q1 - Q2) ∧ InRange p R.x := by
  obtain ⟨e, r⟩ := C75_negate c hp h2 hd x y Q2 hr2
  obtain ⟨R, h1, s, -⟩ := add_stands ⟨hp, h2, hd⟩ (Q1 := Q1) (Q2 := -Q2) ⟨hc, hr1, hx⟩
    (P2 := ⟨c, some x, some (-y)⟩) ⟨rfl, r, hx2⟩
  refine ⟨R, ?_, s.curve, ?_, s.red⟩
  · rw [WPoint.sub, e]
    exact h1
  · rw [sub_eq_add_neg]
    exact s.rep

example : (⟨toy, some 10, some 6⟩ : WPoint).sub ⟨toy, some 6, some 3⟩ = .ok ⟨toy, some 5, some 1⟩ := by decide +kernel

/-! ### C76, C77: scalar multiplication -/

private theorem double_ne_zero {G : Type*} [AddCommGroup G] (Q : G) (n : Nat) (hn : n % 2 = 1)
    (ho : addOrderOf Q = n) (m : Nat) (h1 : 1 ≤ m) (h2 : m < n) : m • Q + m • Q ≠ 0 := by
  intro h
  rw [← add_smul, ← two_mul, ← addOrderOf_dvd_iff_nsmul_eq_zero, ho] at h
  have : n ∣ m := (Nat.Coprime.dvd_of_dvd_mul_left (by
    rw [Nat.coprime_two_right]; exact Nat.odd_iff.mpr hn) h)
  exact absurd (Nat.le_of_dvd (by omega) this) (by omega)

theorem mul_stands {c : WCurve} (g : Good c p) {P : WPoint} {Q : (wCurve p c.a c.b).Point}
    (s : Stands c p P Q) (n : Nat) (hn : c.n = n) (hodd : n % 2 = 1) (ho : addOrderOf Q = n ∨ Q = 0)
    (k : Int) : ∃ R, P.mul k = .ok R ∧ Stands c p R (k • Q) ∧ (InRange p P.y → InRange p R.y) := by
  have hn0 : 0 < n := by omega
  have hmod : pyMod k c.n = .ok (((k % n).toNat : Nat) : Int) := by
    rw [hn, pyMod, if_neg (by omega), fmod_pos_eq _ (by omega), Int.toNat_of_nonneg (Int.emod_nonneg _ (by omega))]
  have hlt := Int.emod_lt_of_pos k (show (0 : Int) < n by omega)
  have hnn := Int.emod_nonneg k (show (n : Int) ≠ 0 by omega)
  have hInf : ∀ T : (wCurve p c.a c.b).Point, T = 0 → Stands c p c.identity T := by
    rintro T rfl
    exact ⟨rfl, .infinity, fun v hv => by simp [WCurve.identity] at hv⟩
  have hIy : InRange p c.identity.y := fun v hv => by simp [WCurve.identity] at hv
  by_cases hQ : Q = 0
  · refine ⟨c.identity, ?_, hInf _ (by rw [hQ, zsmul_zero]), fun _ => hIy⟩
    rw [WPoint.mul, WCurve.scalarMultiple, s.curve, hmod]
    change (if (((k % n).toNat : Nat) : Int) = 0 then _ else _) = _
    split
    · rfl
    · rw [if_pos]
      obtain ⟨c1, px, py⟩ := P
      obtain ⟨hc, r, d⟩ := s
      simp only at hc r d
      subst hc
      cases r with
      | infinity => exact eq_identity_infinity _
      | affine x y h => exact absurd hQ (Affine.Point.some_ne_zero h)
  have ho' : addOrderOf Q = n := ho.resolve_right hQ
  have hk : k • Q = ((k % n).toNat : Nat) • Q := by
    rw [← natCast_zsmul, Int.toNat_of_nonneg hnn, ← ho', mod_addOrderOf_zsmul]
  by_cases he : (k % n).toNat = 0
  · refine ⟨c.identity, ?_, hInf _ (by rw [hk, he, zero_nsmul]), fun _ => hIy⟩
    rw [WPoint.mul, WCurve.scalarMultiple, s.curve, hmod]
    change (if (((k % n).toNat : Nat) : Int) = 0 then _ else _) = _
    rw [if_pos (by omega)]
  · obtain ⟨R, h1, h2, h3⟩ := scalar_core g s k (k % n).toNat hmod (by omega)
      (fun m hm1 hm2 => double_ne_zero Q n hodd ho' m hm1 (by omega))
    rw [← hk] at h2
    exact ⟨R, h1, h2, h3⟩

/-- C76: for a point whose order is the curve attribute `n`, odd, and for the point at infinity,
`k * P` never raises and is the `k`-fold sum, for every integer `k`. -/
theorem C76_scalar (c : WCurve) (hp : c.p = p) (h2 : p ≠ 2)
    (hd : (4 * c.a ^ 3 + 27 * c.b ^ 2 : ZMod p) ≠ 0) (P : WPoint) (hc : P.curve = c)
    (hx : InRange p P.x) (Q : (wCurve p c.a c.b).Point) (hr : Represents P.x P.y Q)
    (n : Nat) (hn : c.n = n) (hodd : n % 2 = 1) (ho : addOrderOf Q = n ∨ Q = 0) (k : Int) :
    ∃ R, P.mul k = .ok R ∧ R.curve = c ∧ Represents R.x R.y (k • Q) ∧ InRange p R.x ∧
      (InRange p P.y → InRange p R.y) := by
  obtain ⟨R, h1, s, h3⟩ := mul_stands ⟨hp, h2, hd⟩ ⟨hc, hr, hx⟩ n hn hodd ho k
  exact ⟨R, h1, s.curve, s.rep, s.red, h3⟩

/-- C76: in particular when `n` is an odd prime that annihilates the point. -/
theorem C76_scalar_prime (c : WCurve) (hp : c.p = p) (h2 : p ≠ 2)
    (hd : (4 * c.a ^ 3 + 27 * c.b ^ 2 : ZMod p) ≠ 0) (P : WPoint) (hc : P.curve = c)
    (hx : InRange p P.x) (Q : (wCurve p c.a c.b).Point) (hr : Represents P.x P.y Q)
    (n : Nat) (hn : c.n = n) (hnp : n.Prime) (hn2 : n ≠ 2) (ho : n • Q = 0) (k : Int) :
    ∃ R, P.mul k = .ok R ∧ R.curve = c ∧ Represents R.x R.y (k • Q) ∧ InRange p R.x ∧
      (InRange p P.y → InRange p R.y) := by
  have hodd : n % 2 = 1 := (hnp.eq_two_or_odd).resolve_left hn2
  have : Fact n.Prime := ⟨hnp⟩
  refine C76_scalar c hp h2 hd P hc hx Q hr n hn hodd ?_ k
  by_cases hQ : Q = 0
  · exact .inr hQ
  · exact .inl (addOrderOf_eq_prime ho hQ)

example (k : Int) : ∃ R, toyG.mul k = .ok R := by
  obtain ⟨Q, s, h, -⟩ := toy_stands
  obtain ⟨R, h, -⟩ := C76_scalar_prime (p := 17) toy rfl (by decide) (by decide) toyG rfl s.red Q s.rep 19 rfl
    (by norm_num) (by decide) h k
  exact ⟨R, h⟩
example : toyG.mul 7 = .ok ⟨toy, some 0, some 6⟩ := by decide +kernel

/-- C77: `(j + k) * P` and `j * P + k * P` are the same object value, for every point in range with
order `n`. -/
theorem C77_scalar_add (c : WCurve) (hp : c.p = p) (h2 : p ≠ 2)
    (hd : (4 * c.a ^ 3 + 27 * c.b ^ 2 : ZMod p) ≠ 0) (P : WPoint) (hc : P.curve = c)
    (hx : InRange p P.x) (hy : InRange p P.y) (Q : (wCurve p c.a c.b).Point) (hr : Represents P.x P.y Q)
    (n : Nat) (hn : c.n = n) (hodd : n % 2 = 1) (ho : addOrderOf Q = n) (j k : Int) :
    ∃ R, P.mul (j + k) = .ok R ∧ (do let A ← P.mul j; let B ← P.mul k; A.add B) = .ok R := by
  have g : Good c p := ⟨hp, h2, hd⟩
  have s : Stands c p P Q := ⟨hc, hr, hx⟩
  obtain ⟨R, r1, r2, r3⟩ := mul_stands g s n hn hodd (.inl ho) (j + k)
  obtain ⟨A, a1, a2, a3⟩ := mul_stands g s n hn hodd (.inl ho) j
  obtain ⟨B, b1, b2, b3⟩ := mul_stands g s n hn hodd (.inl ho) k
  obtain ⟨S, s1, s2, s3, -⟩ := add_stands g a2 b2
  rw [← add_zsmul] at s2
  refine ⟨R, r1, ?_⟩
  rw [a1, b1]
  change A.add B = _
  rw [s1, stands_unique r2 s2 (r3 hy) (s3 (a3 hy) (b3 hy))]

example : ∃ Q : (wCurve 17 toy.a toy.b).Point, Represents toyG.x toyG.y Q ∧ addOrderOf Q = 19 := by
  obtain ⟨Q, s, h, hne⟩ := toy_stands
  have : Fact (Nat.Prime 19) := ⟨by norm_num⟩
  exact ⟨Q, s.rep, addOrderOf_eq_prime h hne⟩

/-- C77: Diffie-Hellman agreement: `a * (b * P)` and `b * (a * P)` never raise and are the same object
value, for every point in range whose order is the odd prime `n`. -/
theorem C77_diffie_hellman (c : WCurve) (hp : c.p = p) (h2 : p ≠ 2)
    (hd : (4 * c.a ^ 3 + 27 * c.b ^ 2 : ZMod p) ≠ 0) (P : WPoint) (hc : P.curve = c)
    (hx : InRange p P.x) (hy : InRange p P.y) (Q : (wCurve p c.a c.b).Point) (hr : Represents P.x P.y Q)
    (n : Nat) (hn : c.n = n) (hnp : n.Prime) (hn2 : n ≠ 2) (ho : n • Q = 0) (a b : Int) :
    ∃ R, (do let B ← P.mul b; B.mul a) = .ok R ∧ (do let A ← P.mul a; A.mul b) = .ok R ∧
      P.mul (a * b) = .ok R := by
  have g : Good c p := ⟨hp, h2, hd⟩
  have s : Stands c p P Q := ⟨hc, hr, hx⟩
  have hodd : n % 2 = 1 := (hnp.eq_two_or_odd).resolve_left hn2
  have : Fact n.Prime := ⟨hnp⟩
  have ord : ∀ T : (wCurve p c.a c.b).Point, n • T = 0 → addOrderOf T = n ∨ T = 0 := by
    intro T hT
    by_cases h : T = 0
    · exact .inr h
    · exact .inl (addOrderOf_eq_prime hT h)
  have ann : ∀ k : Int, n • (k • Q) = 0 := by
    intro k
    rw [smul_comm, ho, zsmul_zero]
  obtain ⟨A, a1, a2, a3⟩ := mul_stands g s n hn hodd (ord _ ho) a
  obtain ⟨B, b1, b2, b3⟩ := mul_stands g s n hn hodd (ord _ ho) b
  obtain ⟨S, s1, s2, s3⟩ := mul_stands g b2 n hn hodd (ord _ (ann b)) a
  obtain ⟨T, t1, t2, t3⟩ := mul_stands g a2 n hn hodd (ord _ (ann a)) b
  obtain ⟨U, u1, u2, u3⟩ := mul_stands g s n hn hodd (ord _ ho) (a * b)
  rw [← mul_zsmul'] at s2
  rw [← mul_zsmul'] at t2
  rw [mul_comm b a] at s2
  refine ⟨S, ?_, ?_, ?_⟩
  · rw [b1]; exact s1
  · rw [a1]
    change A.mul b = _
    rw [t1, stands_unique s2 (by rw [mul_comm] at t2 ⊢; exact t2) (s3 (b3 hy)) (t3 (a3 hy))]
  · rw [u1, stands_unique s2 (by exact u2) (s3 (b3 hy)) (u3 hy)]

example (a b : Int) : (do let B ← toyG.mul b; B.mul a) = (do let A ← toyG.mul a; A.mul b) := by
  obtain ⟨Q, s, h, -⟩ := toy_stands
  obtain ⟨R, h1, h2, -⟩ := C77_diffie_hellman (p := 17) toy rfl (by decide) (by decide) toyG rfl s.red
    (reduced_some (by decide) (by decide)) Q s.rep 19 rfl (by norm_num) (by decide) h a b
  rw [h1, h2]

/-! ### C78: validated construction -/

/-- C78: `curve.point(x, y)` with integer coordinates returns the point exactly when the equation holds
modulo `p`, and raises `AssertionError` otherwise, for every modulus that is not 0. -/
theorem C78_point (c : WCurve) (hp : c.p ≠ 0) (x y : Int) :
    (y ^ 2 ≡ x ^ 3 + c.a * x + c.b [ZMOD c.p] →
      c.point (some x) (some y) = .ok ⟨c, some x, some y⟩) ∧
    (¬ y ^ 2 ≡ x ^ 3 + c.a * x + c.b [ZMOD c.p] → c.point (some x) (some y) = .error .assertion) := by
  have h : c.onCurve ⟨c, some x, some y⟩ = .ok (decide (y ^ 2 ≡ x ^ 3 + c.a * x + c.b [ZMOD c.p])) := by
    rw [WCurve.onCurve, if_neg (by simp [WPoint.eq, WCurve.identity])]
    simp only [num, pyMod, if_neg hp]
    change Except.ok ((y ^ 2).fmod c.p == (x ^ 3 + c.a * x + c.b).fmod c.p) = _
    congr 1
    rw [Bool.eq_iff_iff, beq_iff_eq, decide_eq_true_eq, Int.ModEq, Int.fmod_eq_fmod_iff_fmod_sub_eq_zero,
      ← Int.dvd_iff_fmod_eq_zero, Int.emod_eq_emod_iff_emod_sub_eq_zero, ← Int.dvd_iff_emod_eq_zero]
  constructor <;> intro h' <;> rw [WCurve.point] <;> simp only [h]
  · rw [decide_eq_true h']; rfl
  · rw [decide_eq_false h']; rfl

example : toy.point (some 5) (some 18) = .ok ⟨toy, some 5, some 18⟩ ∧ toy.point (some 5) (some 2) = .error .assertion :=
  ⟨(C78_point toy (by decide) 5 18).1 (by decide), (C78_point toy (by decide) 5 2).2 (by decide)⟩

/-- C78: `curve.point(None, None)` returns the point at infinity. -/
theorem C78_infinity (c : WCurve) : c.point none none = .ok c.identity := by
  rw [WCurve.point]
  change (do let ok ← c.onCurve c.identity; _) = _
  rw [WCurve.onCurve, if_pos (show c.identity.eq c.identity = true from eq_identity_infinity c)]
  rfl

/-- The point belongs to the curve object and `on_curve` accepts it. -/
private def Valid (c : WCurve) (P : WPoint) : Prop := P.curve = c ∧ c.onCurve P = .ok true

private theorem valid_identity (c : WCurve) : Valid c c.identity :=
  ⟨rfl, by rw [WCurve.onCurve, if_pos (show c.identity.eq c.identity = true from eq_identity_infinity c)]⟩

private theorem valid_point {c : WCurve} {x y : Option Int} {R : WPoint} (h : c.point x y = .ok R) :
    Valid c R := by
  rw [WCurve.point] at h
  cases h1 : c.onCurve ⟨c, x, y⟩ with
  | error e => rw [h1] at h; cases h
  | ok b =>
    rw [h1] at h
    cases b with
    | false => cases h
    | true =>
      injection h with h
      subst h
      exact ⟨rfl, h1⟩

private theorem bind_ok {α β : Type} {x : Py α} {f : α → Py β} {r : β} (h : (x >>= f) = .ok r) :
    ∃ a, x = .ok a ∧ f a = .ok r := by
  cases x with
  | error e => cases h
  | ok a => exact ⟨a, rfl, h⟩

private theorem valid_double {c : WCurve} {P R : WPoint} (h : c.doublePoint P = .ok R) : Valid c R := by
  rw [WCurve.doublePoint] at h
  obtain ⟨_, -, h⟩ := bind_ok h
  obtain ⟨_, -, h⟩ := bind_ok h
  obtain ⟨_, -, h⟩ := bind_ok h
  obtain ⟨_, -, h⟩ := bind_ok h
  obtain ⟨_, -, h⟩ := bind_ok h
  obtain ⟨_, -, h⟩ := bind_ok h
  exact valid_point h

private theorem valid_add {c : WCurve} {P1 P2 R : WPoint} (h1 : Valid c P1) (h2 : Valid c P2)
    (h : P1.add P2 = .ok R) : Valid c R := by
  rw [WPoint.add, h1.1, WCurve.addPoints] at h
  obtain ⟨_, -, h⟩ := bind_ok h
  split at h
  · injection h with h; exact h ▸ h1
  split at h
  · injection h with h; exact h ▸ h2
  split at h
  · obtain ⟨_, -, h⟩ := bind_ok h
    obtain ⟨_, -, h⟩ := bind_ok h
    obtain ⟨_, -, h⟩ := bind_ok h
    split at h
    · injection h with h; exact h ▸ valid_identity c
    · rw [h1.1] at h; exact valid_double h
  · obtain ⟨_, -, h⟩ := bind_ok h
    obtain ⟨_, -, h⟩ := bind_ok h
    obtain ⟨_, -, h⟩ := bind_ok h
    obtain ⟨_, -, h⟩ := bind_ok h
    obtain ⟨_, -, h⟩ := bind_ok h
    obtain ⟨_, -, h⟩ := bind_ok h
    obtain ⟨_, -, h⟩ := bind_ok h
    obtain ⟨_, -, h⟩ := bind_ok h
    exact valid_point h

private theorem valid_loop {c : WCurve} {e e3 : Nat} {P N : WPoint} (hP : Valid c P) (hN : Valid c N) :
    ∀ (i : Nat) (S R : WPoint), Valid c S → scalarLoop e e3 P N i S = .ok R → Valid c R := by
  intro i
  induction i using Nat.strong_induction_on with
  | _ i ih =>
    intro S R hS h
    rw [scalarLoop] at h
    split at h
    · next hi =>
      obtain ⟨T, hT, h⟩ := bind_ok h
      refine ih (i / 2) (by omega) T R ?_ h
      rw [scalarStep] at hT
      obtain ⟨D, hD, hT⟩ := bind_ok hT
      obtain ⟨A, hA, hT⟩ := bind_ok hT
      have vD : Valid c D := by rw [WPoint.double, hS.1] at hD; exact valid_double hD
      have vA : Valid c A := by
        split at hA
        · exact valid_add vD hP hA
        · injection hA with hA; exact hA ▸ vD
      split at hT
      · exact valid_add vA hN hT
      · injection hT with hT; exact hT ▸ vA
    · injection h with h; exact h ▸ hS

/-- C78: whatever the parameters of the curve, every result of `+`, `-`, unary `-`, `double()` and `*`
on points of a curve object that `on_curve` accepts is again such a point. -/
theorem C78_closed (c : WCurve) (P1 P2 R : WPoint) (k : Int)
    (h1 : P1.curve = c ∧ c.onCurve P1 = .ok true) (h2 : P2.curve = c ∧ c.onCurve P2 = .ok true)
    (h : P1.add P2 = .ok R ∨ P1.sub P2 = .ok R ∨ P1.neg = .ok R ∨ P1.double = .ok R ∨ P1.mul k = .ok R) :
    R.curve = c ∧ c.onCurve R = .ok true := by
  rcases h with h | h | h | h | h
  · exact valid_add h1 h2 h
  · rw [WPoint.sub] at h
    obtain ⟨M, hM, h⟩ := bind_ok h
    rw [WPoint.neg, h2.1, WCurve.negate] at hM
    obtain ⟨_, -, hM⟩ := bind_ok hM
    exact valid_add h1 (valid_point hM) h
  · rw [WPoint.neg, h1.1, WCurve.negate] at h
    obtain ⟨_, -, h⟩ := bind_ok h
    exact valid_point h
  · rw [WPoint.double, h1.1] at h
    exact valid_double h
  · rw [WPoint.mul, h1.1, WCurve.scalarMultiple] at h
    obtain ⟨e, -, h⟩ := bind_ok h
    split at h
    · injection h with h; exact h ▸ valid_identity c
    split at h
    · injection h with h; exact h ▸ valid_identity c
    obtain ⟨_, -, h⟩ := bind_ok h
    obtain ⟨y, -, h⟩ := bind_ok h
    obtain ⟨N, hN, h⟩ := bind_ok h
    exact valid_loop h1 (valid_point hN) _ _ _ h1 h

example : (toyG.curve = toy ∧ toy.onCurve toyG = .ok true) ∧ toyG.mul 7 = .ok ⟨toy, some 0, some 6⟩ := by
  decide +kernel

/-! ### C79: exceptional cases -/

omit hpf in
/-- C79: negating and doubling the point at infinity, and subtracting it, raise `TypeError`, on every
curve. -/
theorem C79_infinity (c : WCurve) (P : WPoint) :
    c.identity.neg = .error .type ∧ c.identity.double = .error .type ∧
    P.sub c.identity = .error .type := ⟨rfl, rfl, rfl⟩

/-- C79: doubling a point whose y is 0 modulo the prime `p` raises `AssertionError`. -/
theorem C79_double (c : WCurve) (hp : c.p = p) (x y : Int) (hy : (p : Int) ∣ y) :
    (⟨c, some x, some y⟩ : WPoint).double = .error .assertion := by
  rw [WPoint.double, WCurve.doublePoint]
  simp only [num, WCurve.inverse]
  rw [hp]
  change (do let i ← inverseMod (2 * y) p; _) = _
  rw [inverseMod_zero (p := p) _ (by
    rw [← ZMod.intCast_zmod_eq_zero_iff_dvd] at hy; push_cast; rw [hy, mul_zero])]
  rfl

example : (⟨⟨1, 5, 1, 0, 2⟩, some 2, some 0⟩ : WPoint).double = .error .assertion := by
  have : Fact (Nat.Prime 5) := ⟨by norm_num⟩
  exact C79_double (p := 5) ⟨1, 5, 1, 0, 2⟩ rfl 2 0 (by decide)

/-- C79: adding two finite points of one curve object whose x coordinates are congruent modulo `p` but
different integers raises `AssertionError`. -/
theorem C79_unreduced (c : WCurve) (hp : c.p = p) (x1 y1 x2 y2 : Int) (hne : x1 ≠ x2)
    (hx : x1 ≡ x2 [ZMOD p]) :
    (⟨c, some x1, some y1⟩ : WPoint).add ⟨c, some x2, some y2⟩ = .error .assertion := by
  have h0 : ((x2 - x1 : Int) : ZMod p) = 0 := by
    rw [← ZMod.intCast_eq_intCast_iff] at hx
    push_cast; rw [hx, sub_self]
  rw [WPoint.add, WCurve.addPoints]
  change (do Py.assert (c.oid = c.oid); _) = _
  rw [Py.assert, if_pos rfl]
  change (if WPoint.eq ⟨c, some x2, some y2⟩ c.identity then _ else _) = _
  rw [if_neg (by rw [eq_identity_affine]; decide), if_neg (by rw [eq_identity_affine]; decide),
    if_neg (by simpa using hne)]
  simp only [num, WCurve.inverse]
  rw [hp]
  change (do let i ← inverseMod (x2 - x1) p; _) = _
  rw [inverseMod_zero (p := p) _ h0]
  rfl

example : toyG.add ⟨toy, some 22, some 1⟩ = .error .assertion :=
  C79_unreduced (p := 17) toy rfl 5 1 22 1 (by decide) (by decide)

omit hpf in
/-- C79: adding points of two different curve objects raises `AssertionError`, even when the curves have
the same parameters. -/
theorem C79_different_curves (P1 P2 : WPoint) (h : P1.curve.oid ≠ P2.curve.oid) :
    P1.add P2 = .error .assertion := by
  rw [WPoint.add, WCurve.addPoints, Py.assert, if_neg h]; rfl

example : toyG.add ⟨{ toy with oid := 2 }, some 5, some 1⟩ = .error .assertion :=
  C79_different_curves _ _ (by decide)

/-! ### C80: equality -/

omit hpf in
/-- C80: `==` of points is identity of the curve objects and equality of the stored coordinates. -/
theorem C80_eq (P Q : WPoint) :
    P.eq Q = true ↔ P.curve.oid = Q.curve.oid ∧ P.x = Q.x ∧ P.y = Q.y := by
  simp [WPoint.eq, and_assoc]

/-- C80: for a point of odd order `n` with y in `(0, p)`, `-P` and `(n-1) * P` stand for the same group
element but compare unequal. -/
theorem C80_negative (c : WCurve) (hp : c.p = p) (h2 : p ≠ 2)
    (hd : (4 * c.a ^ 3 + 27 * c.b ^ 2 : ZMod p) ≠ 0) (x y : Int) (hx0 : 0 ≤ x) (hxp : x < p)
    (hy0 : 0 < y) (hyp : y < p) (Q : (wCurve p c.a c.b).Point)
    (hr : Represents (some x) (some y) Q) (n : Nat) (hn : c.n = n) (hodd : n % 2 = 1)
    (ho : addOrderOf Q = n) :
    ∃ N R, (⟨c, some x, some y⟩ : WPoint).neg = .ok N ∧
      (⟨c, some x, some y⟩ : WPoint).mul (n - 1) = .ok R ∧
      Represents N.x N.y (-Q) ∧ Represents R.x R.y (-Q) ∧ N.eq R = false := by
  obtain ⟨h3, h4⟩ := C75_negate c hp h2 hd x y Q hr
  obtain ⟨R, r1, r2, r3, r4, r5⟩ := C76_scalar c hp h2 hd ⟨c, some x, some y⟩ rfl
    (reduced_some hx0 hxp) Q hr n hn hodd (.inl ho) (n - 1)
  have hQ : ((n : Int) - 1) • Q = -Q := by
    rw [sub_zsmul, natCast_zsmul, ← ho, addOrderOf_nsmul_eq_zero, zero_add, one_zsmul]
  rw [hQ] at r3
  refine ⟨_, R, h3, r1, h4, r3, ?_⟩
  rw [Bool.eq_false_iff, Ne, C80_eq]
  rintro ⟨-, -, h⟩
  have := (r5 (reduced_some hy0.le hyp)) (-y) h.symm
  omega

example : toyG.mul 18 = .ok ⟨toy, some 5, some 16⟩ ∧ toyG.neg = .ok ⟨toy, some 5, some (-1)⟩ := by decide +kernel

/-! ### C81: Edwards and Montgomery curve objects -/

omit hpf in
private theorem coordSize_ok (p : Int) (h : 0 ≤ p) : coordSize p = .ok (coordLoop 0 p.toNat) := by
  rw [coordSize, Py.assert, if_pos h]; rfl

omit hpf in
/-- C81: for every modulus above 1 and every `a`, creating a Montgomery curve object raises
`AssertionError`; without the attribute `a` it raises `AttributeError`. -/
theorem C81_montgomery (c : MCurve) (hp : 2 ≤ c.p) :
    c.init = .error (if c.a.isSome then .assertion else .attribute) := by
  obtain ⟨p, a⟩ := c
  rw [MCurve.init, coordSize_ok _ (by simp only at hp ⊢; omega)]
  cases a with
  | none => rfl
  | some a =>
    have h : MCurve.onCurve ⟨p, some a⟩ 0 (-1) = .ok false := by
      rw [MCurve.onCurve]
      simp only [attr, pyMod, if_neg (show p ≠ 0 by simp only at hp; omega)]
      change Except.ok _ = _
      congr 1
      rw [Bool.eq_false_iff, Ne, beq_iff_eq]
      simp only at hp
      rw [fmod_pos_eq _ (by omega), fmod_pos_eq _ (by omega)]
      norm_num
      intro hd
      have := Int.le_of_dvd (by omega) hd
      omega
    change (do let i ← MCurve.identity ⟨p, some a⟩; _) = _
    rw [MCurve.identity, MCurve.point, h]
    rfl

example : MCurve.init ⟨2 ^ 255 - 19, some 486662⟩ = .error .assertion := C81_montgomery _ (by decide)

omit hpf in
/-- C81: for every modulus above 2 and every `a` and `d`, creating a (twisted) Edwards curve object
raises `AssertionError`. -/
theorem C81_edwards (c : ECurve) (hp : 3 ≤ c.p) : c.init = .error .assertion := by
  have h : c.onCurve 0 (-1) = .ok false := by
    rw [ECurve.onCurve]
    simp only [pyMod, if_neg (show c.p ≠ 0 by omega)]
    change Except.ok _ = _
    congr 1
    rw [Bool.eq_false_iff, Ne, beq_iff_eq, fmod_pos_eq _ (by omega), ← Int.dvd_iff_emod_eq_zero]
    norm_num
    intro hd
    have := Int.le_of_dvd (by omega) hd
    omega
  rw [ECurve.init, coordSize_ok _ (by omega)]
  change (do let i ← c.identity; _) = _
  rw [ECurve.identity, ECurve.point, h]
  rfl

example : ECurve.init ⟨2 ^ 255 - 19, -1, 1⟩ = .error .assertion := C81_edwards _ (by decide)

/-! ### C83: decompression -/

/-- C83: `y_from_x(x)` returns a y in range with `(x, y)` on the curve when there is one, and raises
`SquareRootError` when there is none. -/
theorem C83_y_from_x (c : WCurve) (hp : c.p = p) (x : Int) :
    ((∃ y : Int, y ^ 2 ≡ x ^ 3 + c.a * x + c.b [ZMOD p]) →
      ∃ y, c.yFromX x = .ok y ∧ 0 ≤ y ∧ y < p ∧ y ^ 2 ≡ x ^ 3 + c.a * x + c.b [ZMOD p] ∧
        c.point (some x) (some y) = .ok ⟨c, some x, some y⟩) ∧
    ((¬ ∃ y : Int, y ^ 2 ≡ x ^ 3 + c.a * x + c.b [ZMOD p]) → c.yFromX x = .error .squareRoot) := by
  have hp0 := hpf.out.pos
  have e : (x * x + c.a) * x + c.b = x ^ 3 + c.a * x + c.b := by ring
  have h1 : c.yFromX x = squareRootModPrime ((x ^ 3 + c.a * x + c.b) % p) p := by
    rw [WCurve.yFromX, hp, e, pyMod, if_neg (by omega), fmod_pos_eq _ (by omega)]
    rfl
  have hm : (x ^ 3 + c.a * x + c.b) % (p : Int) ≡ x ^ 3 + c.a * x + c.b [ZMOD p] := Int.mod_modEq _ _
  obtain ⟨k1, k2⟩ := C57_square_root p hpf.out ((x ^ 3 + c.a * x + c.b) % p)
    (Int.emod_nonneg _ (by omega)) (Int.emod_lt_of_pos _ (by omega))
  constructor
  · rintro ⟨y, hy⟩
    obtain ⟨r, r1, r2, r3, r4⟩ := k1 ⟨y, by rw [← pow_two]; exact hy.trans hm.symm⟩
    have r5 : r ^ 2 ≡ x ^ 3 + c.a * x + c.b [ZMOD p] := by rw [pow_two]; exact r4.trans hm
    exact ⟨r, h1.trans r1, r2, r3, r5, (C78_point c (by omega) x r).1 (by rw [hp]; exact r5)⟩
  · intro h
    rw [h1]
    refine k2 ?_
    rintro ⟨y, hy⟩
    exact h ⟨y, by rw [pow_two]; exact hy.trans hm⟩

example : ∃ y, toy.yFromX 10 = .ok y ∧ 0 ≤ y ∧ y < (17 : Nat) := by
  obtain ⟨y, h1, h2, h3, -⟩ := (C83_y_from_x (p := 17) toy rfl 10).1 ⟨6, by decide⟩
  exact ⟨y, h1, h2, h3⟩

/-! ### C84: private keys -/

omit hpf in
private theorem stringToInt_append (s t : Bytes) :
    stringToInt (s ++ t) = stringToInt s * 256 ^ t.length + stringToInt t := by
  induction t using List.reverseRecOn with
  | nil => simp [stringToInt]
  | append_singleton t b ih =>
    rw [← List.append_assoc, stringToInt, List.foldl_append, ← stringToInt, ih]
    rw [show stringToInt (t ++ [b]) = 256 * stringToInt t + b.toNat by
      rw [stringToInt, List.foldl_append]; rfl]
    simp only [List.foldl_cons, List.foldl_nil, List.length_append, List.length_cons, List.length_nil]
    ring

omit hpf in
private theorem stringToInt_lt (s : Bytes) : stringToInt s < 256 ^ s.length := by
  induction s using List.reverseRecOn with
  | nil => simp [stringToInt]
  | append_singleton t b ih =>
    rw [stringToInt_append, List.length_append, pow_add]
    have := b.toNat_lt
    simp only [List.length_cons, List.length_nil, stringToInt, List.foldl_cons, List.foldl_nil] at ih ⊢
    omega

omit hpf in
private theorem stringToInt_surj (n v : Nat) (h : v < 256 ^ n) :
    ∃ s : Bytes, s.length = n ∧ stringToInt s = v := by
  induction n generalizing v with
  | zero => exact ⟨[], rfl, by simp at h; simp [stringToInt, h]⟩
  | succ n ih =>
    obtain ⟨s, h1, h2⟩ := ih (v / 256) (by rw [pow_succ] at h; omega)
    refine ⟨s ++ [UInt8.ofNat (v % 256)], by simp [h1], ?_⟩
    rw [stringToInt_append, h2]
    simp only [stringToInt, List.foldl_cons, List.foldl_nil, List.length_cons, List.length_nil,
      UInt8.toNat_ofNat']
    omega

omit hpf in
/-- C84: as the random source ranges over all functions that return as many octets as asked,
`new_private_key` takes exactly the values below `256 ** coord_size`, 0 included. -/
theorem C84_range (size v : Nat) :
    v < 256 ^ size ↔ ∃ urandom : Nat → Bytes, (∀ n, (urandom n).length = n) ∧
      newPrivateKey urandom size = v := by
  constructor
  · intro h
    obtain ⟨s, h1, h2⟩ := stringToInt_surj size v h
    refine ⟨fun n => if n = size then s else List.replicate n 0, fun n => ?_, ?_⟩
    · dsimp only
      split
      · rw [h1]; omega
      · simp
    · rw [newPrivateKey, if_pos rfl, h2]
  · rintro ⟨u, h1, rfl⟩
    have := stringToInt_lt (u size)
    rwa [h1] at this

example : ∃ urandom : Nat → Bytes, (∀ n, (urandom n).length = n) ∧ newPrivateKey urandom 1 = 19 :=
  (C84_range 1 19).mp (by decide)

omit hpf in
/-- C84: a key and its residue modulo `n` give the same public key. -/
theorem C84_residue (P : WPoint) (hn : P.curve.n ≠ 0) (k : Int) : P.mul k = P.mul (k % P.curve.n) := by
  have : (k % P.curve.n).fmod P.curve.n = k.fmod P.curve.n := by
    rw [Int.fmod_eq_fmod_iff_fmod_sub_eq_zero, ← Int.dvd_iff_fmod_eq_zero]
    have := Int.mul_ediv_add_emod k P.curve.n
    exact ⟨-(k / P.curve.n), by linarith⟩
  rw [WPoint.mul, WPoint.mul, WCurve.scalarMultiple, WCurve.scalarMultiple, pyMod, pyMod, if_neg hn, if_neg hn,
    this]

example : toyG.mul 26 = toyG.mul 7 := C84_residue toyG (by decide) 26

omit hpf in
/-- C84: the key 0 and every multiple of `n` give the point at infinity as public key. -/
theorem C84_zero (P : WPoint) (hn : P.curve.n ≠ 0) (k : Int) (h : P.curve.n ∣ k) :
    P.mul k = .ok P.curve.identity := by
  rw [WPoint.mul, WCurve.scalarMultiple, pyMod, if_neg hn, Int.dvd_iff_fmod_eq_zero.mp h]
  rfl
example := C84_zero toyG (by decide) 38 (by decide)

/-! ### C85: coord_size -/

omit hpf in
private theorem coordLoop_spec (p : Nat) : ∀ size, ∃ s, coordLoop size p = size + s ∧ p < 256 ^ s ∧
    ∀ t, p < 256 ^ t → s ≤ t := by
  induction p using Nat.strong_induction_on with
  | _ p ih =>
    intro size
    rw [coordLoop]
    split
    · next hp =>
      obtain ⟨s, h1, h2, h3⟩ := ih (p / 256) (by omega) (size + 1)
      refine ⟨s + 1, by rw [h1]; omega, by rw [pow_succ]; omega, fun t ht => ?_⟩
      cases t with
      | zero => simp at ht; omega
      | succ t =>
        rw [pow_succ] at ht
        have := h3 t (by omega)
        omega
    · exact ⟨0, rfl, by simp; omega, fun t _ => by omega⟩

omit hpf in
/-- C85: `coord_size` is the least number of octets that hold `p`, so every coordinate in `[0, p)` fits. -/
theorem C85_coord_size (q : Int) (hq : 0 ≤ q) :
    ∃ s, coordSize q = .ok s ∧ q < 256 ^ s ∧ (∀ t : Nat, q < 256 ^ t → s ≤ t) ∧
      ∀ v, 0 ≤ v → v < q → v < 256 ^ s := by
  obtain ⟨s, h1, h2, h3⟩ := coordLoop_spec q.toNat 0
  have hz : ∀ t : Nat, q < 256 ^ t ↔ q.toNat < 256 ^ t := by
    intro t
    have : ((256 ^ t : Nat) : Int) = 256 ^ t := by norm_cast
    omega
  refine ⟨s, by rw [coordSize_ok q hq, h1, zero_add], (hz s).mpr h2, fun t ht => h3 t ((hz t).mp ht),
    fun v _ hv => lt_trans hv ((hz s).mpr h2)⟩

example : ∃ s, coordSize (2 ^ 255 - 19) = .ok s ∧ s ≤ 32 := by
  obtain ⟨s, h1, -, h2, -⟩ := C85_coord_size (2 ^ 255 - 19) (by decide)
  exact ⟨s, h1, h2 32 (by decide)⟩

omit hpf in
/-- C85: a negative modulus is refused with `AssertionError`. -/
theorem C85_negative (q : Int) (hq : q < 0) : coordSize q = .error .assertion := by
  rw [coordSize, Py.assert, if_neg (by omega)]; rfl
example := C85_negative (-5) (by decide)

/-! ### C86: encoders -/

omit hpf in
/-- C86: no encoder of points returns, in the module as it is, for a curve object that exists (its
modulus is not negative). -/
theorem C86_encoders (P : WPoint) (hp : 0 ≤ P.curve.p) (o : Bytes) (m : String) :
    P.encode ellipticcurveNames "raw" = .error .name ∧
    (m ≠ "raw" → P.encode ellipticcurveNames m = .error .exception) ∧
    P.toOctets ellipticcurveNames = .error .name ∧ P.toOctetstring ellipticcurveNames = .error .name ∧
    P.fromOctetstring o = .error .stringRaise := by
  have h : ∀ v t, coordToString ellipticcurveNames v t = .error .name := by
    intro v t
    rw [coordToString, readGlobal, if_neg (by decide)]; rfl
  refine ⟨?_, fun hm => by rw [WPoint.encode, if_neg hm], by rw [WPoint.toOctets, h], ?_, rfl⟩
  · rw [WPoint.encode, if_pos rfl, coordSize_ok _ hp]
    simp only [h]; rfl
  · rw [WPoint.toOctetstring, h]; rfl
example := C86_encoders toyG (by decide) [4] "uncompressed"

omit hpf in
/-- C86: the missing import is the whole cause: with `int_to_string` bound, a finite point with
positive coordinates below `p` would be encoded as two strings of `coord_size` octets with these
values. -/
theorem C86_with_import (names : List String) (hi : "int_to_string" ∈ names) (c : WCurve) (x y : Nat)
    (hx : 0 < x) (hy : 0 < y) (hxp : (x : Int) < c.p) (hyp : (y : Int) < c.p) :
    ∃ size sx sy, coordSize c.p = .ok size ∧
      (⟨c, some x, some y⟩ : WPoint).encode names "raw" = .ok (sx ++ sy) ∧ sx.length = size ∧
      sy.length = size ∧ stringToInt sx = x ∧ stringToInt sy = y := by
  obtain ⟨size, h1, h2, -, h4⟩ := C85_coord_size c.p (by omega)
  have conv : ∀ v : Nat, 0 < v → (v : Int) < c.p →
      ∃ s, coordToString names (some (v : Int)) (some (size : Int)) = .ok s ∧ s.length = size ∧ stringToInt s = v := by
    intro v hv hvp
    have hlt : v < 256 ^ size := by
      have := h4 v (by omega) hvp
      exact_mod_cast this
    have hs : 0 < size := by
      rcases Nat.eq_zero_or_pos size with h | h
      · rw [h] at hlt; simp at hlt; omega
      · exact h
    obtain ⟨s, k1, k2, k3⟩ := (intToString_pad v hs).1 hlt
    refine ⟨s, ?_, k2, by rw [stringToInt_eq, k3]⟩
    rw [coordToString, readGlobal, if_pos hi]
    change eccIntToString (v : Int) _ = _
    rw [eccIntToString, if_pos (by omega), if_neg (by omega), ← k1, intToString, if_pos (by omega)]
  obtain ⟨sx, a1, a2, a3⟩ := conv x hx hxp
  obtain ⟨sy, b1, b2, b3⟩ := conv y hy hyp
  refine ⟨size, sx, sy, h1, ?_, a2, b2, a3, b3⟩
  rw [WPoint.encode, if_pos rfl, h1]
  change (do let x ← coordToString names (some (x : Int)) (some (size : Int)); _) = _
  rw [a1]
  change (do let y ← coordToString names (some (y : Int)) (some (size : Int)); _) = _
  rw [b1]
  rfl

example : ∃ size sx sy, coordSize 17 = .ok size ∧ toyG.encode eccNames "raw" = .ok (sx ++ sy) ∧ sx.length = size ∧
    sy.length = size ∧ stringToInt sx = 5 ∧ stringToInt sy = 1 :=
  C86_with_import eccNames (by decide) toy 5 1 (by decide) (by decide) (by decide) (by decide)

omit hpf in
/-- C86: with `int_to_string` bound, `toOctets` would give the shortest string for `x`, and
`to_octetstring` the shortest strings for `x` and `y` one after the other, without a mark between
them: different coordinates can give the same string. -/
theorem C86_octetstring (names : List String) (hi : "int_to_string" ∈ names) (c : WCurve) :
    (∀ x y : Nat, ∃ sx sy, (⟨c, some x, some y⟩ : WPoint).toOctets names = .ok sx ∧
      (⟨c, some x, some y⟩ : WPoint).toOctetstring names = .ok (sx ++ sy) ∧
      Canonical sx ∧ Canonical sy ∧ stringToInt sx = x ∧ stringToInt sy = y) ∧
    (∀ x y z : Nat, 0 < x → 0 < y → y < 256 → 0 < z → z < 256 →
      (⟨c, some (256 * x + y : Nat), some z⟩ : WPoint).toOctetstring names =
        (⟨c, some x, some (256 * y + z : Nat)⟩ : WPoint).toOctetstring names) := by
  have conv : ∀ v : Nat, coordToString names (some (v : Int)) none = intToString v none := by
    intro v
    rw [coordToString, readGlobal, if_pos hi]
    change eccIntToString (v : Int) none = _
    rw [eccIntToString, if_pos (by omega), intToString]
    rcases Nat.eq_zero_or_pos v with rfl | hv
    · rfl
    · rw [if_neg (by omega), if_pos (by omega)]
  have oct : ∀ x y : Nat, ∀ sx sy, intToString x none = .ok sx → intToString y none = .ok sy →
      (⟨c, some x, some y⟩ : WPoint).toOctetstring names = .ok (sx ++ sy) := by
    intro x y sx sy hx hy
    change (do let x ← coordToString names (some (x : Int)) none; _) = _
    rw [conv, hx]
    change (do let y ← coordToString names (some (y : Int)) none; _) = _
    rw [conv, hy]
    rfl
  refine ⟨fun x y => ?_, fun x y z hx hy hy' hz hz' => ?_⟩
  · obtain ⟨sx, a1, a2, a3⟩ := intToString_none x
    obtain ⟨sy, b1, b2, b3⟩ := intToString_none y
    exact ⟨sx, sy, (conv x).trans a1, oct x y sx sy a1 b1, a2, b2, by rw [stringToInt_eq, a3],
      by rw [stringToInt_eq, b3]⟩
  · have hpos : ∀ v : Nat, 0 < v → intToString v none = .ok (intToStringLoop v []) := by
      intro v hv
      rw [intToString, if_pos (by omega)]
      rfl
    rw [oct _ _ _ _ (hpos (256 * x + y) (by omega)) (hpos z hz),
      oct _ _ _ _ (hpos x hx) (hpos (256 * y + z) (by omega))]
    congr 1
    have small : ∀ v : Nat, 0 < v → v < 256 → intToStringLoop v [] = [UInt8.ofNat v] := by
      intro v h h'
      rw [intToStringLoop_pos h, Nat.div_eq_of_lt h', Nat.mod_eq_of_lt h', intToStringLoop_zero]
      rfl
    have step : ∀ u v : Nat, 0 < u → v < 256 →
        intToStringLoop (256 * u + v) [] = intToStringLoop u [] ++ [UInt8.ofNat v] := by
      intro u v hu hv
      rw [intToStringLoop_pos (by omega), show (256 * u + v) / 256 = u by omega,
        show (256 * u + v) % 256 = v by omega]
    rw [step x y hx hy', step y z hy hz', small z hz hz', small y hy hy', List.append_assoc]
example := C86_octetstring eccNames (by decide) toy

/-! ### C99: operations that never work -/

omit hpf in
/-- C99: in the module as it is `montgomery_ladder2` and the negation of a Montgomery point raise for
every argument, and so does Edwards scalar multiplication by anything but 0. -/
theorem C99_broken (c : MCurve) (e : ECurve) (scalar x1 : Int) (k : Nat) (pt identity : Int × Int) (hk : k ≠ 0) :
    c.montgomeryLadder2 eccNames scalar x1 = .error (if c.a.isSome then .name else .attribute) ∧
    c.negate eccNames pt = .error .name ∧
    e.scalarMultiple edwardsMethods identity pt k = .error .attribute := by
  refine ⟨?_, ?_, by rw [ECurve.scalarMultiple, dif_neg hk, if_neg (by decide)]⟩
  · obtain ⟨p, a⟩ := c
    cases a with
    | none => rfl
    | some a =>
      rw [MCurve.montgomeryLadder2, readGlobal, if_neg (by decide)]; rfl
  · rw [MCurve.negate, readGlobal, if_neg (by decide)]; rfl
example := C99_broken ⟨17, some 3⟩ ⟨13, 1, 2⟩ 5 9 2 (1, 2) (0, 1) (by decide)

end Cryptopy
