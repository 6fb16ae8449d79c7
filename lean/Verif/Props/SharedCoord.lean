import Verif.Props.Brainpool
import Verif.Props.KeyCount

/-!
C141: which scalars give points that share a coordinate.
-/

namespace Cryptopy
open Cryptopy.Model Cryptopy.Spec WeierstrassCurve

private theorem in_range_inj {p : Nat} {v w : Int} (hv : 0 ≤ v ∧ v < p) (hw : 0 ≤ w ∧ w < p)
    (h : (v : ZMod p) = w) : v = w := by
  have := (ZMod.intCast_eq_intCast_iff v w p).mp h
  rwa [Int.ModEq, Int.emod_eq_of_lt hv.1 hv.2, Int.emod_eq_of_lt hw.1 hw.2] at this

private theorem same_x {c : WCurve} {p : Nat} [Fact p.Prime] {S T : WPoint} {U V : (wCurve p c.a c.b).Point}
    (s : Stands c p S U) (t : Stands c p T V) : S.x = T.x ↔ U = V ∨ U = -V := by
  obtain ⟨c1, px, py⟩ := S
  obtain ⟨c2, px', py'⟩ := T
  obtain ⟨-, r, d⟩ := s
  obtain ⟨-, r', d'⟩ := t
  simp only at r d r' d'
  cases r with
  | infinity =>
    cases r' with
    | infinity => simp
    | affine x' y' h' =>
      simp only [reduceCtorEq, false_iff, not_or]
      refine ⟨by rintro ⟨⟩, fun h => ?_⟩
      rw [Affine.Point.neg_some] at h
      cases h
  | affine x y h =>
    cases r' with
    | infinity =>
      simp only [reduceCtorEq, neg_zero, or_self]
    | affine x' y' h' =>
      rw [Affine.Point.neg_some]
      constructor
      · rintro ⟨⟩
        rcases Affine.Y_eq_of_X_eq h.1 h'.1 rfl with e | e
        · left; exact point_some_congr _ rfl e _
        · right; exact point_some_congr _ rfl e _
      · intro e
        have : (x : ZMod p) = x' := by
          rcases e with e | e <;> exact (Affine.Point.some.inj e).1
        rw [in_range_inj (d x rfl) (d' x' rfl) this]

private theorem smul_eq {A : Type} [AddCommGroup A] {Q : A} {n : Nat} (hQ : addOrderOf Q = n) (j k : Int) :
    j • Q = k • Q ∨ j • Q = -(k • Q) ↔ (n : Int) ∣ j - k ∨ (n : Int) ∣ j + k := by
  rw [← hQ, addOrderOf_dvd_iff_zsmul_eq_zero, addOrderOf_dvd_iff_zsmul_eq_zero, sub_smul, add_smul, sub_eq_zero,
    add_eq_zero_iff_eq_neg]

/-- C141: on a shipped curve of prime order the multiples `j * P` and `k * P` of a finite point have the same x-coordinate
(or are both infinite) exactly when `j` and `k` agree modulo `n` up to the sign. -/
theorem C141_same_x (K : WClass) (hK : K ∈ primeOrderClasses) (oid : Nat) (P : WPoint) (hP : ReducedPoint K oid P)
    (hfin : P ≠ (K.instance oid).identity) (j k : Int) :
    ∃ S T, P.mul j = .ok S ∧ P.mul k = .ok T ∧ (S.x = T.x ↔ K.n ∣ j - k ∨ K.n ∣ j + k) := by
  obtain ⟨p, n, e1, e2, hp, -⟩ := C95_parameters K hK
  have : Fact p.Prime := ⟨hp⟩
  obtain ⟨g, hodd, Q, s, ho⟩ := reduced_stands hK hP e1 e2
  obtain ⟨S, s1, s2, -⟩ := mul_stands g s n e2 hodd ho j
  obtain ⟨T, t1, t2, -⟩ := mul_stands g s n e2 hodd ho k
  refine ⟨S, T, s1, t1, (same_x s2 t2).trans ?_⟩
  have hQ : addOrderOf Q = n := by
    refine ho.resolve_right ?_
    rintro rfl
    apply hfin
    obtain ⟨c1, sx, sy⟩ := P
    obtain ⟨h1, h2, -⟩ := s
    simp only at h1 h2
    subst h1
    generalize hz : (0 : (wCurve p K.a K.b).Point) = Z at h2
    cases h2 with
    | infinity => rfl
    | affine x y h => cases hz
  rw [e2]
  exact smul_eq hQ j k

/-! ### The curve with `a = 0` -/

/-- A root of unity of order 3 modulo the order of `SECP_256k1`. -/
def lambdaK1 : Int := 0x5363ad4cc05c30e0a5261c028812645a122e22ea20816678df02967c1b23bd72

/-- A root of unity of order 3 modulo the prime of `SECP_256k1`. -/
def betaK1 : Int := 0x7ae96a2b657c07106e64479eac3434e99cf0497512f58995c1396c28719501ee

private def coords (r : Py WPoint) : Option (Option Int × Option Int) :=
  match r with
  | .ok P => some (P.x, P.y)
  | .error _ => none

/-- One scalar multiplication of the generator. -/
private theorem lambda_checked :
    coords ((⟨SECP_256k1.instance 0, some SECP_256k1.xG, some SECP_256k1.yG⟩ : WPoint).mul lambdaK1) =
      some (some (betaK1 * SECP_256k1.xG % SECP_256k1.p), some SECP_256k1.yG) := by decide +kernel

private theorem k1_mem : SECP_256k1 ∈ primeOrderClasses := by simp [primeOrderClasses]

private theorem twisted : Twisted SECP_256k1 SECP_256k1 (betaK1 ^ 2) :=
  ⟨k1_mem, k1_mem, rfl, rfl, by decide +kernel, by decide +kernel, by decide +kernel⟩

/-- The point with the x-coordinate multiplied by `betaK1`. -/
def turn (P : WPoint) : WPoint := ⟨P.curve, P.x.map fun x => betaK1 * x % SECP_256k1.p, P.y⟩

private theorem rescale_eq (oid : Nat) (P : WPoint) (hP : ReducedPoint SECP_256k1 oid P) :
    rescale SECP_256k1.p (betaK1 ^ 2) (SECP_256k1.instance oid) P = turn P := by
  obtain ⟨c, px, py⟩ := P
  obtain ⟨rfl, -, hx, hy⟩ := hP
  simp only at hx hy
  have b1 : SECP_256k1.p ∣ (betaK1 ^ 2) ^ 2 - betaK1 := by decide +kernel
  have b2 : SECP_256k1.p ∣ (betaK1 ^ 2) ^ 3 - 1 := by decide +kernel
  have e1 : ∀ x, (betaK1 ^ 2) ^ 2 * x % SECP_256k1.p = betaK1 * x % SECP_256k1.p := fun x =>
    Int.emod_eq_emod_iff_emod_sub_eq_zero.mpr (Int.emod_eq_zero_of_dvd (by
      rw [← sub_mul]; exact Dvd.dvd.mul_right b1 x))
  have e2 : ∀ y, 0 ≤ y ∧ y < SECP_256k1.p → (betaK1 ^ 2) ^ 3 * y % SECP_256k1.p = y := fun y h => by
    conv_rhs => rw [← Int.emod_eq_of_lt h.1 h.2]
    refine Int.emod_eq_emod_iff_emod_sub_eq_zero.mpr (Int.emod_eq_zero_of_dvd ?_)
    have := Dvd.dvd.mul_right b2 y
    rwa [sub_mul, one_mul] at this
  have hx' : (px.map fun x => (betaK1 ^ 2) ^ 2 * x % SECP_256k1.p) = px.map fun x => betaK1 * x % SECP_256k1.p := by
    cases px with
    | none => rfl
    | some x => exact congrArg some (e1 x)
  have hy' : (py.map fun y => (betaK1 ^ 2) ^ 3 * y % SECP_256k1.p) = py := by
    cases py with
    | none => rfl
    | some y => exact congrArg some (e2 y (hy y rfl))
  simp only [rescale, turn, hx', hy']

private theorem gen_reduced (oid : Nat) : ∃ G, SECP_256k1.generator oid = .ok G ∧
    G = ⟨SECP_256k1.instance oid, some SECP_256k1.xG, some SECP_256k1.yG⟩ ∧ ReducedPoint SECP_256k1 oid G := by
  obtain ⟨-, -, -, -, -, -, -, -, -, -, -, -, -, -, hG, -⟩ := C95_parameters _ k1_mem
  obtain ⟨-, -, -, -, -, -, h1, h2, h3, h4, -⟩ := gen_facts k1_mem (hG oid)
  exact ⟨_, hG oid, rfl, h1, h2, h3, h4⟩

private theorem lambda_generator (oid : Nat) (G : WPoint) (hG : SECP_256k1.generator oid = .ok G) :
    G.mul lambdaK1 = .ok (turn G) := by
  obtain ⟨p, n, e1, e2, hp, -⟩ := C95_parameters _ k1_mem
  have : Fact p.Prime := ⟨hp⟩
  obtain ⟨G', h', rfl, hr⟩ := gen_reduced oid
  cases h'.symm.trans hG
  obtain ⟨G0, -, rfl, hr0⟩ := gen_reduced 0
  obtain ⟨g, hodd, Q, s, ho⟩ := reduced_stands k1_mem hr e1 e2
  obtain ⟨g0, -, -, -, -⟩ := reduced_stands k1_mem hr0 e1 e2
  have s0 : Stands (SECP_256k1.instance 0) p ⟨SECP_256k1.instance 0, some SECP_256k1.xG, some SECP_256k1.yG⟩ Q :=
    ⟨rfl, s.rep, s.red⟩
  obtain ⟨R0, r1, r2, -⟩ := mul_stands g0 s0 n e2 hodd ho lambdaK1
  obtain ⟨R, q1, q2, q3⟩ := mul_stands g s n e2 hodd ho lambdaK1
  have hc := lambda_checked
  rw [r1] at hc
  obtain ⟨c0, x0, y0⟩ := R0
  simp only [coords, Option.some.injEq, Prod.mk.injEq] at hc
  obtain ⟨rfl, rfl⟩ := hc
  have inr : ∀ {o : Option Int}, (∀ v, o = some v → 0 ≤ v ∧ v < SECP_256k1.p) → InRange p o := by
    intro o h v hv
    rw [← e1]
    exact h v hv
  have st : Stands (SECP_256k1.instance oid) p (turn ⟨SECP_256k1.instance oid, some SECP_256k1.xG, some SECP_256k1.yG⟩)
      (lambdaK1 • Q) := ⟨rfl, r2.rep, r2.red⟩
  rw [q1, stands_unique q2 st (q3 (inr hr.2.2.2)) (inr hr.2.2.2)]

/-- C141: on `SECP_256k1` the multiple by `lambdaK1` of any valid point costs one multiplication modulo `p`: it has the
same y-coordinate and `betaK1` times the x-coordinate. -/
theorem C141_lambda (oid : Nat) (P : WPoint) (hP : ReducedPoint SECP_256k1 oid P) :
    P.mul lambdaK1 = .ok (turn P) ∧ ReducedPoint SECP_256k1 oid (turn P) := by
  obtain ⟨G, hG, rfl, hr⟩ := gen_reduced oid
  have t := twisted_maps twisted oid oid P hP
  rw [rescale_eq oid P hP] at t
  refine ⟨?_, t.1⟩
  obtain ⟨k, hk⟩ := exists_multiple k1_mem hG hP.1 hP.2.1 hP.2.2.1 hP.2.2.2
  obtain ⟨S, m1, m2⟩ := (twisted_maps twisted oid oid _ hr).2.1 k
  obtain rfl : P = S := Except.ok.inj (hk.symm.trans m1)
  rw [rescale_eq oid _ hr, rescale_eq oid _ hP] at m2
  obtain ⟨R, d1, d2, -⟩ := C95_diffie_hellman _ k1_mem oid _ hr.1 hr.2.1 hr.2.2.1 hr.2.2.2 lambdaK1 k
  rw [hk] at d1
  rw [lambda_generator oid _ hG] at d2
  change P.mul lambdaK1 = _ at d1
  rw [d1]
  exact d2.symm.trans m2

private theorem lambda_facts : SECP_256k1.n ∣ lambdaK1 ^ 2 + lambdaK1 + 1 ∧ SECP_256k1.p ∣ betaK1 ^ 2 + betaK1 + 1 := by
  constructor <;> decide +kernel

private theorem same_y {c : WCurve} {p : Nat} [Fact p.Prime] (ha : c.a = 0) (hb : (p : Int) ∣ betaK1 ^ 2 + betaK1 + 1)
    (hp : SECP_256k1.p = p) {S T : WPoint} {U V : (wCurve p c.a c.b).Point}
    (s : Stands c p S U) (t : Stands c p T V) (h : S.y = T.y) : S = T ∨ S = turn T ∨ S = turn (turn T) := by
  obtain ⟨c1, px, py⟩ := S
  obtain ⟨c2, px', py'⟩ := T
  obtain ⟨h1, r, d⟩ := s
  obtain ⟨h2, r', d'⟩ := t
  simp only at r d r' d' h h1 h2
  subst h1 h2 h
  cases r with
  | infinity =>
    generalize hn : (none : Option Int) = o at r'
    cases r' with
    | infinity => exact .inl rfl
    | affine x' y' h' => cases hn
  | affine x y h =>
    generalize hn : some y = o at r'
    cases r' with
    | infinity => cases hn
    | affine x' y' h' =>
      obtain rfl := Option.some.inj hn
      have q1 := (Affine.equation_iff' ..).mp h.1
      have q2 := (Affine.equation_iff' ..).mp h'.1
      simp only [wCurve, ha, Int.cast_zero, zero_mul, add_zero] at q1 q2
      have hb' : (betaK1 : ZMod p) ^ 2 + betaK1 + 1 = 0 := by
        have := (ZMod.intCast_zmod_eq_zero_iff_dvd _ p).mpr hb
        push_cast at this
        exact this
      have key : ((x : ZMod p) - x') * ((x - betaK1 * x') * (x - betaK1 * (betaK1 * x'))) = 0 := by
        linear_combination q2 - q1 - (x' * x ^ 2 - betaK1 * x'^2 * x + x' ^ 3 * (betaK1 - 1)) * hb'
      have hp0 : (0 : Int) < p := by exact_mod_cast (Fact.out : p.Prime).pos
      have fin : ∀ w : Int, 0 ≤ w % p ∧ w % p < p := fun w =>
        ⟨Int.emod_nonneg _ hp0.ne', Int.emod_lt_of_pos _ hp0⟩
      simp only [turn, Option.map_some, hp]
      rcases mul_eq_zero.mp key with e | e
      · left
        rw [in_range_inj (d x rfl) (d' x' rfl) (sub_eq_zero.mp e)]
      · right
        rcases mul_eq_zero.mp e with e | e
        · left
          rw [in_range_inj (d x rfl) (fin (betaK1 * x')) (by
            rw [ZMod.intCast_mod]; push_cast; exact sub_eq_zero.mp e)]
        · right
          rw [in_range_inj (d x rfl) (fin (betaK1 * (betaK1 * x' % p))) (by
            rw [ZMod.intCast_mod]; push_cast; exact sub_eq_zero.mp e)]

/-- C141: on `SECP_256k1` the multiples `j * P` and `k * P` of a finite point have the same y-coordinate (or are both
infinite) exactly when `j` is `k`, `lambdaK1 * k` or `lambdaK1 ** 2 * k` modulo `n`. -/
theorem C141_same_y (oid : Nat) (P : WPoint) (hP : ReducedPoint SECP_256k1 oid P)
    (hfin : P ≠ (SECP_256k1.instance oid).identity) (j k : Int) :
    ∃ S T, P.mul j = .ok S ∧ P.mul k = .ok T ∧ (S.y = T.y ↔ SECP_256k1.n ∣ j - k ∨ SECP_256k1.n ∣ j - lambdaK1 * k ∨
      SECP_256k1.n ∣ j - lambdaK1 ^ 2 * k) := by
  obtain ⟨p, n, e1, e2, hp, -⟩ := C95_parameters _ k1_mem
  have : Fact p.Prime := ⟨hp⟩
  obtain ⟨g, hodd, Q, s, ho⟩ := reduced_stands k1_mem hP e1 e2
  obtain ⟨S, s1, s2, s3⟩ := mul_stands g s n e2 hodd ho j
  obtain ⟨T, t1, t2, t3⟩ := mul_stands g s n e2 hodd ho k
  have hy : InRange p P.y := fun v hv => by rw [← e1]; exact hP.2.2.2 v hv
  have red : ∀ {o : Option Int}, InRange p o → ∀ v, o = some v → 0 ≤ v ∧ v < SECP_256k1.p := by
    intro o h v hv
    rw [e1]
    exact h v hv
  have hS : ReducedPoint SECP_256k1 oid S := ⟨s2.curve, onCurve_of_stands g s2, red s2.red, red (s3 hy)⟩
  have hT : ReducedPoint SECP_256k1 oid T := ⟨t2.curve, onCurve_of_stands g t2, red t2.red, red (t3 hy)⟩
  have scal := C95_scalars_modulo_n _ k1_mem oid P hP.1 hP.2.1 hP.2.2.1 hP.2.2.2 hfin
  obtain ⟨l1, r1⟩ := C141_lambda oid T hT
  obtain ⟨l2, r2⟩ := C141_lambda oid _ r1
  have m1 : P.mul (lambdaK1 * k) = .ok (turn T) := by
    obtain ⟨R, d1, -, d3⟩ := C95_diffie_hellman _ k1_mem oid P hP.1 hP.2.1 hP.2.2.1 hP.2.2.2 lambdaK1 k
    rw [t1] at d1
    rw [d3, ← d1]
    exact l1
  have m2 : P.mul (lambdaK1 ^ 2 * k) = .ok (turn (turn T)) := by
    obtain ⟨R, d1, -, d3⟩ := C95_diffie_hellman _ k1_mem oid P hP.1 hP.2.1 hP.2.2.1 hP.2.2.2 lambdaK1 (lambdaK1 * k)
    rw [m1] at d1
    rw [show lambdaK1 ^ 2 * k = lambdaK1 * (lambdaK1 * k) by ring, d3, ← d1]
    exact l2
  refine ⟨S, T, s1, t1, ?_⟩
  rw [← scal, ← scal, ← scal, s1, t1, m1, m2]
  constructor
  · intro h
    rcases same_y rfl (e1 ▸ lambda_facts.2) e1 s2 t2 h with h | h | h
    · exact .inl (by rw [h])
    · exact .inr (.inl (by rw [← h]))
    · exact .inr (.inr (by rw [← h]))
  · rintro (h | h | h)
    · rw [Except.ok.inj h]
    · rw [Except.ok.inj h]; rfl
    · rw [Except.ok.inj h]; rfl

-- The generator is such a point, and the three scalars that share its y-coordinate are different.
example (oid : Nat) : ∃ G S T, SECP_256k1.generator oid = .ok G ∧ G.mul lambdaK1 = .ok S ∧ G.mul (lambdaK1 ^ 2) = .ok T ∧
    G.y = S.y ∧ S.y = T.y ∧ G.x ≠ S.x ∧ S.x ≠ T.x ∧ G.x ≠ T.x := by
  obtain ⟨G, hG, rfl, hr⟩ := gen_reduced oid
  obtain ⟨l1, r1⟩ := C141_lambda oid _ hr
  obtain ⟨l2, -⟩ := C141_lambda oid _ r1
  obtain ⟨R, d1, -, d3⟩ := C95_diffie_hellman _ k1_mem oid _ hr.1 hr.2.1 hr.2.2.1 hr.2.2.2 lambdaK1 lambdaK1
  rw [l1] at d1
  have h2 := d3.trans (d1.symm.trans l2)
  rw [← pow_two] at h2
  refine ⟨_, _, _, hG, l1, h2, rfl, rfl, ?_, ?_, ?_⟩ <;>
  · simp only [turn, Option.map_some, ne_eq, Option.some.injEq]
    decide +kernel

end Cryptopy
