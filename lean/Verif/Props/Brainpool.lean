import Verif.Props.Curves
import Verif.Lemmas.ScaleCurve
import Verif.Model.Brainpool
import Mathlib.FieldTheory.Finite.Basic

/-!
C118: the shipped Weierstrass curves resist the known transfers of the discrete logarithm to fields.  C119: the twisted
Brainpool curves are isomorphic to the random ones.
-/

namespace Cryptopy
open Cryptopy.Model Cryptopy.Spec WeierstrassCurve

/-! ### C118 -/

/-- None of `x p`, `x p²`, ..., `x pᵏ` is 1 modulo `n`. -/
private def notOne (p n : Nat) : Nat → Nat → Bool
  | 0, _ => true
  | k + 1, x =>
    match x * p % n with
    | 0 => false
    | 1 => false
    | y + 2 => notOne p n k (y + 2)

private theorem notOne_spec (p n : Nat) (k : Nat) : ∀ x, notOne p n k x = true → ∀ j, 1 ≤ j → j ≤ k → x * p ^ j % n ≠ 1 := by
  induction k with
  | zero => intro x _ j h1 h2; omega
  | succ k ih =>
    intro x h j h1 h2
    rw [notOne] at h
    split at h
    · cases h
    · cases h
    · next y hy =>
      obtain ⟨i, rfl⟩ : ∃ i, j = i + 1 := ⟨j - 1, by omega⟩
      have e : x * p ^ (i + 1) % n = (y + 2) * p ^ i % n := by
        rw [pow_succ', ← mul_assoc, ← Nat.mod_mul_mod, hy]
      rcases Nat.eq_zero_or_pos i with rfl | hi
      · rw [zero_add, pow_one, hy]; omega
      · rw [e]
        exact ih _ h i hi (by omega)

private theorem embedding_checked : primeOrderClasses.all (fun K => decide (1 < K.n.toNat) && decide (K.n ≠ K.p) &&
    decide ((K.p + 1 - K.n) % K.p ≠ 0) &&    notOne K.p.toNat K.n.toNat 1000 1) = true := by
  decide +kernel


/-- C118: for none of the Weierstrass curves with cofactor 1 can the group of points be moved to a smaller problem by a
homomorphism: the curve is not anomalous (`n ≠ p`) and every homomorphism to the additive group of GF(p) is trivial; it is
not supersingular (`p` does not divide the trace `p + 1 - n`); and every homomorphism to the multiplicative group of a
field with `p^k` elements, `k ≤ 1000`, is trivial. -/
theorem C118_no_transfer (K : WClass) (hK : K ∈ primeOrderClasses) (p : Nat) (hp : K.p = p) [Fact p.Prime] :
    K.n ≠ p ∧ ¬ (p : Int) ∣ p + 1 - K.n ∧
    (∀ f : (wCurve p K.a K.b).Point →+ ZMod p, ∀ Q, f Q = 0) ∧
    ∀ k, 1 ≤ k → k ≤ 1000 → ∀ (F : Type) [Field F] [Finite F], Nat.card F = p ^ k →
      ∀ f : Multiplicative (wCurve p K.a K.b).Point →* Fˣ, ∀ Q, f Q = 1 := by
  obtain ⟨p', n, e1, e2, -, h2, hn, -, -, -, -, -, -, -, -, hg⟩ := C95_parameters K hK
  obtain rfl : p' = p := by exact_mod_cast e1.symm.trans hp
  have hc := (hg inferInstance).1
  have hchk := List.all_eq_true.mp embedding_checked K hK
  simp only [Bool.and_eq_true, decide_eq_true_eq] at hchk
  obtain ⟨⟨⟨h1, hnp⟩, htr⟩, hno⟩ := hchk
  have en : K.n.toNat = n := by omega
  have ep : K.p.toNat = p' := by omega
  rw [en] at h1 hno
  rw [ep] at hno
  have hnp' : n ≠ p' := by
    rintro rfl
    exact hnp (e2.trans e1.symm)
  have hfin : Finite (wCurve p' K.a K.b).Point := Nat.finite_of_card_ne_zero (by rw [hc]; exact hn.ne_zero)
  have hnQ : ∀ Q : (wCurve p' K.a K.b).Point, n • Q = 0 := by
    intro Q
    rw [← hc]
    exact card_nsmul_eq_zero'
  refine ⟨by rw [e2]; exact_mod_cast hnp', ?_, ?_, ?_⟩
  · intro hd
    rw [e1] at htr
    exact htr (Int.emod_eq_zero_of_dvd hd)
  · intro f Q
    have h := congrArg f (hnQ Q)
    rw [map_nsmul, map_zero, nsmul_eq_mul] at h
    refine (mul_eq_zero.mp h).resolve_left ?_
    intro h0
    rw [ZMod.natCast_eq_zero_iff] at h0
    exact hnp' ((Nat.prime_dvd_prime_iff_eq Fact.out hn).mp h0).symm
  · intro k hk1 hk F _ _ hF f Q
    have hn1 : f Q ^ n = 1 := by
      rw [← map_pow]
      have : Q ^ n = Multiplicative.ofAdd (n • Q.toAdd) := rfl
      rw [this, hnQ]
      exact map_one f
    have hp1 : f Q ^ (p' ^ k - 1) = 1 := by
      have : Nat.card Fˣ = p' ^ k - 1 := by rw [Nat.card_units, hF]
      rw [← this]
      exact pow_card_eq_one'
    have hco : Nat.Coprime n (p' ^ k - 1) := by
      rw [hn.coprime_iff_not_dvd]
      intro hd
      have hpos : 1 ≤ p' ^ k := Nat.one_le_pow _ _ (Fact.out : p'.Prime).pos
      apply notOne_spec p' n 1000 1 hno k hk1 hk
      rw [one_mul]
      obtain ⟨c, hc⟩ := hd
      rw [show p' ^ k = 1 + n * c by omega, Nat.add_mul_mod_self_left, Nat.mod_eq_of_lt h1]
    have := Nat.dvd_gcd (orderOf_dvd_of_pow_eq_one hn1) (orderOf_dvd_of_pow_eq_one hp1)
    rw [hco.gcd_eq_one, Nat.dvd_one, orderOf_eq_one_iff] at this
    exact this

-- The prime field of SECP_256r1 itself, `k = 1`.
example : ∃ (p : Nat) (_ : Fact p.Prime), SECP_256r1.p = p ∧
    ∀ f : Multiplicative (wCurve p SECP_256r1.a SECP_256r1.b).Point →* (ZMod p)ˣ, ∀ Q, f Q = 1 := by
  have hK : SECP_256r1 ∈ primeOrderClasses := by simp [primeOrderClasses]
  obtain ⟨p, -, e1, -, hp, -⟩ := C95_parameters _ hK
  have : Fact p.Prime := ⟨hp⟩
  have : NeZero p := ⟨hp.ne_zero⟩
  exact ⟨p, inferInstance, e1, (C118_no_transfer _ hK p e1).2.2.2 1 (by decide) (by decide) (ZMod p) (by simp)⟩

/-! ### C119 -/

/-- `(x, y) ↦ (u² x, u³ y)` modulo `p` on coordinates, the point at infinity to itself. -/
def rescale (p u : Int) (c : WCurve) (P : WPoint) : WPoint :=
  ⟨c, P.x.map fun x => u ^ 2 * x % p, P.y.map fun y => u ^ 3 * y % p⟩

/-- A point of the object that `on_curve` accepts, with reduced coordinates. -/
def ReducedPoint (K : WClass) (oid : Nat) (P : WPoint) : Prop :=
  P.curve = K.instance oid ∧ (K.instance oid).onCurve P = .ok true ∧
    (∀ v, P.x = some v → 0 ≤ v ∧ v < K.p) ∧ ∀ v, P.y = some v → 0 ≤ v ∧ v < K.p

private theorem rescale_stands {p : Nat} [hpf : Fact p.Prime] {c c' : WCurve} {u : Int} (hu : (u : ZMod p) ≠ 0)
    (ha : (c'.a : ZMod p) = (u : ZMod p) ^ 4 * c.a) (hb : (c'.b : ZMod p) = (u : ZMod p) ^ 6 * c.b) {P : WPoint}
    {Q : (wCurve p c.a c.b).Point} (s : Stands c p P Q) :
    Stands c' p (rescale p u c' P) (scaleHom hu ha hb Q) ∧ InRange p (rescale p u c' P).y := by
  have hp : (0 : Int) < p := by exact_mod_cast hpf.out.pos
  have hr : ∀ v : Int, 0 ≤ v % p ∧ v % p < p := fun v => ⟨Int.emod_nonneg _ hp.ne', Int.emod_lt_of_pos _ hp⟩
  obtain ⟨c1, px, py⟩ := P
  obtain ⟨hc, r, d⟩ := s
  simp only at hc r d
  cases r with
  | infinity =>
    refine ⟨⟨rfl, ?_, ?_⟩, ?_⟩
    · exact .infinity
    · intro v hv; cases hv
    · intro v hv; cases hv
  | affine x y h =>
    refine ⟨⟨rfl, ?_, ?_⟩, ?_⟩
    · have e1 : (((u ^ 2 * x) % p : Int) : ZMod p) = (u : ZMod p) ^ 2 * x := by
        rw [ZMod.intCast_mod]; push_cast; rfl
      have e2 : (((u ^ 3 * y) % p : Int) : ZMod p) = (u : ZMod p) ^ 3 * y := by
        rw [ZMod.intCast_mod]; push_cast; rfl
      have h' : (wCurve p c'.a c'.b).Nonsingular (((u ^ 2 * x) % p : Int) : ZMod p) (((u ^ 3 * y) % p : Int) : ZMod p) := by
        rw [e1, e2]; exact scale_nonsing hu ha hb h
      have := Represents.affine _ _ h'
      rw [← point_some_congr (scale_nonsing hu ha hb h) e1.symm e2.symm h'] at this
      exact this
    · rintro v ⟨⟩; exact hr _
    · rintro v ⟨⟩; exact hr _

theorem reduced_stands {K : WClass} (hK : K ∈ primeOrderClasses) {oid : Nat} {P : WPoint}
    (h : ReducedPoint K oid P) {p n : Nat} [Fact p.Prime] (hp : K.p = p) (hn : K.n = n) :
    Good (K.instance oid) p ∧ n % 2 = 1 ∧ ∃ Q : (wCurve p K.a K.b).Point, Stands (K.instance oid) p P Q ∧
      (addOrderOf Q = n ∨ Q = 0) := by
  obtain ⟨p', n', e1, e2, hn', hn2, _, g, Q, s, ho⟩ := valid_stands hK h.1 h.2.1 h.2.2.1
  obtain rfl : p' = p := by exact_mod_cast e1.symm.trans hp
  obtain rfl : n' = n := by exact_mod_cast e2.symm.trans hn
  have : Fact n'.Prime := ⟨hn'⟩
  exact ⟨g, (hn'.eq_two_or_odd).resolve_left hn2, Q, s, or_iff_not_imp_right.mpr fun h => addOrderOf_eq_prime ho h⟩

/-- What is needed of two classes and a number `u`. -/
structure Twisted (R T : WClass) (u : Int) : Prop where
  hR : R ∈ primeOrderClasses
  hT : T ∈ primeOrderClasses
  ep : R.p = T.p
  en : R.n = T.n
  ha : R.p ∣ T.a - u ^ 4 * R.a
  hb : R.p ∣ T.b - u ^ 6 * R.b
  hu : ¬ R.p ∣ u

theorem twisted_maps {R T : WClass} {u : Int} (t : Twisted R T u) (oid oid' : Nat) (P : WPoint)
    (hP : ReducedPoint R oid P) :
    ReducedPoint T oid' (rescale R.p u (T.instance oid') P) ∧
    (∀ k : Int, ∃ S, P.mul k = .ok S ∧ (rescale R.p u (T.instance oid') P).mul k =
      .ok (rescale R.p u (T.instance oid') S)) ∧
    ∀ P2, ReducedPoint R oid P2 → ∃ S, P.add P2 = .ok S ∧
      (rescale R.p u (T.instance oid') P).add (rescale R.p u (T.instance oid') P2) =
        .ok (rescale R.p u (T.instance oid') S) := by
  obtain ⟨p, n, e1, e2, hp, h2, hn, hn2, -, hd, -⟩ := C95_parameters R t.hR
  have : Fact p.Prime := ⟨hp⟩
  have e1' : T.p = p := t.ep ▸ e1
  have e2' : T.n = n := t.en ▸ e2
  have hu : (u : ZMod p) ≠ 0 := fun h => t.hu (by rw [e1]; exact (ZMod.intCast_zmod_eq_zero_iff_dvd _ _).mp h)
  have ha : (T.a : ZMod p) = (u : ZMod p) ^ 4 * R.a := by
    have := (ZMod.intCast_zmod_eq_zero_iff_dvd _ p).mpr (e1 ▸ t.ha)
    push_cast at this
    linear_combination this
  have hb : (T.b : ZMod p) = (u : ZMod p) ^ 6 * R.b := by
    have := (ZMod.intCast_zmod_eq_zero_iff_dvd _ p).mpr (e1 ▸ t.hb)
    push_cast at this
    linear_combination this
  obtain ⟨g, hodd, Q, s, ho⟩ := reduced_stands t.hR hP e1 e2
  rw [e1]
  have gT : Good (T.instance oid') p := by
    obtain ⟨p', n', f1, f2, -, h2', -, -, -, hd', -⟩ := C95_parameters T t.hT
    obtain rfl : p' = p := by exact_mod_cast f1.symm.trans e1'
    exact ⟨f1, h2', hd'⟩
  have maps : ∀ {S : WPoint} {V : (wCurve p R.a R.b).Point}, Stands (R.instance oid) p S V →
      Stands (T.instance oid') p (rescale p u (T.instance oid') S) (scaleHom hu ha hb V) ∧
        InRange p (rescale p u (T.instance oid') S).y := fun st =>
    rescale_stands (c := R.instance oid) (c' := T.instance oid') hu ha hb st
  obtain ⟨s', y'⟩ := maps s
  have inr : ∀ {o : Option Int}, InRange p o → ∀ v, o = some v → 0 ≤ v ∧ v < T.p := by
    intro o h v hv
    rw [e1']
    exact h v hv
  have hyP : InRange p P.y := fun v hv => by rw [← e1]; exact hP.2.2.2 v hv
  refine ⟨⟨s'.curve, onCurve_of_stands gT s', inr s'.red, inr y'⟩, ?_, ?_⟩
  · intro k
    obtain ⟨S, m1, m2, m3⟩ := mul_stands g s n e2 hodd ho k
    have ho' : addOrderOf (scaleHom hu ha hb Q) = n ∨ scaleHom hu ha hb Q = 0 := by
      rcases ho with ho | ho
      · have : Fact n.Prime := ⟨hn⟩
        refine or_iff_not_imp_right.mpr fun h => addOrderOf_eq_prime ?_ h
        rw [← map_nsmul, ← ho, addOrderOf_nsmul_eq_zero, map_zero]
      · exact .inr (by rw [ho, map_zero])
    obtain ⟨S', m1', m2', m3'⟩ := mul_stands gT s' n e2' hodd ho' k
    obtain ⟨q1, q2⟩ := maps m2
    have hz : scaleHom hu ha hb (k • Q) = k • scaleHom hu ha hb Q := map_zsmul _ _ _
    have q1' : Stands (T.instance oid') p (rescale p u (T.instance oid') S)
        (k • scaleHom hu ha hb Q : (wCurve p T.a T.b).Point) := by
      rw [← hz]; exact q1
    exact ⟨S, m1, by rw [m1', stands_unique m2' q1' (m3' y') q2]⟩
  · intro P2 hP2
    obtain ⟨-, -, Q2, s2, -⟩ := reduced_stands t.hR hP2 e1 e2
    obtain ⟨s2', y2'⟩ := maps s2
    obtain ⟨S, m1, m2, m3, -⟩ := add_stands g s s2
    obtain ⟨S', m1', m2', m3', -⟩ := add_stands gT s' s2'
    obtain ⟨q1, q2⟩ := maps m2
    have hz : scaleHom hu ha hb (Q + Q2) = scaleHom hu ha hb Q + scaleHom hu ha hb Q2 := map_add _ _ _
    have q1' : Stands (T.instance oid') p (rescale p u (T.instance oid') S)
        (scaleHom hu ha hb Q + scaleHom hu ha hb Q2 : (wCurve p T.a T.b).Point) := by
      rw [← hz]; exact q1
    exact ⟨S, m1, by rw [m1', stands_unique m2' q1' (m3' y' y2') q2]⟩

private theorem rescale_rescale {p : Int} {u v : Int} (huv : p ∣ u * v - 1) {c c' : WCurve} {P : WPoint}
    (hc : P.curve = c) (hx : ∀ w, P.x = some w → 0 ≤ w ∧ w < p) (hy : ∀ w, P.y = some w → 0 ≤ w ∧ w < p) :
    rescale p v c (rescale p u c' P) = P := by
  obtain ⟨c1, px, py⟩ := P
  simp only at hc hx hy
  subst hc
  have key : ∀ (k : Nat) (w : Int), 0 ≤ w ∧ w < p → v ^ k * (u ^ k * w % p) % p = w := by
    intro k w hw
    have h1 : (v ^ k * (u ^ k * w % p)) % p = (v ^ k * (u ^ k * w)) % p := by
      rw [Int.mul_emod, Int.emod_emod_of_dvd _ (dvd_refl p), ← Int.mul_emod]
    have h2 : p ∣ v ^ k * (u ^ k * w) - w := by
      have : v ^ k * (u ^ k * w) - w = ((u * v) ^ k - 1 ^ k) * w := by rw [mul_pow]; ring
      rw [this]
      exact Dvd.dvd.mul_right (huv.trans (sub_dvd_pow_sub_pow _ _ _)) _
    rw [h1, Int.emod_eq_emod_iff_emod_sub_eq_zero.mpr (Int.emod_eq_zero_of_dvd h2), Int.emod_eq_of_lt hw.1 hw.2]
  rw [rescale, rescale]
  cases px with
  | none =>
    cases py with
    | none => rfl
    | some y => simp [key 3 y (hy y rfl)]
  | some x =>
    cases py with
    | none => simp [key 2 x (hx x rfl)]
    | some y => simp [key 2 x (hx x rfl), key 3 y (hy y rfl)]

private theorem Twisted.symm {R T : WClass} {u v : Int} (t : Twisted R T u) (huv : R.p ∣ u * v - 1) : Twisted T R v where
  hR := t.hT
  hT := t.hR
  ep := t.ep.symm
  en := t.en.symm
  ha := by
    rw [← t.ep, show R.a - v ^ 4 * T.a = -(R.a * ((u * v) ^ 4 - 1 ^ 4)) - v ^ 4 * (T.a - u ^ 4 * R.a) by ring]
    exact dvd_sub (dvd_neg.mpr (Dvd.dvd.mul_left (huv.trans (sub_dvd_pow_sub_pow _ _ _)) _)) (Dvd.dvd.mul_left t.ha _)
  hb := by
    rw [← t.ep, show R.b - v ^ 6 * T.b = -(R.b * ((u * v) ^ 6 - 1 ^ 6)) - v ^ 6 * (T.b - u ^ 6 * R.b) by ring]
    exact dvd_sub (dvd_neg.mpr (Dvd.dvd.mul_left (huv.trans (sub_dvd_pow_sub_pow _ _ _)) _)) (Dvd.dvd.mul_left t.hb _)
  hu := by
    rw [← t.ep]
    intro h
    obtain ⟨p, n, e1, e2, hp, -⟩ := C95_parameters R t.hR
    rw [e1] at h huv
    have : (p : Int) ∣ 1 := by
      have := dvd_sub (Dvd.dvd.mul_left h u) huv
      rwa [sub_sub_cancel] at this
    exact (Nat.prime_iff_prime_int.mp hp).not_isUnit (isUnit_of_dvd_one this)

/-- The number of RFC 5639 for the 256-bit curves, which `ecc/curves.py` leaves out. -/
private def zOf (z : Option Int) : Int := z.getD 0x3E2D4BD9597B58639AE7AA669CAB9837CF5CF20A2C852D10F655668DFC150EF0

private theorem twists_checked : brainpoolTwists.all (fun ⟨R, T, z⟩ => decide (R.p = T.p ∧ R.n = T.n ∧
    (T.a - zOf z ^ 4 * R.a) % R.p = 0 ∧ (T.b - zOf z ^ 6 * R.b) % R.p = 0 ∧ zOf z % R.p ≠ 0 ∧
    0 < zOf z ∧ zOf z < R.p ∧
    zOf z ^ 2 * R.xG % R.p = T.xG ∧ zOf z ^ 3 * R.yG % R.p = T.yG)) = true := by
  decide +kernel

private theorem twists_mem : ∀ e ∈ brainpoolTwists, e.1 ∈ primeOrderClasses ∧ e.2.1 ∈ primeOrderClasses := by
  intro e he
  simp only [brainpoolTwists, List.mem_cons, List.not_mem_nil, or_false] at he
  rcases he with rfl | rfl | rfl | rfl | rfl | rfl | rfl <;> simp [primeOrderClasses]

/-- C119: each twisted Brainpool curve is the random one in other coordinates.  With the recorded `z` (and for the 256-bit
curves with some number) the map `(x, y) ↦ (z² x, z³ y)` takes the generator to the generator, is a bijection between the
valid reduced points of the two curve objects, and commutes with what the library computes: sums and all scalar
multiples. -/
theorem C119_twist (R T : WClass) (z : Option Int) (h : (R, T, z) ∈ brainpoolTwists) :
    R.p = T.p ∧ R.n = T.n ∧ ∃ u : Int, 0 < u ∧ u < R.p ∧ (∀ v, z = some v → u = v) ∧
      (u ^ 2 * R.xG % R.p, u ^ 3 * R.yG % R.p) = (T.xG, T.yG) ∧ ∀ oid oid' : Nat,
      (∀ P, ReducedPoint R oid P → ReducedPoint T oid' (rescale R.p u (T.instance oid') P) ∧
        (∀ k : Int, ∃ S, P.mul k = .ok S ∧
          (rescale R.p u (T.instance oid') P).mul k = .ok (rescale R.p u (T.instance oid') S)) ∧
        ∀ P2, ReducedPoint R oid P2 → ∃ S, P.add P2 = .ok S ∧
          (rescale R.p u (T.instance oid') P).add (rescale R.p u (T.instance oid') P2) =
            .ok (rescale R.p u (T.instance oid') S)) ∧
      ∀ P', ReducedPoint T oid' P' → ∃ P, ReducedPoint R oid P ∧ rescale R.p u (T.instance oid') P = P' ∧
        ∀ P2, ReducedPoint R oid P2 → rescale R.p u (T.instance oid') P2 = P' → P2 = P := by
  have hc := List.all_eq_true.mp twists_checked _ h
  simp only [decide_eq_true_eq] at hc
  obtain ⟨ep, en, ha, hb, hu, hu0, hu1, hx, hy⟩ := hc
  have hm := twists_mem _ h
  have t : Twisted R T (zOf z) := ⟨hm.1, hm.2, ep, en, Int.dvd_of_emod_eq_zero ha, Int.dvd_of_emod_eq_zero hb,
    fun hd => hu (Int.emod_eq_zero_of_dvd hd)⟩
  refine ⟨ep, en, zOf z, hu0, hu1, fun v hv => by rw [hv]; rfl, by rw [hx, hy], fun oid oid' =>
    ⟨fun P hP => twisted_maps t oid oid' P hP, fun P' hP' => ?_⟩⟩
  obtain ⟨v, hv⟩ : ∃ v : Int, R.p ∣ zOf z * v - 1 := by
    obtain ⟨p, n, e1, e2, hp, -⟩ := C95_parameters R t.hR
    have : Fact p.Prime := ⟨hp⟩
    have hz : (zOf z : ZMod p) ≠ 0 := fun h => t.hu (by rw [e1]; exact (ZMod.intCast_zmod_eq_zero_iff_dvd _ _).mp h)
    refine ⟨((zOf z : ZMod p)⁻¹).val, ?_⟩
    rw [e1, ← ZMod.intCast_zmod_eq_zero_iff_dvd]
    push_cast
    rw [ZMod.natCast_zmod_val, mul_inv_cancel₀ hz, sub_self]
  have t' := t.symm hv
  obtain ⟨r1, -⟩ := twisted_maps t' oid' oid P' hP'
  rw [← ep] at r1
  have hv' : R.p ∣ v * zOf z - 1 := by rwa [mul_comm]
  refine ⟨_, r1, rescale_rescale hv' hP'.1 (by rw [ep]; exact hP'.2.2.1) (by rw [ep]; exact hP'.2.2.2), ?_⟩
  rintro P2 hP2 rfl
  exact (rescale_rescale hv hP2.1 hP2.2.2.1 hP2.2.2.2).symm

-- The generator is a reduced point of the curve.
example (oid : Nat) : ∃ G, BrainPoolP192r1.generator oid = .ok G ∧ ReducedPoint BrainPoolP192r1 oid G := by
  have hK : BrainPoolP192r1 ∈ primeOrderClasses := by simp [primeOrderClasses]
  obtain ⟨p, n, e1, -, -, -, -, -, -, -, x0, x1, y0, y1, hG, -⟩ := C95_parameters _ hK
  refine ⟨_, hG oid, rfl, ?_, ?_, ?_⟩
  · have h := hG oid
    rw [WClass.generator, WCurve.point] at h
    cases h1 : (BrainPoolP192r1.instance oid).onCurve
      ⟨BrainPoolP192r1.instance oid, some BrainPoolP192r1.xG, some BrainPoolP192r1.yG⟩ with
    | error e => rw [h1] at h; cases h
    | ok v =>
      rw [h1] at h
      cases v with
      | true => rfl
      | false => cases h
  · rintro v ⟨⟩; rw [e1]; exact ⟨x0, x1⟩
  · rintro v ⟨⟩; rw [e1]; exact ⟨y0.le, y1⟩

end Cryptopy
