import Verif.Lemmas.EdwardsCert1
import Verif.Lemmas.EdwardsCert2
import Verif.Lemmas.MontgomeryOrder
import Verif.Props.Edwards
import Verif.Props.Montgomery

/-!
C110: the Edwards and Montgomery curves of `ecc/curves.py`, and the last part of C108.
-/

namespace Cryptopy
open Model Spec WeierstrassCurve

set_option maxRecDepth 20000

private theorem toNat_eq {u : Int} (h : u.toNat.Prime) : u = (u.toNat : Int) := by
  rcases le_or_gt 0 u with h0 | h0
  · exact (Int.toNat_of_nonneg h0).symm
  · exact absurd h (by rw [Int.toNat_of_nonpos h0.le]; exact Nat.not_prime_zero)

/-- The check of `edOk` for the numbers of a class, with `n` as the order of the generator. -/
private def edChecks (K : EClass) (n : Int) (k r s rd z : Nat) : Bool :=
  Edwards.edOk K.p.toNat (K.d % K.p).toNat K.xG.toNat K.yG.toNat n.toNat k r s rd z && decide (K.a = 1) &&
    decide (0 ≤ K.xG) && decide (K.xG < K.p) && decide (0 ≤ K.yG) && decide (K.yG < K.p) &&
    decide (K.h = 2 ^ (k + 1))

private theorem ed_facts (K : EClass) (n : Int) (k r s rd z : Nat) (hp : K.p.toNat.Prime) (hn : n.toNat.Prime)
    (h : edChecks K n k r s rd z = true) :
    ∃ (p q : Nat) (_ : Fact p.Prime), K.p = p ∧ n = q ∧ q.Prime ∧ 0 ≤ K.xG ∧ K.xG < p ∧ 0 ≤ K.yG ∧ K.yG < p ∧
      ∃ E : Edwards (ZMod p), E.a = K.a ∧ E.d = K.d ∧ ∃ G : E.Point, G.x = K.xG ∧ G.y = K.yG ∧ addOrderOf G = q ∧
        (Nat.card E.Point : Int) = K.h * q := by
  simp only [edChecks, Bool.and_eq_true, decide_eq_true_eq] at h
  obtain ⟨⟨⟨⟨⟨⟨h1, h2⟩, h3⟩, h4⟩, h5⟩, h6⟩, h7⟩ := h
  have : Fact K.p.toNat.Prime := ⟨hp⟩
  obtain ⟨E, e1, e2, G, g1, g2, g3, g4⟩ := Edwards.of_edOk h1 hn
  have hpc := toNat_eq hp
  have hp0 : K.p ≠ 0 := by rw [hpc]; exact_mod_cast hp.ne_zero
  refine ⟨K.p.toNat, n.toNat, this, hpc, toNat_eq hn, hn, h3, hpc ▸ h4, h5, hpc ▸ h6, E, ?_, ?_, G, ?_, ?_, g3, ?_⟩
  · rw [e1, h2]; simp
  · rw [e2, ← Int.cast_natCast, Int.toNat_of_nonneg (Int.emod_nonneg _ hp0), ZMod.intCast_eq_intCast_iff,
      ← hpc]
    exact Int.mod_modEq _ _
  · rw [g1, ← Int.cast_natCast, Int.toNat_of_nonneg h3]
  · rw [g2, ← Int.cast_natCast, Int.toNat_of_nonneg h5]
  · rw [g4, h7]; push_cast; rfl

private theorem E382_checks : edChecks E382 E382.n 1
    0x1
    0x0
    0x17eea405ca856f3aefa98f74f04a4a612597e9a6c0d4ceb8e5db7e99a34ed76ac37bd4c396206bdc44700ed7dc521ed4
    0x967888717eab4c48580e295ff184859a31e45af814bf3c02671f42c6b4d636ec8f93576cb5b4aea2bb09d509382fd2 = true := by
  decide +kernel

private theorem Curve3617_checks : edChecks Curve3617 Curve3617.n 2
    0x1bb000907ec3b857bc73b6bb4fc2f6774eb90596794501a98da231c938af8e03d8da611977140345795a9f22305d477dbf2d6e21
    0x1bb000907ec3b857bc73b6bb4fc2f6774eb90596794501a98da231c938af8e03d8da611977140345795a9f22305d477dbf2d6e21
    0x107582daedccc0c7c3bcdc8ca4284a72912c3d3c2a3494b248b1929b18c2836602a15762a7f7cceea7cd4d7d39e09f080b944ef3
    0x3574b1bd89793657fc20847959277c6d300c6c9922435b750bd5656ea3af2c00e51f91a482cc281804650cb21254f4f4a2fecee9 = true := by
  decide +kernel

private theorem E521_checks : edChecks E521 E521.n 1
    0x1
    0x0
    0xd07656ee612ae602664f03a3b94a11539170515b2dab1a214d2aa70c5f8dac4db4b0312cb80cea27a5577f34829cd5d7c1584762281e21df700375d668ef98910e
    0x15615c53ef29512eb6d1863a9b2029d9b304be73b3cf49fccf5b2579f6f1cfef832862e097e080f71d7306e554c5da85dd9992bb2bff54a9a4e5a1d418d3e37e66f = true := by
  decide +kernel

private theorem GOSTmsg05975te_checks : edChecks GOSTmsg05975te GOSTmsg05975te_q 1
    0x1
    0x0
    0x96d6321ed51ee4b67c14cf30505a095e693275849594accce0c53bfd3d52fc71ea54e0c5e8358de58e8e508850113c0b51c5fe83bbc1eeca7c4774dacaca7ec5
    0xaeafa1fd571347de54a11316505cc9610a7a75c57ef11c55d6568eb264b336bd089a3cf80b52991c98daab86b404ce323fbb3b58111468d59e21958bf3d9df7b = true := by
  decide +kernel

/-- C110: for E382, Curve3617 and E521 `p` and `n` are prime, and the generator is a point of order `n` of a complete
Edwards curve with the `a` and `d` of the class, whose number of points is `h * n`. -/
theorem C110_edwards (K : EClass) (hK : K ∈ [E382, Curve3617, E521]) :
    ∃ (p q : Nat) (_ : Fact p.Prime), K.p = p ∧ K.n = q ∧ q.Prime ∧ 0 ≤ K.xG ∧ K.xG < p ∧ 0 ≤ K.yG ∧ K.yG < p ∧
      ∃ E : Edwards (ZMod p), E.a = K.a ∧ E.d = K.d ∧ ∃ G : E.Point, G.x = K.xG ∧ G.y = K.yG ∧ addOrderOf G = q ∧
        (Nat.card E.Point : Int) = K.h * q := by
  simp only [List.mem_cons, List.not_mem_nil, or_false] at hK
  rcases hK with rfl | rfl | rfl
  · exact ed_facts _ _ _ _ _ _ _ E382_p_prime E382_n_prime E382_checks
  · exact ed_facts _ _ _ _ _ _ _ Curve3617_p_prime Curve3617_n_prime Curve3617_checks
  · exact ed_facts _ _ _ _ _ _ _ E521_p_prime E521_n_prime E521_checks
example := C110_edwards Curve3617 (by simp)

/-- C110: for GOSTmsg05975te the same holds with the attribute `q` as the order; the attribute `n` is neither the
order nor a multiple of it. -/
theorem C110_gost :
    (∃ (p q : Nat) (_ : Fact p.Prime), GOSTmsg05975te.p = p ∧ GOSTmsg05975te_q = q ∧ q.Prime ∧
      0 ≤ GOSTmsg05975te.xG ∧ GOSTmsg05975te.xG < p ∧ 0 ≤ GOSTmsg05975te.yG ∧ GOSTmsg05975te.yG < p ∧
      ∃ E : Edwards (ZMod p), E.a = GOSTmsg05975te.a ∧ E.d = GOSTmsg05975te.d ∧ ∃ G : E.Point,
        G.x = GOSTmsg05975te.xG ∧ G.y = GOSTmsg05975te.yG ∧ addOrderOf G = q ∧ GOSTmsg05975te.n • G ≠ 0 ∧
        (Nat.card E.Point : Int) = GOSTmsg05975te.h * q) := by
  obtain ⟨p, q, hp, h1, h2, h3, h4, h5, h6, h7, E, e1, e2, G, g1, g2, g3, g4⟩ :=
    ed_facts GOSTmsg05975te GOSTmsg05975te_q _ _ _ _ _ GOSTmsg05975te_p_prime GOSTmsg05975te_n_prime
      GOSTmsg05975te_checks
  refine ⟨p, q, hp, h1, h2, h3, h4, h5, h6, h7, E, e1, e2, G, g1, g2, g3, ?_, g4⟩
  rw [Ne, ← addOrderOf_dvd_iff_zsmul_eq_zero, g3, ← h2]
  decide +kernel

private theorem Curve25519_ok : MOrder.mOk Curve25519.p.toNat 486662 Curve25519.xG.toNat Curve25519.yG.toNat Curve25519.n.toNat
    0xb8495f16056286fdb1329ceb8d09da6ac49ff1fae35616aeb8413b7c7aebe0
    0x46ce3ed6a9617c5ad6b7d3eb19d74ba86cc403d6127fe4b29778eb7c6daf84d3 = true := by
  decide +kernel

private theorem M383_ok : MOrder.mOk M383.p.toNat 2065150 M383.xG.toNat M383.yG.toNat M383.n.toNat
    0x6496205d9f683636df07c2275940ad63ca57a38d5a8fbf0b1e9dc8b850cfb16f25fdd095debed2f5005b0712e6d906ba
    0x7d26aaed7152d4fc06026743fa2bc8eeb11220bf76692373d3201c40d5e3d583185a8187fcba76614f7e848f9b7c4581 = true := by
  decide +kernel

private theorem m_facts (K : MClass) (a r s : Nat) (hp : K.p.toNat.Prime) (hn : K.n.toNat.Prime)
    (h : MOrder.mOk K.p.toNat a K.xG.toNat K.yG.toNat K.n.toNat r s = true) (ha : K.a = some (a : Int))
    (hr : 0 ≤ K.xG ∧ K.xG < K.p ∧ 0 ≤ K.yG ∧ K.yG < K.p ∧ K.h = 8) :
    ∃ (p n : Nat) (_ : Fact p.Prime) (a : Int), K.p = p ∧ K.n = n ∧ n.Prime ∧ K.a = some a ∧ p ≠ 2 ∧
      ¬ a ^ 2 ≡ 4 [ZMOD p] ∧ 0 ≤ K.xG ∧ K.xG < p ∧ 0 ≤ K.yG ∧ K.yG < p ∧ K.generator = .ok (K.xG, K.yG) ∧
      ∃ ns : (mCurve p a).Nonsingular (K.xG : ZMod p) (K.yG : ZMod p),
        addOrderOf (Affine.Point.some _ _ ns) = n ∧ (Nat.card (mCurve p a).Point : Int) = K.h * n := by
  have : Fact K.p.toNat.Prime := ⟨hp⟩
  obtain ⟨k1, k2, ns, k3, k4⟩ := MOrder.of_mOk h hn
  have hpc := toNat_eq hp
  have ex : ((K.xG.toNat : Nat) : ZMod K.p.toNat) = (K.xG : ZMod K.p.toNat) := by
    rw [← Int.cast_natCast, Int.toNat_of_nonneg hr.1]
  have ey : ((K.yG.toNat : Nat) : ZMod K.p.toNat) = (K.yG : ZMod K.p.toNat) := by
    rw [← Int.cast_natCast, Int.toNat_of_nonneg hr.2.2.1]
  have gen : ∀ (X Y : ZMod K.p.toNat) (ns : (mCurve K.p.toNat a).Nonsingular X Y),
      X = K.xG → Y = K.yG → addOrderOf (Affine.Point.some _ _ ns) = K.n.toNat →
      ∃ ns : (mCurve K.p.toNat a).Nonsingular (K.xG : ZMod K.p.toNat) (K.yG : ZMod K.p.toNat),
        addOrderOf (Affine.Point.some _ _ ns) = K.n.toNat := by
    rintro X Y ns rfl rfl h
    exact ⟨ns, h⟩
  obtain ⟨ns, h3⟩ := gen _ _ ns ex ey k3
  refine ⟨K.p.toNat, K.n.toNat, this, a, hpc, toNat_eq hn, hn, ha, k1, k2, hr.1, hpc ▸ hr.2.1, hr.2.2.1,
    hpc ▸ hr.2.2.2.1, ?_, ns, h3, ?_⟩
  · have hon : K.curve.onCurve K.xG K.yG = .ok true := by
      rw [m_onCurve (p := K.p.toNat) K.curve ha hpc]
      have := (mCurve_equation (p := K.p.toNat) _ _).mp ns.1
      rw [decide_eq_true (by simpa using this)]
    rw [MClass.generator, MCurve.point, hon]
    rfl
  · rw [k4, hr.2.2.2.2]; push_cast; rfl

/-- C110: for Curve25519 and M383 `p` and `n` are prime and `a² ≢ 4`, as C106 and C107 need; the generator is accepted
and is a point of order `n` of a curve with `h * n` points. -/
theorem C110_montgomery (K : MClass) (hK : K ∈ [Curve25519, M383]) :
    ∃ (p n : Nat) (_ : Fact p.Prime) (a : Int), K.p = p ∧ K.n = n ∧ n.Prime ∧ K.a = some a ∧ p ≠ 2 ∧
      ¬ a ^ 2 ≡ 4 [ZMOD p] ∧ 0 ≤ K.xG ∧ K.xG < p ∧ 0 ≤ K.yG ∧ K.yG < p ∧ K.generator = .ok (K.xG, K.yG) ∧
      ∃ ns : (mCurve p a).Nonsingular (K.xG : ZMod p) (K.yG : ZMod p),
        addOrderOf (Affine.Point.some _ _ ns) = n ∧ (Nat.card (mCurve p a).Point : Int) = K.h * n := by
  simp only [List.mem_cons, List.not_mem_nil, or_false] at hK
  rcases hK with rfl | rfl
  · exact m_facts _ 486662 _ _ Curve25519_p_prime Curve25519_n_prime Curve25519_ok rfl (by decide +kernel)
  · exact m_facts _ 2065150 _ _ M383_p_prime M383_n_prime M383_ok rfl (by decide +kernel)
example := C110_montgomery M383 (by simp)

/-- C110: M511 has a prime `p` and a prime `n` but no `a`: every pair of coordinates, the generator among them, raises
`AttributeError`. -/
theorem C110_m511 : M511.p.toNat.Prime ∧ M511.n.toNat.Prime ∧ M511.generator = .error .attribute ∧
    ∀ x y, M511.curve.point x y = .error .attribute :=
  ⟨M511_p_prime, M511_n_prime, rfl, fun _ _ => rfl⟩

/-- C108: the equation of Ed25519, with `d = 1` where the curve has `-121665/121666`, is that of four lines; its
generator, which has the coordinates of that of Curve25519, is on none of them. -/
theorem C108_ed25519 (x y : Int) :
    (Ed25519.a * x ^ 2 + y ^ 2 ≡ 1 + Ed25519.d * x ^ 2 * y ^ 2 [ZMOD Ed25519.p] ↔
      x ≡ 1 [ZMOD Ed25519.p] ∨ x ≡ -1 [ZMOD Ed25519.p] ∨ y ≡ 1 [ZMOD Ed25519.p] ∨ y ≡ -1 [ZMOD Ed25519.p]) ∧
    Ed25519.p = Curve25519.p ∧ Ed25519.xG = Curve25519.xG ∧ Ed25519.yG = Curve25519.yG := by
  refine ⟨?_, rfl, rfl, rfl⟩
  have : Fact Curve25519.p.toNat.Prime := ⟨Curve25519_p_prime⟩
  have h := four_lines (p := Curve25519.p.toNat) x y
  rw [← toNat_eq Curve25519_p_prime] at h
  exact h

end Cryptopy
