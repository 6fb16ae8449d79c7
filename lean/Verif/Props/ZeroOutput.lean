import Verif.Props.LowOrder
import Verif.Lemmas.Twist
import Verif.Lemmas.CurveCheck

/-!
C114: the inputs on which X25519 gives the all-zero value.
-/

namespace Cryptopy
open Model Spec WeierstrassCurve XOnly Twist Cryptopy.Ecpp

/-- Four times this is the number of points of the quadratic twist of Curve25519. -/
private def twistN : Nat := 2 ^ 253 - 55484635554744707071703875581767296995

private def twist_chain : List (Nat × Nat × Nat × Nat × Nat) := [
  (0x1fffffffffffffffffffffffffffffffd6420c42ba10c6534fdb39cb4614581d, 0x8ceaa469480656cb10637adab20bcd7d93ca13b73cf61e02c7de73063d604b3, 0x0,
    0x11e3c46cb22cfd19512a9986348aa571f7c18ce9c08624afcecb5b55293e21f, 0x8f358f803c220e81162c07432d51baa1ec9a726bf2f6bbc19afb4b1019bbee3),
  (0x6cbbcd31bb62dc87b5f53f053a0c2577fa0fd7bb4202ae96c4ded5dcd, 0x0, 0x1e1afae49dbbd918bd6f778ccc76c3b74eadae3104ad5fe83ddfaec9,
    0x15330e7335971c0f053814aa491f763a435215adac551adf9cadddd5f, 0x5b2995f7e20c2ddcb81576732c30e640d73713a7e0c46cf7449788c55),
  (0x26e3fef515508b6f3c7f24ef696a8293fcf9504eab1c21b94b7f, 0x0, 0x10440385717fd6b899217365c2df3a17806a75ed0a1db8894744,
    0x5f61e3e854182ef627715cac5b45cb3561617ad68f14b2f7cb0, 0x240a4bab3e172656f484028e50826d7f0d8df1214592d0a9641c),
  (0x518d6af69ef335a65ff4486960ba2a238f8e80f63feacf, 0x0, 0x354e75fb8cebc60623479c2932c130c2d71bd78287e02d,
    0x4b8ddf21db204b1787145b6358e304bcbfae92659c448e, 0x3b54bf91d17b2e0d8544cc3a32f4f3a7f24249b2f189fb),
  (0x1f97da26db52912611b54924fe993ffd833b7d857, 0x0, 0x50196636fafbb68d0894ad6e25993f21cff76ebd,
    0xfbdcab6c7735bd28fbe0a8584d248922bb7d7346, 0x1a6630912b66bd0bd944fe3059a57beaaf1359f35),
  (0x4eb70c0166bd5e8ad9d272b65f05493, 0x0, 0x12e9164f5342692edb3b1ca01fb7fd5,
    0x41892437e7c01cd5bc30ca9ca12d1ee, 0x337e7973bc2d1b457fc57ae725dc8ea),
  (0x441b9af3e37072f1f, 0x0, 0x31d7d69b10a6befeb,
    0x3c90a98d3c8045dc8, 0x97eb2f8a0882b972),
  (0x1f39116091, 0x0, 0x154577bd7e,
    0x53d0fec3d, 0x1091ab99ee),
  (0xa31fc3d7, 0x0, 0x79544d8a,
    0x61858d9d, 0x6d2ba21d)]

set_option maxRecDepth 20000 in
private theorem twistN_prime : Nat.Prime twistN :=
  prime_of_chain_eq 165001 twist_chain (by decide +kernel) (by decide +kernel)

/-! ### Points of order dividing 8 -/

section field
variable {F : Type} [Field F]

private theorem shuffle (A B C D E : Prop) : ((D ∨ E) ∨ (B ∨ C) ∨ A) ↔ (A ∨ B ∨ C ∨ D ∨ E) := by tauto

private theorem quad_ne {a : F} (hns : ¬ IsSquare (a ^ 2 - 4)) {X Z : F} (h : X ≠ 0 ∨ Z ≠ 0) :
    X ^ 2 + a * X * Z + Z ^ 2 ≠ 0 := by
  intro h0
  by_cases hZ : Z = 0
  · rw [hZ] at h0
    simp only [mul_zero, add_zero, ne_eq, OfNat.ofNat_ne_zero, not_false_eq_true, zero_pow] at h0
    exact h.elim (fun h => h (by simpa using h0)) (fun h => h hZ)
  · apply hns
    refine ⟨(2 * X + a * Z) / Z, ?_⟩
    field_simp
    linear_combination 4 * (-h0)

private theorem eight_iff {a r c1 c2 : F} (h2 : (2 : F) ≠ 0) (hns : ¬ IsSquare (a ^ 2 - 4)) (hns2 : ¬ IsSquare (2 - a))
    (hns3 : ¬ IsSquare ((2 - 2 * r) ^ 2 - 4)) (hr : r ^ 2 = a + 2) (hs : c1 + c2 = 2 + 2 * r) (hc : c1 * c2 = 1)
    {x X2 Z2 X4 Z4 : F} (e1 : X2 = (x ^ 2 - 1) ^ 2) (e2 : Z2 = 4 * x * (x ^ 2 + a * x + 1))
    (e3 : X4 = (X2 ^ 2 - Z2 ^ 2) ^ 2) (e4 : Z4 = 4 * X2 * Z2 * (X2 ^ 2 + a * X2 * Z2 + Z2 ^ 2))
    (n2 : X2 ≠ 0 ∨ Z2 ≠ 0) (n4 : X4 ≠ 0 ∨ Z4 ≠ 0) :
    4 * X4 * Z4 * (X4 ^ 2 + a * X4 * Z4 + Z4 ^ 2) = 0 ↔ x = 0 ∨ x = 1 ∨ x = -1 ∨ x = c1 ∨ x = c2 := by
  have h4 : (4 : F) ≠ 0 := by
    rw [show (4 : F) = 2 * 2 by norm_num]; exact mul_ne_zero h2 h2
  have q1 : x ^ 2 + a * x + 1 ≠ 0 := by
    have := quad_ne hns (X := x) (Z := 1) (.inr one_ne_zero)
    simpa using this
  have key : 4 * X4 * Z4 * (X4 ^ 2 + a * X4 * Z4 + Z4 ^ 2) = 0 ↔ X4 = 0 ∨ Z4 = 0 := by
    have := quad_ne hns n4
    simp [h4, this]
  have kZ4 : Z4 = 0 ↔ X2 = 0 ∨ Z2 = 0 := by
    have := quad_ne hns n2
    rw [e4]
    simp [h4, this]
  have kZ2 : Z2 = 0 ↔ x = 0 := by
    rw [e2]
    simp [h4, q1]
  have kX2 : X2 = 0 ↔ x = 1 ∨ x = -1 := by
    rw [e1, pow_eq_zero_iff two_ne_zero, show x ^ 2 - 1 = (x - 1) * (x + 1) by ring, mul_eq_zero, sub_eq_zero,
      ← sub_neg_eq_add, sub_eq_zero]
  have kX4 : X4 = 0 ↔ x = c1 ∨ x = c2 := by
    have f1 : X2 - Z2 = (x - c1) * (x - c2) * (x ^ 2 - (2 - 2 * r) * x + 1) := by
      have : (x - c1) * (x - c2) = x ^ 2 - (2 + 2 * r) * x + 1 := by linear_combination hc - x * hs
      rw [this, e1, e2]
      linear_combination 4 * x ^ 2 * hr
    have f2 : x ^ 2 - (2 - 2 * r) * x + 1 ≠ 0 := by
      intro h0
      apply hns3
      exact ⟨2 * x - (2 - 2 * r), by linear_combination -4 * h0⟩
    have f3 : X2 + Z2 ≠ 0 := by
      intro h0
      have h1 : (x + 1) ^ 4 = (2 - a) * (2 * x) ^ 2 := by
        rw [e1, e2] at h0
        linear_combination h0
      have hx : x ≠ 0 := by
        rintro rfl
        norm_num at h1
      apply hns2
      refine ⟨(x + 1) ^ 2 / (2 * x), ?_⟩
      field_simp
      linear_combination -h1
    rw [e3, pow_eq_zero_iff two_ne_zero, show X2 ^ 2 - Z2 ^ 2 = (X2 - Z2) * (X2 + Z2) by ring, mul_eq_zero,
      or_iff_left f3, f1, mul_eq_zero, or_iff_left f2, mul_eq_zero, sub_eq_zero, sub_eq_zero]
  rw [key, kZ4, kZ2, kX2, kX4]
  exact shuffle _ _ _ _ _

private theorem xrep_zero_iff [DecidableEq F] {W : Affine F} {X Z : F} {R : W.Point} (h : XRep X Z R) :
    R = 0 ↔ Z = 0 := by
  cases R with
  | zero => exact ⟨fun _ => (xrep_zero.mp h).1, fun _ => rfl⟩
  | some x y n =>
    have := (xrep_some.mp h).1
    exact ⟨fun e => absurd e (Affine.Point.some_ne_zero _), fun e => absurd e this⟩

private theorem xrep_ne [DecidableEq F] {W : Affine F} {X Z : F} {R : W.Point} (h : XRep X Z R) : X ≠ 0 ∨ Z ≠ 0 := by
  cases R with
  | zero => exact .inl (xrep_zero.mp h).2
  | some x y n => exact .inr (xrep_some.mp h).1

end field

section closure
variable {p : Nat} [hpf : Fact p.Prime]

private theorem eight_smul {a x r c1 c2 : Int} (h2p : p ≠ 2) (ha : ¬ a ^ 2 ≡ 4 [ZMOD p])
    (hns : ¬ IsSquare ((a : ZMod p) ^ 2 - 4)) (hns2 : ¬ IsSquare (2 - (a : ZMod p)))
    (hns3 : ¬ IsSquare ((2 - 2 * (r : ZMod p)) ^ 2 - 4)) (hr : (r : ZMod p) ^ 2 = a + 2)
    (hs : (c1 : ZMod p) + c2 = 2 + 2 * r) (hc : (c1 : ZMod p) * c2 = 1)
    (y : Cl p) (n : (mCurveOver (Cl p) a).Nonsingular (x : Cl p) y) :
    8 • Affine.Point.some _ _ n = 0 ↔
      (x : ZMod p) = 0 ∨ (x : ZMod p) = 1 ∨ (x : ZMod p) = -1 ∨ (x : ZMod p) = c1 ∨ (x : ZMod p) = c2 := by
  have h2 : (2 : Cl p) ≠ 0 := two_ne_zero_char h2p
  have ha' : (a : Cl p) ^ 2 ≠ 4 := cast_ne ha
  have r1 : XRep (x : Cl p) 1 (Affine.Point.some _ _ n) := xrep_some.mpr ⟨one_ne_zero, (mul_one _).symm⟩
  generalize Affine.Point.some _ _ n = P at *
  have r2 := xrep_mdouble rfl rfl rfl rfl h2 ha' r1
  obtain ⟨X2, e1⟩ : ∃ X2, X2 = ((x : ZMod p) ^ 2 - 1) ^ 2 := ⟨_, rfl⟩
  obtain ⟨Z2, e2⟩ : ∃ Z2, Z2 = 4 * (x : ZMod p) * ((x : ZMod p) ^ 2 + a * x + 1) := ⟨_, rfl⟩
  obtain ⟨X4, e3⟩ : ∃ X4, X4 = (X2 ^ 2 - Z2 ^ 2) ^ 2 := ⟨_, rfl⟩
  obtain ⟨Z4, e4⟩ : ∃ Z4, Z4 = 4 * X2 * Z2 * (X2 ^ 2 + a * X2 * Z2 + Z2 ^ 2) := ⟨_, rfl⟩
  have c1' : algebraMap (ZMod p) (Cl p) X2 = ((x : Cl p) ^ 2 - 1 ^ 2) ^ 2 := by
    rw [e1]; simp only [map_pow, map_sub, map_intCast, map_one, one_pow]
  have c2' : algebraMap (ZMod p) (Cl p) Z2 = 4 * (x : Cl p) * 1 * ((x : Cl p) ^ 2 + a * x * 1 + 1 ^ 2) := by
    rw [e2]; simp only [map_mul, map_add, map_pow, map_intCast, map_one, map_ofNat, mul_one, one_pow]
  have c3' : algebraMap (ZMod p) (Cl p) X4 =
      (algebraMap (ZMod p) (Cl p) X2 ^ 2 - algebraMap (ZMod p) (Cl p) Z2 ^ 2) ^ 2 := by
    rw [e3]; simp only [map_pow, map_sub]
  have c4' : algebraMap (ZMod p) (Cl p) Z4 = 4 * algebraMap (ZMod p) (Cl p) X2 * algebraMap (ZMod p) (Cl p) Z2 *
      (algebraMap (ZMod p) (Cl p) X2 ^ 2 + a * algebraMap (ZMod p) (Cl p) X2 * algebraMap (ZMod p) (Cl p) Z2 +
        algebraMap (ZMod p) (Cl p) Z2 ^ 2) := by
    rw [e4]; simp only [map_mul, map_add, map_pow, map_intCast, map_ofNat]
  have r2' : XRep (algebraMap (ZMod p) (Cl p) X2) (algebraMap (ZMod p) (Cl p) Z2) (P + P) := by
    rw [c1', c2']; exact r2
  have r4 : XRep (algebraMap (ZMod p) (Cl p) X4) (algebraMap (ZMod p) (Cl p) Z4) (P + P + (P + P)) := by
    rw [c3', c4']; exact xrep_mdouble rfl rfl rfl rfl h2 ha' r2'
  have r8 : XRep ((algebraMap (ZMod p) (Cl p) X4 ^ 2 - algebraMap (ZMod p) (Cl p) Z4 ^ 2) ^ 2)
      (algebraMap (ZMod p) (Cl p) (4 * X4 * Z4 * (X4 ^ 2 + a * X4 * Z4 + Z4 ^ 2)))
      (P + P + (P + P) + (P + P + (P + P))) := by
    simp only [map_mul, map_add, map_pow, map_intCast, map_ofNat]
    exact xrep_mdouble rfl rfl rfl rfl h2 ha' r4
  have n2 : X2 ≠ 0 ∨ Z2 ≠ 0 := by
    have := xrep_ne r2'
    rwa [map_ne_zero, map_ne_zero] at this
  have n4 : X4 ≠ 0 ∨ Z4 ≠ 0 := by
    have := xrep_ne r4
    rwa [map_ne_zero, map_ne_zero] at this
  have e8 : 8 • P = P + P + (P + P) + (P + P + (P + P)) := by abel
  rw [e8, xrep_zero_iff r8, map_eq_zero, eight_iff (two_ne_zero_zmod h2p) hns hns2 hns3 hr hs hc e1 e2 e3 e4 n2 n4]

private theorem xOrZero_zero {F : Type} [Field F] [DecidableEq F] {a : Int} (R : (mCurveOver F a).Point) (h : xOrZero R = 0) : 2 • R = 0 := by
  cases R with
  | zero => rfl
  | some x y n =>
    change x = 0 at h
    subst h
    have e := equation_over n
    have hy : y = 0 := by simpa using e
    rw [two_nsmul]
    refine Affine.Point.add_of_Y_eq rfl ?_
    rw [XOnly.negY_eq rfl rfl, hy, neg_zero]

private theorem kill_int {a x : Int} (h2p : p ≠ 2) (ha : ¬ a ^ 2 ≡ 4 [ZMOD p]) (y : Cl p)
    (n : (mCurveOver (Cl p) a).Nonsingular (x : Cl p) y) :
    Nat.card (mCurve p a).Point • Affine.Point.some _ _ n = 0 ∨
      (2 * p + 2 - Nat.card (mCurve p a).Point) • Affine.Point.some _ _ n = 0 := by
  have hx : algebraMap (ZMod p) (Cl p) x = (x : Cl p) := map_intCast _ _
  generalize (x : Cl p) = X at *
  subst hx
  exact kill h2p ha _ y n

private theorem nonsquare (d : Nat) (h2p : p ≠ 2) (h : Cert.powMod (p.size) d (p / 2) p 1 = p - 1) :
    ¬ IsSquare (d : ZMod p) := by
  rintro ⟨w, hw⟩
  have hp := hpf.out.two_le
  have hodd : p % 2 = 1 := hpf.out.eq_two_or_odd.resolve_left h2p
  have e := Cert.powMod_zmod p.size d (p / 2) p (lt_of_le_of_lt (Nat.div_le_self _ _) (Nat.lt_size_self p))
  rw [h, Nat.cast_sub (by omega), hw, ← pow_two, ← pow_mul] at e
  simp only [CharP.cast_eq_zero, Nat.cast_one, zero_sub] at e
  rw [show 2 * (p / 2) = p - 1 by omega] at e
  by_cases hw0 : w = 0
  · rw [hw0, zero_pow (by omega), neg_eq_zero] at e
    exact one_ne_zero e
  · rw [ZMod.pow_card_sub_one_eq_one hw0] at e
    have h2 := two_ne_zero_zmod (p := p) h2p
    exact h2 (by linear_combination -e)

end closure

private theorem v0 : ((2 ^ 255 - 20 : Int) : ZMod (2 ^ 255 - 19)) = -1 := by decide +kernel
private theorem v1 : (((486662 ^ 2 - 4 : Nat)) : ZMod (2 ^ 255 - 19)) = ((486662 : Int) : ZMod (2 ^ 255 - 19)) ^ 2 - 4 := by decide +kernel
private theorem v2 : (((2 ^ 255 - 19 + 2 - 486662 : Nat)) : ZMod (2 ^ 255 - 19)) = 2 - ((486662 : Int) : ZMod (2 ^ 255 - 19)) := by decide +kernel
private theorem v3 : ((14856279910349605081280299881395334804609297657786658129414739047344204649203 : Nat) : ZMod (2 ^ 255 - 19)) =
    (2 - 2 * ((48802004052532134862652268456126542835229456083994414501085850622543968879637 : Int) : ZMod (2 ^ 255 - 19))) ^ 2 - 4 := by
  decide +kernel
private theorem v4 : ((48802004052532134862652268456126542835229456083994414501085850622543968879637 : Int) : ZMod (2 ^ 255 - 19)) ^ 2 =
    ((486662 : Int) : ZMod (2 ^ 255 - 19)) + 2 := by decide +kernel
private theorem v5 : ((325606250916557431795983626356110631294008115727848805560023387167927233504 : Int) : ZMod (2 ^ 255 - 19)) +
    (39382357235489614581723060781553021112529911719440698176882885853963445705823 : Int) =
    2 + 2 * ((48802004052532134862652268456126542835229456083994414501085850622543968879637 : Int) : ZMod (2 ^ 255 - 19)) := by decide +kernel
private theorem v6 : ((325606250916557431795983626356110631294008115727848805560023387167927233504 : Int) : ZMod (2 ^ 255 - 19)) *
    (39382357235489614581723060781553021112529911719440698176882885853963445705823 : Int) = 1 := by decide +kernel
private theorem v7 : 2 * (2 ^ 255 - 19) + 2 - 8 * (2 ^ 252 + 27742317777372353535851937790883648493) = 4 * twistN := by
  decide +kernel

private theorem encodeU_zero (r : Nat) (h : r < 2 ^ 256) : Rfc7748.encodeU r = List.replicate 32 0 ↔ r = 0 := by
  have key : ∀ n, (∀ i < n, r / 256 ^ i % 256 = 0) → r % 256 ^ n = 0 := by
    intro n
    induction n with
    | zero => intro _; rw [pow_zero, Nat.mod_one]
    | succ n ih =>
      intro h
      rw [pow_succ, Nat.mod_mul, ih (fun i hi => h i (by omega)), h n (by omega), mul_zero, add_zero]
  constructor
  · intro e
    have := key 32 (fun i hi => by
      have h1 : (Rfc7748.encodeU r)[i]? = (List.replicate 32 (0 : UInt8))[i]? := by rw [e]
      rw [Rfc7748.encodeU, List.getElem?_map, List.getElem?_range hi, List.getElem?_replicate, if_pos hi] at h1
      have h2 := congrArg UInt8.toNat (Option.some.inj h1)
      rw [UInt8.toNat_ofNat_of_lt' (Nat.mod_lt _ (by norm_num))] at h2
      exact h2)
    rwa [Nat.mod_eq_of_lt (by rw [show 256 ^ 32 = 2 ^ 256 by norm_num]; exact h)] at this
  · rintro rfl
    decide +kernel

/-- The five coordinates of Curve25519 and its twist whose points have an order that divides 8. -/
def lowOrderCoordinates : List Int :=
  [0, 1, 2 ^ 255 - 20, 325606250916557431795983626356110631294008115727848805560023387167927233504,
    39382357235489614581723060781553021112529911719440698176882885853963445705823]

private theorem mem_low [hpf : Fact (Nat.Prime (2 ^ 255 - 19))] (x : Int) :
    x % (2 ^ 255 - 19) ∈ lowOrderCoordinates ↔
      (x : ZMod (2 ^ 255 - 19)) = 0 ∨ (x : ZMod (2 ^ 255 - 19)) = 1 ∨ (x : ZMod (2 ^ 255 - 19)) = -1 ∨
      (x : ZMod (2 ^ 255 - 19)) =
        (325606250916557431795983626356110631294008115727848805560023387167927233504 : Int) ∨
      (x : ZMod (2 ^ 255 - 19)) =
        (39382357235489614581723060781553021112529911719440698176882885853963445705823 : Int) := by
  have key : ∀ v : Int, 0 ≤ v → v < 2 ^ 255 - 19 →
      (x % (2 ^ 255 - 19) = v ↔ (x : ZMod (2 ^ 255 - 19)) = (v : Int)) := by
    intro v h0 h1
    rw [ZMod.intCast_eq_intCast_iff, Int.ModEq, show ((2 ^ 255 - 19 : Nat) : Int) = 2 ^ 255 - 19 by norm_num,
      Int.emod_eq_of_lt h0 h1]
  have k0 := key 0 (by norm_num) (by norm_num)
  have k1 := key 1 (by norm_num) (by norm_num)
  have k2 := key (2 ^ 255 - 20) (by norm_num) (by norm_num)
  rw [v0] at k2
  rw [Int.cast_zero] at k0
  rw [Int.cast_one] at k1
  rw [lowOrderCoordinates]
  simp only [List.mem_cons, List.not_mem_nil, or_false]
  rw [k0, k1, k2, key _ (by norm_num) (by norm_num), key _ (by norm_num) (by norm_num)]

set_option maxRecDepth 20000 in
/-- C114: on Curve25519, with the scalar of any 32 octets decoded as in RFC 7748, the ladder returns 0 for exactly
five coordinates modulo `p`, whether they belong to the curve or to its twist. -/
theorem C114_ladder_zero (k : Bytes) (hk : k.length = 32) (x : Int) :
    Curve25519.curve.montgomeryLadder (Rfc7748.decodeScalar k) x = .ok 0 ↔
      x % (2 ^ 255 - 19) ∈ lowOrderCoordinates := by
  obtain ⟨p, n, hpf, a, h1, h2, h3, h4, h5, h6, -, -, -, -, -, -, -, hc⟩ := C110_montgomery Curve25519 (by simp)
  obtain rfl : 486662 = a := by injection h4
  obtain rfl : 2 ^ 255 - 19 = p := by
    have : ((2 ^ 255 - 19 : Nat) : Int) = p := by rw [← h1]; norm_num; rfl
    exact_mod_cast this
  obtain ⟨k1, k2, k3⟩ := clamped k hk
  generalize Rfc7748.decodeScalar k = s at *
  have ha' : ((486662 : Int) : Cl (2 ^ 255 - 19)) ^ 2 ≠ 4 := cast_ne h6
  obtain ⟨y, hn⟩ := exists_point h5 486662 x h6
  obtain ⟨r, hr, hr0, hrp, hrx⟩ := montgomeryLadder_over Curve25519.curve 486662 h4 h1 h5 ha' x y hn s
  have hcard : Nat.card (mCurve (2 ^ 255 - 19) 486662).Point = 8 * n := by
    have : (Nat.card (mCurve (2 ^ 255 - 19) 486662).Point : Int) = ((8 * n : Nat) : Int) := by rw [hc]; push_cast; rfl
    exact_mod_cast this
  have hn' : n = 2 ^ 252 + 27742317777372353535851937790883648493 := by
    have : (n : Int) = 2 ^ 252 + 27742317777372353535851937790883648493 := h2.symm
    exact_mod_cast this
  have hkill := kill_int h5 h6 y hn
  have h8 := eight_smul (p := 2 ^ 255 - 19) (a := 486662) (x := x)
    (r := 48802004052532134862652268456126542835229456083994414501085850622543968879637)
    (c1 := 325606250916557431795983626356110631294008115727848805560023387167927233504)
    (c2 := 39382357235489614581723060781553021112529911719440698176882885853963445705823) h5 h6
    (by
      have := nonsquare (p := 2 ^ 255 - 19) (486662 ^ 2 - 4) h5 (by decide +kernel)
      rwa [v1] at this)
    (by
      have := nonsquare (p := 2 ^ 255 - 19) (2 ^ 255 - 19 + 2 - 486662) h5 (by decide +kernel)
      rwa [v2] at this)
    (by
      have := nonsquare (p := 2 ^ 255 - 19)
        14856279910349605081280299881395334804609297657786658129414739047344204649203 h5 (by decide +kernel)
      rwa [v3] at this)
    v4 v5 v6 y hn
  rw [mem_low, ← h8, hr]
  rw [hcard] at hkill
  have hs : ((s : Int) % 2 ^ 255) = (s : Int) := Int.emod_eq_of_lt (by omega) (by exact_mod_cast k3)
  rw [hs, natCast_zsmul] at hrx
  generalize Affine.Point.some _ _ hn = P at *
  obtain ⟨m, rfl⟩ := k1
  constructor
  · intro h0
    injection h0 with h0
    rw [h0, Int.cast_zero] at hrx
    have h16 : (8 * (2 * m)) • P = 0 := by
      have := xOrZero_zero _ hrx.symm
      rw [← mul_nsmul'] at this
      rw [← this]
      congr 1
      ring
    have d1 := addOrderOf_dvd_of_nsmul_eq_zero h16
    have cop : ∀ q : Nat, q.Prime → 2 ^ 252 < q → Nat.Coprime (2 * m) q := by
      intro q hq hlt
      rw [Nat.coprime_comm, hq.coprime_iff_not_dvd]
      intro hd
      rcases (Nat.Prime.dvd_mul hq).mp hd with hd | hd
      · have := Nat.le_of_dvd (by norm_num) hd
        omega
      · have := Nat.le_of_dvd (by omega) hd
        omega
    have d3 : addOrderOf P ∣ 8 := by
      rcases hkill with hkill | hkill
      · have := Nat.dvd_gcd d1 (addOrderOf_dvd_of_nsmul_eq_zero hkill)
        rwa [Nat.gcd_mul_left, (cop n h3 (by omega)).gcd_eq_one, mul_one] at this
      · rw [hn', v7] at hkill
        have hk8 : (8 * twistN) • P = 0 := by
          rw [show 8 * twistN = 2 * (4 * twistN) by ring, mul_nsmul', hkill, nsmul_zero]
        have := Nat.dvd_gcd d1 (addOrderOf_dvd_of_nsmul_eq_zero hk8)
        rwa [Nat.gcd_mul_left, (cop twistN twistN_prime (by rw [twistN]; norm_num)).gcd_eq_one, mul_one] at this
    exact addOrderOf_dvd_iff_nsmul_eq_zero.mp d3
  · intro h8
    rw [mul_comm, mul_nsmul', h8, nsmul_zero] at hrx
    have h0 : (r : Cl (2 ^ 255 - 19)) = 0 := hrx
    rw [CharP.intCast_eq_zero_iff (Cl (2 ^ 255 - 19)) (2 ^ 255 - 19)] at h0
    rw [Int.eq_zero_of_dvd_of_nonneg_of_lt hr0 hrp h0]
example := C114_ladder_zero (List.replicate 32 0xff) rfl 1

set_option maxRecDepth 20000 in
/-- C114: X25519 of RFC 7748 gives 32 zero octets for exactly these coordinates. -/
theorem C114_x25519_zero (k u : Bytes) (hk : k.length = 32) :
    Rfc7748.x25519 k u = List.replicate 32 0 ↔ (Rfc7748.decodeU u : Int) % (2 ^ 255 - 19) ∈ lowOrderCoordinates := by
  rw [← C114_ladder_zero k hk]
  obtain ⟨r, h1, h2, h3, h4⟩ := C111_x25519 k u
  have hp : (2 ^ 255 - 19 : Int) < 2 ^ 256 := by norm_num
  have hlt : r.toNat < 2 ^ 256 := by
    have : (r.toNat : Int) < 2 ^ 256 := by rw [Int.toNat_of_nonneg h2]; exact h3.trans hp
    exact_mod_cast this
  rw [h1, h4, encodeU_zero _ hlt]
  constructor
  · intro h
    rw [show r = 0 from le_antisymm (Int.toNat_eq_zero.mp h) h2]
  · intro h
    injection h with h
    rw [h]; rfl
example := C114_x25519_zero (List.replicate 32 0xff) (1 :: List.replicate 31 0) rfl

private theorem decodeU_lt (u : Bytes) (hu : u.length = 32) : Rfc7748.decodeU u < 2 ^ 255 := by
  obtain ⟨m, d, rfl⟩ : ∃ m d, u = m ++ [d] := by
    rcases List.eq_nil_or_concat u with h | ⟨m, d, h⟩
    · rw [h] at hu; simp at hu
    · exact ⟨m, d, by simpa using h⟩
  have hm : m.length = 31 := by simpa using hu
  have e : Rfc7748.decodeU (m ++ [d]) = Rfc7748.decodeLE (m ++ [d &&& 127]) := by
    rw [Rfc7748.decodeU, ← hm]
    simp
  rw [e, decodeLE_append, hm]
  have h1 := decodeLE_lt m
  rw [hm] at h1
  have h2 : (d &&& 127).toNat ≤ 127 := by
    rw [UInt8.toNat_and]; exact Nat.and_le_right
  generalize Rfc7748.decodeLE m = w at *
  generalize (d &&& 127).toNat = v at *
  have h3 := Nat.mul_le_mul_left (256 ^ 31) h2
  norm_num at h1 h3 ⊢
  omega

set_option maxRecDepth 20000 in
/-- C114: seen from the wire, seven values of the 255 bits of a coordinate give 32 zero octets: the five coordinates
and the values `p` and `p + 1`, which are not reduced. -/
theorem C114_x25519_inputs (k u : Bytes) (hk : k.length = 32) (hu : u.length = 32) :
    Rfc7748.x25519 k u = List.replicate 32 0 ↔ (Rfc7748.decodeU u : Int) ∈
      lowOrderCoordinates ++ [2 ^ 255 - 19, 2 ^ 255 - 18] := by
  rw [C114_x25519_zero k u hk]
  have h := decodeU_lt u hu
  generalize Rfc7748.decodeU u = x at *
  rw [lowOrderCoordinates]
  simp only [List.cons_append, List.nil_append, List.mem_cons, List.not_mem_nil, or_false]
  norm_num at h ⊢
  omega

-- The base coordinate 9 is not among them: no key gives an all-zero public value.
example (k : Bytes) (hk : k.length = 32) : Rfc7748.x25519 k (9 :: List.replicate 31 0) ≠ List.replicate 32 0 := by
  rw [Ne, C114_x25519_inputs k _ hk (by decide)]
  decide +kernel

-- The value p + 1 is, whatever the key.
example (k : Bytes) (hk : k.length = 32) :
    Rfc7748.x25519 k (0xee :: List.replicate 30 0xff ++ [0x7f]) = List.replicate 32 0 := by
  rw [C114_x25519_inputs k _ hk (by decide)]
  decide +kernel

end Cryptopy
