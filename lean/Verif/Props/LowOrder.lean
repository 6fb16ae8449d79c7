import Verif.Props.X25519

/-!
C112: what `montgomery_ladder` gives away on coordinates of low order, and for which inputs it returns 0.
-/

namespace Cryptopy
open Model Spec WeierstrassCurve XOnly

variable {p : Nat} [hpf : Fact p.Prime]

section
variable {K : Type} [Field K] [DecidableEq K] [CharP K p]

private theorem four_smul {a : Int} (h2 : (2 : K) ≠ 0) (ha : (a : K) ^ 2 ≠ 4) (x y : K)
    (n : (mCurveOver K a).Nonsingular x y) (hx : x ^ 2 = 1) :
    xOrZero ((2 : Int) • Affine.Point.some x y n) = 0 ∧ (4 : Int) • Affine.Point.some x y n = 0 := by
  have r1 : XRep x 1 (Affine.Point.some x y n) := xrep_some.mpr ⟨one_ne_zero, (mul_one _).symm⟩
  have r2 := xrep_mdouble rfl rfl rfl rfl h2 ha r1
  rw [one_pow, hx, sub_self, zero_pow two_ne_zero, ← two_zsmul] at r2
  generalize h2Q : (2 : Int) • Affine.Point.some x y n = R at r2
  have e4 : (4 : Int) • Affine.Point.some x y n = R + R := by
    rw [← h2Q, ← add_zsmul]; rfl
  rw [e4]
  have r4 := xrep_mdouble rfl rfl rfl rfl h2 ha r2
  constructor
  · cases R with
    | zero => rfl
    | some x' y' n' =>
      obtain ⟨hz, h0⟩ := xrep_some.mp r2
      change x' = 0
      exact (mul_eq_zero.mp h0.symm).resolve_right hz
  · generalize R + R = S at r4
    cases S with
    | zero => rfl
    | some x' y' n' =>
      obtain ⟨hz, -⟩ := xrep_some.mp r4
      exact absurd (by ring) hz

private theorem odd_smul {a : Int} (h2 : (2 : K) ≠ 0) (ha : (a : K) ^ 2 ≠ 4) (x y : K)
    (n : (mCurveOver K a).Nonsingular x y) (hx : x ^ 2 = 1) (m : Int) :
    xOrZero (m • Affine.Point.some x y n) = if m % 2 = 1 then x else 0 := by
  obtain ⟨k2, k4⟩ := four_smul h2 ha x y n hx
  have e : m • Affine.Point.some x y n = (m % 4) • Affine.Point.some x y n := by
    conv_lhs => rw [← Int.emod_add_mul_ediv m 4, add_zsmul, mul_comm, mul_zsmul, k4, zsmul_zero, add_zero]
  rw [e]
  have hm := Int.emod_nonneg m (show (4 : Int) ≠ 0 by decide)
  have hm' := Int.emod_lt_of_pos m (show (0 : Int) < 4 by decide)
  have hpar : m % 2 = m % 4 % 2 := by omega
  rw [hpar]
  generalize m % 4 = t at *
  have : t = 0 ∨ t = 1 ∨ t = 2 ∨ t = 3 := by omega
  rcases this with rfl | rfl | rfl | rfl
  · rw [zero_zsmul]; rfl
  · rw [one_zsmul]; rfl
  · rw [k2]; rfl
  · have : (3 : Int) • Affine.Point.some x y n = -Affine.Point.some x y n := by
      rw [eq_neg_iff_add_eq_zero, ← k4]
      nth_rewrite 2 [← one_zsmul (Affine.Point.some x y n)]
      rw [← add_zsmul]
      rfl
    rw [this, Affine.Point.neg_some]
    rfl

end

private theorem reduced {r v : Int} (h0 : 0 ≤ r) (hp : r < p) (h : (r : AlgebraicClosure (ZMod p)) = v) : r = v % p := by
  rw [eq_comm, ← sub_eq_zero, ← Int.cast_sub, CharP.intCast_eq_zero_iff (AlgebraicClosure (ZMod p)) p,
    ← Int.modEq_iff_dvd] at h
  rw [← h, Int.emod_eq_of_lt h0 hp]

/-- C112: for every odd prime `p` and `a` with `a² ≢ 4`, the coordinates 0, 1 and -1 are of low order: the ladder
returns 0 on the first whatever the scalar; on 1 and -1 it returns the parity of the scalar, times the coordinate. -/
theorem C112_low_order (c : MCurve) (a : Int) (hca : c.a = some a) (hp : c.p = p) (h2p : p ≠ 2)
    (ha : ¬ a ^ 2 ≡ 4 [ZMOD p]) (k x : Int) :
    (x ≡ 0 [ZMOD p] → c.montgomeryLadder k x = .ok 0) ∧
    (x ≡ 1 [ZMOD p] → c.montgomeryLadder k x = .ok (k % 2)) ∧
    (x ≡ -1 [ZMOD p] → c.montgomeryLadder k x = .ok ((p - 1) * (k % 2))) := by
  classical
  have ha' : (a : AlgebraicClosure (ZMod p)) ^ 2 ≠ 4 := cast_ne ha
  have h2 : (2 : AlgebraicClosure (ZMod p)) ≠ 0 := two_ne_zero_char h2p
  have hp2 : (2 : Int) ≤ p := by exact_mod_cast hpf.out.two_le
  obtain ⟨y, hn⟩ := exists_point h2p a x ha
  obtain ⟨r, hr, hr0, hrp, hrx⟩ := montgomeryLadder_over c a hca hp h2p ha' x y hn k
  have cast : ∀ v : Int, x ≡ v [ZMOD p] → (x : AlgebraicClosure (ZMod p)) = v := by
    intro v hv
    rw [eq_comm, ← sub_eq_zero, ← Int.cast_sub, CharP.intCast_eq_zero_iff (AlgebraicClosure (ZMod p)) p,
      ← Int.modEq_iff_dvd]
    exact hv
  have hpar : k % 2 ^ 255 % 2 = k % 2 := Int.emod_emod_of_dvd k (by norm_num)
  have hk : k % 2 = 0 ∨ k % 2 = 1 := by omega
  rw [hr]
  refine ⟨fun h => ?_, fun h => ?_, fun h => ?_⟩
  · have hx := cast 0 h
    push_cast at hx
    rw [zsmul_order_two x y hn hx] at hrx
    have := reduced (v := 0) hr0 hrp (by rw [hrx]; simp)
    rw [this, Int.zero_emod]
  · have hx := cast 1 h
    push_cast at hx
    rw [odd_smul h2 ha' _ y hn (by rw [hx, one_pow]), hpar, hx] at hrx
    rcases hk with hk | hk
    · rw [hk, if_neg (by decide)] at hrx
      rw [reduced (v := 0) hr0 hrp (by rw [hrx]; simp), hk, Int.zero_emod]
    · rw [hk, if_pos rfl] at hrx
      rw [reduced (v := 1) hr0 hrp (by rw [hrx]; simp), hk, Int.emod_eq_of_lt (by omega) (by omega)]
  · have hx := cast (-1) h
    push_cast at hx
    rw [odd_smul h2 ha' _ y hn (by rw [hx, neg_one_sq]), hpar, hx] at hrx
    rcases hk with hk | hk
    · rw [hk, if_neg (by decide)] at hrx
      rw [reduced (v := 0) hr0 hrp (by rw [hrx]; simp), hk, Int.zero_emod, mul_zero]
    · rw [hk, if_pos rfl] at hrx
      have hpc : ((p : Int) : AlgebraicClosure (ZMod p)) = 0 := by
        rw [Int.cast_natCast]; exact CharP.cast_eq_zero _ _
      rw [reduced (v := p - 1) hr0 hrp (by rw [hrx, Int.cast_sub, hpc]; simp), hk,
        Int.emod_eq_of_lt (by omega) (by omega), mul_one]

-- Curve25519: a peer that sends the coordinate 1 learns the parity of the scalar.
example (k : Int) : Curve25519.curve.montgomeryLadder k 1 = .ok (k % 2) := by
  obtain ⟨p, n, hp, a, h1, -, -, h2, h3, h4, -⟩ := C110_montgomery Curve25519 (by simp)
  exact (C112_low_order Curve25519.curve a h2 h1 h3 h4 k 1).2.1 rfl

/-! ### Clamped scalars -/

theorem decodeLE_append (l : Bytes) (c : UInt8) :
    Rfc7748.decodeLE (l ++ [c]) = Rfc7748.decodeLE l + 256 ^ l.length * c.toNat := by
  induction l with
  | nil => simp [Rfc7748.decodeLE]
  | cons d l ih =>
    rw [List.cons_append]
    change d.toNat + 256 * Rfc7748.decodeLE (l ++ [c]) = d.toNat + 256 * Rfc7748.decodeLE l + _
    rw [ih, List.length_cons, pow_succ]
    ring

theorem decodeLE_lt (l : Bytes) : Rfc7748.decodeLE l < 256 ^ l.length := by
  induction l with
  | nil => simp [Rfc7748.decodeLE]
  | cons d l ih =>
    change d.toNat + 256 * Rfc7748.decodeLE l < _
    have := d.toNat_lt
    rw [List.length_cons, pow_succ]
    omega

private theorem octets : ∀ n < 256, (n &&& 248) % 8 = 0 ∧ 64 ≤ ((n &&& 127) ||| 64) ∧ ((n &&& 127) ||| 64) < 128 := by
  decide +kernel

/-- The scalars of RFC 7748 are multiples of 8 from 2^254 to 2^255. -/
theorem clamped (k : Bytes) (hk : k.length = 32) :
    8 ∣ Rfc7748.decodeScalar k ∧ 2 ^ 254 ≤ Rfc7748.decodeScalar k ∧ Rfc7748.decodeScalar k < 2 ^ 255 := by
  obtain ⟨c, t, rfl⟩ : ∃ c t, k = c :: t := by
    cases k with
    | nil => simp at hk
    | cons c t => exact ⟨c, t, rfl⟩
  have ht : t.length = 31 := by simpa using hk
  obtain ⟨m, d, rfl⟩ : ∃ m d, t = m ++ [d] := by
    rcases List.eq_nil_or_concat t with h | ⟨m, d, h⟩
    · rw [h] at ht; simp at ht
    · exact ⟨m, d, by simpa using h⟩
  have hm : m.length = 30 := by simpa using ht
  have e : Rfc7748.decodeScalar (c :: (m ++ [d])) =
      Rfc7748.decodeLE ((c &&& 248) :: m ++ [(d &&& 127) ||| 64]) := by
    rw [Rfc7748.decodeScalar]
    congr 1
    simp only [List.set_cons_zero, List.getD_cons_zero]
    rw [show (31 : Nat) = 30 + 1 from rfl, List.set_cons_succ, List.getD_cons_succ, ← hm]
    simp
  rw [e, decodeLE_append, List.length_cons, hm]
  change 8 ∣ (c &&& 248).toNat + 256 * Rfc7748.decodeLE m + _ ∧
    2 ^ 254 ≤ (c &&& 248).toNat + 256 * Rfc7748.decodeLE m + _ ∧
    (c &&& 248).toNat + 256 * Rfc7748.decodeLE m + _ < 2 ^ 255
  have h1 := (octets c.toNat c.toNat_lt).1
  have h2 := (octets d.toNat d.toNat_lt).2
  have h3 := decodeLE_lt m
  have h4 := (c &&& 248).toNat_lt
  rw [hm] at h3
  have e1 : (c &&& 248).toNat = c.toNat &&& 248 := UInt8.toNat_and _ _
  have e2 : (d &&& 127 ||| 64).toNat = (d.toNat &&& 127) ||| 64 := by
    rw [UInt8.toNat_or, UInt8.toNat_and]; rfl
  rw [← e1] at h1
  rw [← e2] at h2
  generalize (c &&& 248).toNat = u at *
  generalize (d &&& 127 ||| 64).toNat = v at *
  generalize Rfc7748.decodeLE m = w at *
  refine ⟨?_, ?_, ?_⟩ <;> norm_num at h3 ⊢ <;> omega

set_option maxRecDepth 4000 in
/-- C112: on Curve25519, with the scalar of any 32 octets decoded as in RFC 7748 and any point that is accepted, the
ladder returns 0 exactly if 8 times the point is the identity. -/
theorem C112_contributory (k : Bytes) (hk : k.length = 32) (x y : Int)
    (hon : Curve25519.curve.onCurve x y = .ok true) :
    ∃ (p : Nat) (_ : Fact p.Prime) (h : (mCurve p 486662).Nonsingular (x : ZMod p) (y : ZMod p)),
      Curve25519.p = p ∧ (Curve25519.curve.montgomeryLadder (Rfc7748.decodeScalar k) x = .ok 0 ↔
        8 • Affine.Point.some (x : ZMod p) (y : ZMod p) h = 0) := by
  obtain ⟨p, n, hpf, a, h1, h2, h3, h4, h5, h6, -, -, -, -, -, -, -, hc⟩ := C110_montgomery Curve25519 (by simp)
  obtain rfl : 486662 = a := by injection h4
  obtain ⟨k1, k2, k3⟩ := clamped k hk
  generalize Rfc7748.decodeScalar k = s at *
  obtain ⟨h, r, hr, hr0, hrp, hrx⟩ := C82_in_range Curve25519.curve 486662 h4 h1 h5 h6 x y hon s k3
  refine ⟨p, hpf, h, h1, ?_⟩
  generalize Affine.Point.some (x : ZMod p) (y : ZMod p) h = P at *
  rw [hr]
  obtain ⟨m, rfl⟩ := k1
  constructor
  · intro h0
    injection h0 with h0
    rw [h0, Int.cast_zero] at hrx
    have h16 : (16 * m) • P = 0 := by
      have : (8 * m) • P + (8 * m) • P = 0 := by
        generalize (8 * m) • P = R at hrx
        cases R with
        | zero => rfl
        | some x' y' h' =>
          change (0 : ZMod p) = x' at hrx
          subst hrx
          refine Affine.Point.add_of_Y_eq rfl ?_
          rw [XOnly.negY_eq rfl rfl]
          have e := (mCurve_equation (p := p) _ _).mp h'.1
          have hy : y' = 0 := by simpa using e
          rw [hy, neg_zero]
      rw [← this, ← add_nsmul]
      congr 1
      ring
    have d1 := addOrderOf_dvd_of_nsmul_eq_zero h16
    have hcard : Nat.card (mCurve p 486662).Point = 8 * n := by
      have : (Nat.card (mCurve p 486662).Point : Int) = ((8 * n : Nat) : Int) := by rw [hc]; push_cast; rfl
      exact_mod_cast this
    have d2 : addOrderOf P ∣ 8 * n := hcard ▸ addOrderOf_dvd_natCard P
    have hn : n = 2 ^ 252 + 27742317777372353535851937790883648493 := by
      have : (n : Int) = 2 ^ 252 + 27742317777372353535851937790883648493 := h2.symm
      exact_mod_cast this
    have hcop : Nat.Coprime (2 * m) n := by
      rw [Nat.coprime_comm, h3.coprime_iff_not_dvd]
      intro hd
      rcases (Nat.Prime.dvd_mul h3).mp hd with hd | hd
      · have := Nat.le_of_dvd (by norm_num) hd
        omega
      · have := Nat.le_of_dvd (by omega) hd
        omega
    have d3 : addOrderOf P ∣ 8 := by
      have := Nat.dvd_gcd d1 d2
      rwa [show 16 * m = 8 * (2 * m) by ring, Nat.gcd_mul_left, hcop.gcd_eq_one, mul_one] at this
    exact addOrderOf_dvd_iff_nsmul_eq_zero.mp d3
  · intro h8
    rw [mul_comm, mul_nsmul', h8, nsmul_zero] at hrx
    have hr' : (r : ZMod p) = ((0 : Int) : ZMod p) := by rw [hrx]; simp; rfl
    rw [eq_of_cast_eq hr0 hrp le_rfl (by exact_mod_cast hpf.out.pos) hr']

-- The generator, for every clamped scalar.
set_option maxRecDepth 4000 in
example (k : Bytes) (hk : k.length = 32) :
    Curve25519.curve.montgomeryLadder (Rfc7748.decodeScalar k) Curve25519.xG ≠ .ok 0 := by
  obtain ⟨p, n, hp, a, h1, h2, h3, h4, -, -, -, -, -, -, hg, ns, ho, -⟩ := C110_montgomery Curve25519 (by simp)
  have hon : Curve25519.curve.onCurve Curve25519.xG Curve25519.yG = .ok true := by
    rw [MClass.generator, MCurve.point] at hg
    cases h : Curve25519.curve.onCurve Curve25519.xG Curve25519.yG with
    | error e => rw [h] at hg; cases hg
    | ok b => cases b with
      | true => rfl
      | false => rw [h] at hg; cases hg
  obtain ⟨q, hq, h, e, hiff⟩ := C112_contributory k hk _ _ hon
  obtain rfl : p = q := by exact_mod_cast h1.symm.trans e
  obtain rfl : 486662 = a := by injection h4
  rw [Ne, hiff]
  intro h0
  have hd := addOrderOf_dvd_of_nsmul_eq_zero h0
  rw [ho] at hd
  have := Nat.le_of_dvd (by norm_num) hd
  have hn : (n : Int) = 2 ^ 252 + 27742317777372353535851937790883648493 := h2.symm
  omega

end Cryptopy
