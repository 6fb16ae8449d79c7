import Verif.Lemmas.Montgomery

/-!
Properties C106 and C107: affine arithmetic of `MontgomeryCurveFp`, `ecc/ecc.py`.
-/

namespace Cryptopy
open Model Spec WeierstrassCurve

variable {p : Nat} [hpf : Fact p.Prime]

private theorem eq_of_onCurve {c : MCurve} {a : Int} (hca : c.a = some a) (hp : c.p = p) {x y : Int}
    (h : c.onCurve x y = .ok true) : (y : ZMod p) ^ 2 = (x : ZMod p) ^ 3 + a * (x : ZMod p) ^ 2 + x := by
  rw [m_onCurve c hca hp] at h
  injection h with h
  exact of_decide_eq_true h

private theorem ident_ne {c : MCurve} {ident : MPt}
    (hid : ∀ x y, ident = (some x, some y) → c.onCurve x y = .ok false) {x y : Int}
    (h : c.onCurve x y = .ok true) : (some x, some y) ≠ ident := by
  intro he
  have := hid x y he.symm
  rw [h] at this
  cases this

private theorem cast4 {a : Int} (ha : ¬ a ^ 2 ≡ 4 [ZMOD p]) : (a : ZMod p) ^ 2 ≠ 4 := by
  rw [← ZMod.intCast_eq_intCast_iff] at ha
  push_cast at ha
  exact ha

/-! ### C106: addition and doubling -/

/-- C106: for every odd prime `p` and `a` with `a² ≢ 4`, and any object `IDENTITY` that is not a point of
the curve, adding two points with x-coordinates that differ modulo `p` gives the reduced coordinates of
their sum in the group. -/
theorem C106_add (c : MCurve) (a : Int) (hca : c.a = some a) (hp : c.p = p) (h2p : p ≠ 2)
    (ha : ¬ a ^ 2 ≡ 4 [ZMOD p]) (ident : MPt)
    (hid : ∀ x y, ident = (some x, some y) → c.onCurve x y = .ok false) (x1 y1 x2 y2 : Int)
    (on1 : c.onCurve x1 y1 = .ok true) (on2 : c.onCurve x2 y2 = .ok true) (hne : ¬ x1 ≡ x2 [ZMOD p]) :
    ∃ (h1 : (mCurve p a).Nonsingular (x1 : ZMod p) (y1 : ZMod p))
      (h2 : (mCurve p a).Nonsingular (x2 : ZMod p) (y2 : ZMod p)) (x3 y3 : Int)
      (h3 : (mCurve p a).Nonsingular (x3 : ZMod p) (y3 : ZMod p)),
      c.addPoints ident (some x1, some y1) (some x2, some y2) = .ok (some x3, some y3) ∧
      0 ≤ x3 ∧ x3 < p ∧ 0 ≤ y3 ∧ y3 < p ∧
      Affine.Point.some (x1 : ZMod p) (y1 : ZMod p) h1 + Affine.Point.some (x2 : ZMod p) (y2 : ZMod p) h2 =
        Affine.Point.some (x3 : ZMod p) (y3 : ZMod p) h3 := by
  have h1 := m_nonsingular h2p (cast4 ha) (eq_of_onCurve hca hp on1)
  have h2 := m_nonsingular h2p (cast4 ha) (eq_of_onCurve hca hp on2)
  refine ⟨h1, h2, m_add c hca hp ident x1 y1 x2 y2 (ident_ne hid on1) (ident_ne hid on2) h1 h2 ?_⟩
  rwa [Ne, ZMod.intCast_eq_intCast_iff]

/-- C106: doubling a point whose y is not 0 modulo `p`, by `double` or by `P + P`, gives the reduced
coordinates of twice the point. -/
theorem C106_double (c : MCurve) (a : Int) (hca : c.a = some a) (hp : c.p = p) (h2p : p ≠ 2)
    (ha : ¬ a ^ 2 ≡ 4 [ZMOD p]) (ident : MPt)
    (hid : ∀ x y, ident = (some x, some y) → c.onCurve x y = .ok false) (x y : Int)
    (on : c.onCurve x y = .ok true) (hy : ¬ (p : Int) ∣ y) :
    ∃ (h : (mCurve p a).Nonsingular (x : ZMod p) (y : ZMod p)) (x3 y3 : Int)
      (h3 : (mCurve p a).Nonsingular (x3 : ZMod p) (y3 : ZMod p)),
      c.doublePoint (some x, some y) = .ok (some x3, some y3) ∧
      c.addPoints ident (some x, some y) (some x, some y) = .ok (some x3, some y3) ∧
      0 ≤ x3 ∧ x3 < p ∧ 0 ≤ y3 ∧ y3 < p ∧
      Affine.Point.some (x : ZMod p) (y : ZMod p) h + Affine.Point.some (x : ZMod p) (y : ZMod p) h =
        Affine.Point.some (x3 : ZMod p) (y3 : ZMod p) h3 := by
  have h := m_nonsingular h2p (cast4 ha) (eq_of_onCurve hca hp on)
  obtain ⟨x3, y3, h3, k1, k⟩ := m_double c hca hp h2p x y h (by
    rwa [Ne, ZMod.intCast_zmod_eq_zero_iff_dvd])
  refine ⟨h, x3, y3, h3, k1, ?_, k⟩
  rw [m_add_same c hca ident x y y (ident_ne hid on) (ident_ne hid on), if_pos rfl, k1]

/-- C106: the identity is neutral on both sides, for any pair of coordinates. -/
theorem C106_identity (c : MCurve) (ident P : MPt) :
    c.addPoints ident P ident = .ok P ∧ c.addPoints ident ident P = .ok P := by
  refine ⟨by rw [MCurve.addPoints, if_pos rfl], ?_⟩
  by_cases h : P = ident
  · rw [MCurve.addPoints, if_pos h, h]
  · rw [MCurve.addPoints, if_neg h, if_pos rfl]

/-- C106: two points with the same x-coordinate and different y, whose sum is the point at infinity:
the sum raises `AssertionError`, or is the first point if the y are opposite integers. -/
theorem C106_opposite (c : MCurve) (a : Int) (hca : c.a = some a) (hp : c.p = p) (h2p : p ≠ 2)
    (ha : ¬ a ^ 2 ≡ 4 [ZMOD p]) (ident : MPt)
    (hid : ∀ x y, ident = (some x, some y) → c.onCurve x y = .ok false) (x y1 y2 : Int)
    (on1 : c.onCurve x y1 = .ok true) (on2 : c.onCurve x y2 = .ok true) (hne : ¬ y1 ≡ y2 [ZMOD p]) :
    c.addPoints ident (some x, some y1) (some x, some y2) =
      (if y1 + y2 = 0 then .ok (some x, some y1) else .error .assertion) ∧
    ∃ (h1 : (mCurve p a).Nonsingular (x : ZMod p) (y1 : ZMod p))
      (h2 : (mCurve p a).Nonsingular (x : ZMod p) (y2 : ZMod p)),
      Affine.Point.some (x : ZMod p) (y1 : ZMod p) h1 + Affine.Point.some (x : ZMod p) (y2 : ZMod p) h2 = 0 := by
  have e1 := eq_of_onCurve hca hp on1
  have e2 := eq_of_onCurve hca hp on2
  refine ⟨?_, m_nonsingular h2p (cast4 ha) e1, m_nonsingular h2p (cast4 ha) e2, ?_⟩
  · rw [m_add_same c hca ident x y1 y2 (ident_ne hid on1) (ident_ne hid on2), if_neg]
    rintro rfl; exact hne rfl
  · refine Affine.Point.add_of_Y_eq rfl ?_
    rw [XOnly.negY_eq rfl rfl]
    rw [← ZMod.intCast_eq_intCast_iff] at hne
    have : ((y1 : ZMod p) - y2) * (y1 + y2) = 0 := by linear_combination e1 - e2
    rcases mul_eq_zero.mp this with h | h
    · exact absurd (sub_eq_zero.mp h) hne
    · exact eq_neg_of_add_eq_zero_left h

/-- C106: a point of order two can not be doubled, and points with congruent but different x-coordinates
can not be added: `AssertionError`. -/
theorem C106_raises (c : MCurve) (a : Int) (hca : c.a = some a) (hp : c.p = p) (ident : MPt)
    (hid : ∀ x y, ident = (some x, some y) → c.onCurve x y = .ok false) (x1 y1 x2 y2 : Int)
    (on1 : c.onCurve x1 y1 = .ok true) (on2 : c.onCurve x2 y2 = .ok true) :
    ((p : Int) ∣ y1 → c.doublePoint (some x1, some y1) = .error .assertion) ∧
    (x1 ≡ x2 [ZMOD p] → x1 ≠ x2 →
      c.addPoints ident (some x1, some y1) (some x2, some y2) = .error .assertion) := by
  constructor
  · intro h
    exact m_double_two c hca hp x1 y1 ((ZMod.intCast_zmod_eq_zero_iff_dvd _ _).mpr h)
  · intro h hne
    exact m_add_congruent c hca hp ident x1 y1 x2 y2 (ident_ne hid on1) (ident_ne hid on2) hne
      ((ZMod.intCast_eq_intCast_iff _ _ _).mpr h)

/-! ### C107: scalar multiplication -/

private theorem scalar_pos (c : MCurve) (ident pt : MPt) (k : Int) (hk : k ≠ 0) :
    c.scalarMultiple ident pt k = (c.scalarMultiple ident pt (k.fdiv 2)).bind fun r => some (do
      let q ← r
      let q ← c.addPoints ident q q
      if k % 2 = 1 then c.addPoints ident q pt else .ok q) := by
  conv_lhs => rw [MCurve.scalarMultiple]
  rw [if_neg hk]
  rfl

/-- Multiples of a point of odd order below the order. -/
private theorem scalar_spec (c : MCurve) (a : Int) (hca : c.a = some a) (hp : c.p = p) (h2p : p ≠ 2)
    (ident : MPt) (hid : ∀ x y, ident = (some x, some y) → c.onCurve x y = .ok false) (x y : Int)
    (on : c.onCurve x y = .ok true) (h : (mCurve p a).Nonsingular (x : ZMod p) (y : ZMod p))
    (hodd : Odd (addOrderOf (Affine.Point.some (x : ZMod p) (y : ZMod p) h))) (k : Nat) (hk0 : 0 < k) :
    k < addOrderOf (Affine.Point.some (x : ZMod p) (y : ZMod p) h) →
    ∃ (x3 y3 : Int) (h3 : (mCurve p a).Nonsingular (x3 : ZMod p) (y3 : ZMod p)),
      c.scalarMultiple ident (some x, some y) k = some (.ok (some x3, some y3)) ∧
      c.onCurve x3 y3 = .ok true ∧ (k = 1 → x3 = x ∧ y3 = y) ∧
      (2 ≤ k → 0 ≤ x3 ∧ x3 < p ∧ 0 ≤ y3 ∧ y3 < p) ∧
      k • Affine.Point.some (x : ZMod p) (y : ZMod p) h = Affine.Point.some (x3 : ZMod p) (y3 : ZMod p) h3 := by
  generalize hQ : Affine.Point.some (x : ZMod p) (y : ZMod p) h = Q at hodd
  have mem : ∀ {u v : Int}, (mCurve p a).Nonsingular (u : ZMod p) (v : ZMod p) → c.onCurve u v = .ok true := by
    intro u v hn
    rw [m_onCurve c hca hp, decide_eq_true ((mCurve_equation _ _).mp hn.1)]
  induction k using Nat.strong_induction_on with
  | _ k ih =>
    intro hk
    have hf : ((k : Nat) : Int).fdiv 2 = ((k / 2 : Nat) : Int) := by
      rw [Int.fdiv_eq_ediv_of_nonneg _ (by norm_num)]; norm_num
    rw [scalar_pos _ _ _ _ (by omega), hf]
    by_cases h1 : k = 1
    · subst h1
      refine ⟨x, y, h, ?_, on, fun _ => ⟨rfl, rfl⟩, fun h => absurd h (by omega), ?_⟩
      · have : c.scalarMultiple ident (some x, some y) ((1 / 2 : Nat) : Int) = some (.ok ident) := by
          rw [MCurve.scalarMultiple]; rfl
        rw [this]
        change some (do let q ← c.addPoints ident ident ident; _) = _
        rw [(C106_identity c ident ident).1]
        change some (c.addPoints ident ident (some x, some y)) = _
        rw [(C106_identity c ident _).2]
      · rw [one_nsmul, hQ]
    · obtain ⟨u, v, hn, e1, e2, -, -, e5⟩ := ih (k / 2) (by omega) (by omega) (by omega)
      rw [e1]
      -- doubling
      have hv : (v : ZMod p) ≠ 0 := by
        intro h0
        have h2 : Affine.Point.some (u : ZMod p) (v : ZMod p) hn + Affine.Point.some (u : ZMod p) (v : ZMod p) hn = 0 := by
          refine Affine.Point.add_of_Y_eq rfl ?_
          rw [XOnly.negY_eq rfl rfl, h0, neg_zero]
        rw [← e5, ← add_nsmul] at h2
        have hd := addOrderOf_dvd_of_nsmul_eq_zero h2
        rw [← two_mul] at hd
        have hd' : addOrderOf Q ∣ k / 2 := (Nat.Coprime.dvd_of_dvd_mul_left (by
          rw [Nat.coprime_comm]; exact Nat.coprime_two_left.mpr hodd) hd)
        have := Nat.le_of_dvd (by omega) hd'
        omega
      obtain ⟨u2, v2, hn2, d1, d2, d3, d4, d5, d6⟩ := m_double c hca hp h2p u v hn hv
      have hadd : c.addPoints ident (some u, some v) (some u, some v) = .ok (some u2, some v2) := by
        rw [m_add_same c hca ident u v v (ident_ne hid e2) (ident_ne hid e2), if_pos rfl, d1]
      rw [← e5, ← add_nsmul, ← two_mul] at d6
      rcases Nat.mod_two_eq_zero_or_one k with hm | hm
      · refine ⟨u2, v2, hn2, ?_, mem hn2, fun h => absurd h h1, fun _ => ⟨d2, d3, d4, d5⟩, ?_⟩
        · change some (do let q ← c.addPoints ident (some u, some v) (some u, some v); _) = _
          rw [hadd]
          change some (if (k : Int) % 2 = 1 then _ else _) = _
          rw [if_neg (by omega)]
        · rw [← d6]; congr 1; omega
      · have hxne : (u2 : ZMod p) ≠ x := by
          intro hx
          have hor := XOnly.eq_or_neg (W := mCurve p a) rfl rfl (x := (x : ZMod p)) (y := (y : ZMod p))
            (y' := (v2 : ZMod p)) h (by rw [← hx]; exact hn2)
          have hs : Affine.Point.some (u2 : ZMod p) (v2 : ZMod p) hn2 =
              Affine.Point.some (x : ZMod p) (v2 : ZMod p) (by rw [← hx]; exact hn2) := by
            rw [Affine.Point.some.injEq]; exact ⟨hx, rfl⟩
          rw [← hs, hQ, ← d6] at hor
          rcases hor with h' | h'
          · have : (2 * (k / 2) - 1) • Q = 0 := by
              have e : (2 * (k / 2)) • Q = (2 * (k / 2) - 1) • Q + Q := by
                rw [← succ_nsmul]; congr 1; omega
              rw [e] at h'
              exact right_eq_add.mp h'
            have := Nat.le_of_dvd (by omega) (addOrderOf_dvd_of_nsmul_eq_zero this)
            omega
          · have : k • Q = 0 := by
              have e : k • Q = (2 * (k / 2)) • Q + Q := by
                rw [← succ_nsmul]; congr 1; omega
              rw [e]
              nth_rw 2 [h']
              rw [add_neg_cancel]
            have := Nat.le_of_dvd (by omega) (addOrderOf_dvd_of_nsmul_eq_zero this)
            omega
        obtain ⟨u3, v3, hn3, a1, a2, a3, a4, a5, a6⟩ := m_add c hca hp ident u2 v2 x y
          (ident_ne hid (mem hn2)) (ident_ne hid on) hn2 h hxne
        refine ⟨u3, v3, hn3, ?_, mem hn3, fun h => absurd h h1, fun _ => ⟨a2, a3, a4, a5⟩, ?_⟩
        · change some (do let q ← c.addPoints ident (some u, some v) (some u, some v); _) = _
          rw [hadd]
          change some (if (k : Int) % 2 = 1 then _ else _) = _
          rw [if_pos (by omega)]
          rw [a1]
        · rw [← a6, ← d6, hQ, ← succ_nsmul]; congr 1; omega

/-- C107: for a point of odd order `n`, multiplication by `k` with `0 < k < n` gives the `k`-fold sum, with
reduced coordinates for `k ≥ 2`. -/
theorem C107_scalar (c : MCurve) (a : Int) (hca : c.a = some a) (hp : c.p = p) (h2p : p ≠ 2)
    (ha : ¬ a ^ 2 ≡ 4 [ZMOD p]) (ident : MPt)
    (hid : ∀ x y, ident = (some x, some y) → c.onCurve x y = .ok false) (x y : Int)
    (on : c.onCurve x y = .ok true) :
    ∃ h : (mCurve p a).Nonsingular (x : ZMod p) (y : ZMod p),
      Odd (addOrderOf (Affine.Point.some (x : ZMod p) (y : ZMod p) h)) →
      ∀ k : Nat, 0 < k → k < addOrderOf (Affine.Point.some (x : ZMod p) (y : ZMod p) h) →
      ∃ (x3 y3 : Int) (h3 : (mCurve p a).Nonsingular (x3 : ZMod p) (y3 : ZMod p)),
        c.scalarMultiple ident (some x, some y) k = some (.ok (some x3, some y3)) ∧
        (2 ≤ k → 0 ≤ x3 ∧ x3 < p ∧ 0 ≤ y3 ∧ y3 < p) ∧
        k • Affine.Point.some (x : ZMod p) (y : ZMod p) h = Affine.Point.some (x3 : ZMod p) (y3 : ZMod p) h3 := by
  refine ⟨m_nonsingular h2p (cast4 ha) (eq_of_onCurve hca hp on), fun hodd k h0 hk => ?_⟩
  obtain ⟨x3, y3, h3, k1, -, -, k2, k3⟩ := scalar_spec c a hca hp h2p ident hid x y on _ hodd k h0 hk
  exact ⟨x3, y3, h3, k1, k2, k3⟩

/-- C107: multiplication of a point with reduced coordinates by its own odd order raises
`AssertionError` instead of returning the identity. -/
theorem C107_order (c : MCurve) (a : Int) (hca : c.a = some a) (hp : c.p = p) (h2p : p ≠ 2)
    (ident : MPt) (hid : ∀ x y, ident = (some x, some y) → c.onCurve x y = .ok false) (x y : Int)
    (hx : 0 ≤ x ∧ x < p) (hy : 0 ≤ y ∧ y < p)
    (on : c.onCurve x y = .ok true) (h : (mCurve p a).Nonsingular (x : ZMod p) (y : ZMod p))
    (hodd : Odd (addOrderOf (Affine.Point.some (x : ZMod p) (y : ZMod p) h))) :
    c.scalarMultiple ident (some x, some y) (addOrderOf (Affine.Point.some (x : ZMod p) (y : ZMod p) h)) =
      some (.error .assertion) := by
  have hne : addOrderOf (Affine.Point.some (x : ZMod p) (y : ZMod p) h) ≠ 1 := by
    rw [Ne, AddMonoid.addOrderOf_eq_one_iff]
    exact Affine.Point.some_ne_zero h
  have spec := scalar_spec c a hca hp h2p ident hid x y on h hodd
  generalize hn : addOrderOf (Affine.Point.some (x : ZMod p) (y : ZMod p) h) = n at *
  obtain ⟨m, hm⟩ := hodd
  obtain ⟨u, v, hu, e1, e2, e3, e4, e5⟩ := spec m (by omega) (by omega)
  obtain ⟨u2, v2, hu2, f1, f2, -, f4, f5⟩ := spec (2 * m) (by omega) (by omega)
  obtain ⟨r1, r2, r3, r4⟩ := f4 (by omega)
  have hf : ((2 * m : Nat) : Int).fdiv 2 = ((m : Nat) : Int) := by
    rw [Int.fdiv_eq_ediv_of_nonneg _ (by norm_num)]; omega
  have hf' : ((n : Nat) : Int).fdiv 2 = ((m : Nat) : Int) := by
    rw [Int.fdiv_eq_ediv_of_nonneg _ (by norm_num)]; omega
  rw [scalar_pos _ _ _ _ (by omega), hf, e1] at f1
  change some (do let q ← c.addPoints ident (some u, some v) (some u, some v); _) = _ at f1
  have hadd : c.addPoints ident (some u, some v) (some u, some v) = .ok (some u2, some v2) := by
    injection f1 with f1
    cases hc : c.addPoints ident (some u, some v) (some u, some v) with
    | error e => rw [hc] at f1; cases f1
    | ok q =>
      rw [hc] at f1
      change (if ((2 * m : Nat) : Int) % 2 = 1 then _ else _) = _ at f1
      rw [if_neg (by omega)] at f1
      exact f1
  rw [scalar_pos _ _ _ _ (by omega), hf', e1]
  change some (do let q ← c.addPoints ident (some u, some v) (some u, some v); _) = _
  rw [hadd]
  change some (if (n : Int) % 2 = 1 then _ else _) = _
  rw [if_pos (by omega)]
  congr 1
  -- the last point is the opposite one
  have hz : Affine.Point.some (u2 : ZMod p) (v2 : ZMod p) hu2 + Affine.Point.some (x : ZMod p) (y : ZMod p) h = 0 := by
    rw [← f5, ← succ_nsmul, ← hm, ← hn]
    exact addOrderOf_nsmul_eq_zero _
  have hneg := eq_neg_of_add_eq_zero_left hz
  rw [Affine.Point.neg_some, Affine.Point.some.injEq, XOnly.negY_eq rfl rfl] at hneg
  have hux : u2 = x := eq_of_cast_eq r1 r2 hx.1 hx.2 hneg.1
  subst hux
  rw [m_add_same c hca ident u2 v2 y (ident_ne hid f2) (ident_ne hid on)]
  have hyne : v2 ≠ y := by
    rintro rfl
    have h2 : Affine.Point.some (u2 : ZMod p) (v2 : ZMod p) hu2 =
        Affine.Point.some (u2 : ZMod p) (v2 : ZMod p) h := rfl
    rw [h2, ← two_nsmul] at hz
    have := Nat.le_of_dvd (by omega) (addOrderOf_dvd_of_nsmul_eq_zero hz)
    rw [hn] at this
    omega
  rw [if_neg hyne, if_neg]
  omega

/-- C107: 0 gives the identity object; a negative scalar never returns. -/
theorem C107_edges (c : MCurve) (ident pt : MPt) :
    c.scalarMultiple ident pt 0 = some (.ok ident) ∧ ∀ k : Int, k < 0 → c.scalarMultiple ident pt k = none := by
  refine ⟨by rw [MCurve.scalarMultiple]; rfl, ?_⟩
  have key : ∀ k r, c.scalarMultiple ident pt k = some r → 0 ≤ k := by
    refine MCurve.scalarMultiple.partial_correctness c ident pt (fun k _ => 0 ≤ k) ?_
    intro f ih k r hr
    by_cases hk : k = 0
    · omega
    · rw [if_neg hk] at hr
      cases hf : f (k.fdiv 2) with
      | none => rw [hf] at hr; cases hr
      | some q =>
        have := ih _ _ hf
        rw [Int.fdiv_eq_ediv_of_nonneg _ (by norm_num)] at this
        omega
  intro k hk
  cases h : c.scalarMultiple ident pt k with
  | none => rfl
  | some r => have := key k r h; omega

/-! ### An instance: `y² = x³ + 3x² + x` over GF(7), `(4, 2)` of order 3, `IDENTITY` without coordinates -/

private def toyM : MCurve := ⟨7, some 3⟩

private theorem toyM_ident : ∀ x y, ((none, none) : MPt) = (some x, some y) → toyM.onCurve x y = .ok false :=
  fun x y h => by cases h

private theorem toyM_order [Fact (Nat.Prime 7)] (h : (mCurve 7 3).Nonsingular ((4 : Int) : ZMod 7) ((2 : Int) : ZMod 7)) :
    addOrderOf (Affine.Point.some ((4 : Int) : ZMod 7) ((2 : Int) : ZMod 7) h) = 3 := by
  obtain ⟨h', x3, y3, h3, k1, -, -, -, -, -, k2⟩ := C106_double (p := 7) toyM 3 rfl rfl (by decide) (by decide) (none, none)
    toyM_ident 4 2 (by decide +kernel) (by decide)
  have e : toyM.doublePoint (some 4, some 2) = .ok (some 4, some 5) := by decide +kernel
  rw [e] at k1
  injection k1 with k1
  simp only [Prod.mk.injEq, Option.some.injEq] at k1
  obtain ⟨rfl, rfl⟩ := k1
  have : Fact (Nat.Prime 3) := ⟨by norm_num⟩
  refine addOrderOf_eq_prime ?_ (Affine.Point.some_ne_zero h)
  rw [succ_nsmul, two_nsmul, k2]
  refine Affine.Point.add_of_Y_eq rfl ?_
  rw [XOnly.negY_eq rfl rfl, ← Int.cast_neg]
  exact (ZMod.intCast_eq_intCast_iff _ _ 7).mpr (by decide)

example : toyM.scalarMultiple (none, none) (some 4, some 2) 3 = some (.error .assertion) := by
  have : Fact (Nat.Prime 7) := ⟨by norm_num⟩
  obtain ⟨h, -⟩ := C106_double (p := 7) toyM 3 rfl rfl (by decide) (by decide) (none, none)
    toyM_ident 4 2 (by decide +kernel) (by decide)
  have ho := toyM_order h
  have := C107_order (p := 7) toyM 3 rfl rfl (by decide) (none, none) toyM_ident 4 2 (by decide) (by decide)
    (by decide +kernel) h (by rw [ho]; decide)
  rw [ho] at this
  exact this

example : ∃ x3 y3, toyM.scalarMultiple (none, none) (some 4, some 2) 2 = some (.ok (some x3, some y3)) := by
  have : Fact (Nat.Prime 7) := ⟨by norm_num⟩
  obtain ⟨h, k⟩ := C107_scalar (p := 7) toyM 3 rfl rfl (by decide) (by decide) (none, none) toyM_ident 4 2 (by decide +kernel)
  have ho := toyM_order h
  obtain ⟨x3, y3, -, k1, -⟩ := k (by rw [ho]; decide) 2 (by decide) (by rw [ho]; decide)
  exact ⟨x3, y3, k1⟩

example : toyM.addPoints (none, none) (some 4, some 2) (some 4, some 5) = .error .assertion :=
  have : Fact (Nat.Prime 7) := ⟨by norm_num⟩
  (C106_opposite (p := 7) toyM 3 rfl rfl (by decide) (by decide) (none, none) toyM_ident 4 2 5 (by decide +kernel)
    (by decide +kernel) (by decide)).1

example : toyM.addPoints (none, none) (some 4, some 2) (some 4, some (-2)) = .ok (some 4, some 2) :=
  have : Fact (Nat.Prime 7) := ⟨by norm_num⟩
  (C106_opposite (p := 7) toyM 3 rfl rfl (by decide) (by decide) (none, none) toyM_ident 4 2 (-2) (by decide +kernel)
    (by decide +kernel) (by decide)).1

-- (0, 0) has order two.
example : toyM.doublePoint (some 0, some 0) = .error .assertion ∧
    toyM.addPoints (none, none) (some 4, some 2) (some 11, some 2) = .error .assertion := by
  have : Fact (Nat.Prime 7) := ⟨by norm_num⟩
  exact ⟨(C106_raises (p := 7) toyM 3 rfl rfl (none, none) toyM_ident 0 0 4 2 (by decide +kernel) (by decide +kernel)).1
    (by decide), (C106_raises (p := 7) toyM 3 rfl rfl (none, none) toyM_ident 4 2 11 2 (by decide +kernel)
      (by decide +kernel)).2 (by decide) (by decide)⟩

-- (4, 2) and (0, 0) have different x-coordinates.
example : ∃ x3 y3, toyM.addPoints (none, none) (some 4, some 2) (some 0, some 0) = .ok (some x3, some y3) := by
  have : Fact (Nat.Prime 7) := ⟨by norm_num⟩
  obtain ⟨-, -, x3, y3, -, k, -⟩ := C106_add (p := 7) toyM 3 rfl rfl (by decide) (by decide) (none, none) toyM_ident 4 2 0 0
    (by decide +kernel) (by decide +kernel) (by decide)
  exact ⟨x3, y3, k⟩

end Cryptopy
