import Verif.Props.Ecc
import Verif.Props.Curves
import Verif.Lemmas.Scalar

/-!
C100, C101: scalar multiplication of points whose order is not the attribute `n` of the curve.
-/

namespace Cryptopy
open Cryptopy.Model Cryptopy.Spec Cryptopy.Ecpp WeierstrassCurve

section
variable {p : Nat} [hpf : Fact p.Prime]

private theorem pyMod_nat {n k : Int} (hn : 0 < n) (e : Nat) (he : k % n = e) : pyMod k n = .ok (e : Int) := by
  rw [pyMod, if_neg (by omega), fmod_pos_eq _ hn, he]

private theorem dvd_iff {G : Type*} [AddGroup G] (Q : G) (m : Nat) :
    m • Q + m • Q = 0 ↔ addOrderOf Q ∣ 2 * m := by
  rw [addOrderOf_dvd_iff_nsmul_eq_zero, two_mul, add_nsmul]

open Classical in
private theorem exists_last (f : Nat → Prop) (b i : Nat) (hi : f i) (hb : ∀ i, f i → i ≤ b) :
    ∃ i, f i ∧ ∀ j, i < j → ¬ f j := by
  refine ⟨Nat.findGreatest f b, Nat.findGreatest_spec (hb i hi) hi, fun j hj hf => ?_⟩
  exact Nat.findGreatest_is_greatest hj (hb j hf) hf

/-- C100: for every finite valid point with reduced x, of whatever order `d`, and every `k` with non-zero residue `e`
modulo the attribute `n`: `k * P` succeeds exactly when `d` divides none of the numbers `2 (⌊3e/2^i⌋ - ⌊e/2^i⌋)` with
`i ≥ 2` and `2^i ≤ 3e`; the result is then the `e`-fold sum; otherwise the exception is `TypeError` or
`AssertionError`, and `TypeError` if `d` is odd. -/
theorem C100_scalar_outcome (c : WCurve) (hp : c.p = p) (h2 : p ≠ 2)
    (hd : (4 * c.a ^ 3 + 27 * c.b ^ 2 : ZMod p) ≠ 0) (P : WPoint) (hc : P.curve = c)
    (hx : InRange p P.x) (Q : (wCurve p c.a c.b).Point) (hr : Represents P.x P.y Q) (hQ : Q ≠ 0)
    (hn : 0 < c.n) (k : Int) (e : Nat) (he : k % c.n = e) (he0 : e ≠ 0) :
    ((∀ i, 2 ≤ i → 2 ^ i ≤ 3 * e → ¬ addOrderOf Q ∣ 2 * (3 * e / 2 ^ i - e / 2 ^ i)) →
      ∃ R, P.mul k = .ok R ∧ R.curve = c ∧ Represents R.x R.y (e • Q) ∧ InRange p R.x) ∧
    ((∃ i, 2 ≤ i ∧ 2 ^ i ≤ 3 * e ∧ addOrderOf Q ∣ 2 * (3 * e / 2 ^ i - e / 2 ^ i)) →
      (P.mul k = .error .type ∨ P.mul k = .error .assertion) ∧
      (addOrderOf Q % 2 = 1 → P.mul k = .error .type)) := by
  classical
  obtain ⟨o1, o2⟩ := mul_outcome ⟨hp, h2, hd⟩ ⟨hc, hr, hx⟩ hQ k e (pyMod_nat hn e he) (by omega)
  simp only [dvd_iff, partialScalar, ne_eq] at o1 o2
  constructor
  · intro h
    obtain ⟨R, h1, s, -⟩ := o1 h
    exact ⟨R, h1, s.curve, s.rep, s.red⟩
  · rintro ⟨i, hi⟩
    obtain ⟨i, ⟨i1, i2, i3⟩, hmax⟩ := exists_last
      (fun i => 2 ≤ i ∧ 2 ^ i ≤ 3 * e ∧ addOrderOf Q ∣ 2 * (3 * e / 2 ^ i - e / 2 ^ i)) (3 * e) i hi
      (fun j hj => (Nat.lt_two_pow_self.le).trans hj.2.1)
    have hres := o2 i i1 i2 i3 (fun j h3 h4 h5 => hmax j h3 ⟨by omega, h4, h5⟩)
    rw [hres, doubleErr]
    constructor
    · split
      · exact .inl rfl
      · exact .inr rfl
    · intro hodd
      rw [if_pos]
      rw [← addOrderOf_dvd_iff_nsmul_eq_zero]
      exact (Nat.Coprime.dvd_of_dvd_mul_left (by
        rw [Nat.coprime_two_right]; exact Nat.odd_iff.mpr hodd) i3)

/-- C100: multiplying a point of order two (`y = 0`) by anything whose residue modulo `n` is not 0 or 1 raises
`AssertionError`. -/
theorem C100_order_two (c : WCurve) (hp : c.p = p) (h2 : p ≠ 2)
    (hd : (4 * c.a ^ 3 + 27 * c.b ^ 2 : ZMod p) ≠ 0) (x : Int) (hx0 : 0 ≤ x) (hxp : x < p)
    (hon : c.onCurve ⟨c, some x, some 0⟩ = .ok true) (hn : 0 < c.n) (k : Int)
    (h0 : k % c.n ≠ 0) (h1 : k % c.n ≠ 1) : (⟨c, some x, some 0⟩ : WPoint).mul k = .error .assertion := by
  classical
  have g : Good c p := ⟨hp, h2, hd⟩
  obtain ⟨Q, s⟩ := stands_of_onCurve g ⟨c, some x, some 0⟩ rfl hon (reduced_some hx0 hxp)
  have hQ : Q ≠ 0 ∧ Q + Q = 0 := by
    have h := s.rep
    cases h with
    | affine _ _ hns =>
      refine ⟨Affine.Point.some_ne_zero hns, Affine.Point.add_of_Y_eq rfl ?_⟩
      simp [Affine.negY, wCurve]
  have hnn := Int.emod_nonneg k hn.ne'
  obtain ⟨N, t, sN, h3, h4, h5, h6⟩ := mul_loop g s hQ.1 k (k % c.n).toNat (pyMod_nat hn _ (by omega)) (by omega)
  obtain ⟨-, o2⟩ := mul_outcome g s hQ.1 k (k % c.n).toNat (pyMod_nat hn _ (by omega)) (by omega)
  have ht : 2 ≤ t + 1 := by
    by_contra h
    have : t = 0 := by omega
    subst this
    norm_num at h4
    omega
  have := o2 (t + 1) ht h3 (by rw [h5, one_nsmul]; exact hQ.2) (fun j hj hle => by
    exfalso
    have : 2 ^ (t + 2) ≤ 2 ^ j := Nat.pow_le_pow_right (by omega) (by omega)
    omega)
  rw [this, h5, one_nsmul, doubleErr, if_neg hQ.1]

private instance : Fact (Nat.Prime 5) := ⟨by norm_num⟩

example : (⟨⟨1, 5, 1, 0, 4⟩, some 2, some 0⟩ : WPoint).mul 3 = .error .assertion := by
  exact C100_order_two (p := 5) ⟨1, 5, 1, 0, 4⟩ rfl (by decide) (by decide) 2 (by decide) (by decide)
    (by decide +kernel) (by decide) 3 (by decide) (by decide)

/-- C100: multiplying by `-1` a point of odd order `d` whose curve has `n = 4 d` raises `TypeError`. -/
theorem C100_quarter_order (c : WCurve) (hp : c.p = p) (h2 : p ≠ 2)
    (hd : (4 * c.a ^ 3 + 27 * c.b ^ 2 : ZMod p) ≠ 0) (P : WPoint) (hc : P.curve = c)
    (hx : InRange p P.x) (Q : (wCurve p c.a c.b).Point) (hr : Represents P.x P.y Q)
    (d : Nat) (hn : c.n = 4 * d) (hodd : d % 2 = 1) (h1 : 1 < d) (ho : addOrderOf Q = d) (k : Int) :
    (k % (4 * d) = 2 * d ∨ k % (4 * d) = 4 * d - 1 → P.mul k = .error .type) ∧
    (¬ (k % (4 * d) = 2 * d ∨ k % (4 * d) = 4 * d - 1) →
      ∃ R, P.mul k = .ok R ∧ R.curve = c ∧ Represents R.x R.y (k • Q) ∧ InRange p R.x) := by
  have hQ : Q ≠ 0 := by
    rintro rfl
    rw [addOrderOf_zero] at ho
    omega
  have hnn := Int.emod_nonneg k (show (4 * d : Int) ≠ 0 by omega)
  have hlt := Int.emod_lt_of_pos k (show (0 : Int) < 4 * d by omega)
  have hkQ : ((k % (4 * d)).toNat • Q : (wCurve p c.a c.b).Point) = k • Q := by
    rw [← natCast_zsmul, Int.toNat_of_nonneg hnn]
    have : k = 4 * d * (k / (4 * d)) + k % (4 * d) := (Int.mul_ediv_add_emod k _).symm
    conv_rhs => rw [this]
    rw [add_zsmul]
    have h0 : ((4 * d * (k / (4 * d)) : Int) • Q : (wCurve p c.a c.b).Point) = 0 := by
      rw [← addOrderOf_dvd_iff_zsmul_eq_zero, ho]
      exact ⟨4 * (k / (4 * d)), by ring⟩
    rw [h0, zero_add]
  by_cases he0 : k % (4 * d) = 0
  · refine ⟨by omega, fun _ => ⟨c.identity, ?_, rfl, ?_, ?_⟩⟩
    · rw [WPoint.mul, WCurve.scalarMultiple, hc, hn, pyMod, if_neg (by omega), fmod_pos_eq _ (by omega), he0]
      rfl
    · rw [← hkQ, he0, Int.toNat_zero, zero_nsmul]
      exact Represents.infinity
    · intro v hv
      simp [WCurve.identity] at hv
  obtain ⟨e, he⟩ : ∃ e : Nat, k % (4 * d) = e := ⟨(k % (4 * d)).toNat, by omega⟩
  have out := C100_scalar_outcome c hp h2 hd P hc hx Q hr hQ (by omega) k e (by rw [hn, he]) (by omega)
  rw [ho] at out
  have hdvd : ∀ m, d ∣ 2 * m ↔ d ∣ m := fun m =>
    ⟨fun h => Nat.Coprime.dvd_of_dvd_mul_left (by rw [Nat.coprime_two_right]; exact Nat.odd_iff.mpr hodd) h,
      fun h => h.mul_left 2⟩
  simp only [hdvd] at out
  rw [he] at hkQ ⊢
  rw [Int.toNat_natCast] at hkQ
  constructor
  · intro h
    refine (out.2 ?_).2 hodd
    rcases h with h | h
    · refine ⟨2, le_refl _, by omega, ?_⟩
      have : 3 * e / 2 ^ 2 - e / 2 ^ 2 = d := by omega
      rw [this]
    · refine ⟨3, by omega, by omega, ?_⟩
      have : 3 * e / 2 ^ 3 - e / 2 ^ 3 = d := by omega
      rw [this]
  · intro h
    rw [← hkQ]
    refine out.1 ?_
    intro i hi1 hi2 ⟨m, hm⟩
    have hpos := partialScalar_pos e i hi2
    rw [partialScalar] at hpos
    have hm0 : m ≠ 0 := by
      rintro rfl
      omega
    by_cases h4 : 4 ≤ i
    · have e1 : 3 * e / 2 ^ i ≤ 3 * e / 2 ^ 4 := Nat.div_le_div_left (Nat.pow_le_pow_right (by omega) h4) (by norm_num)
      have : d * 1 ≤ d * m := Nat.mul_le_mul_left d (by omega)
      generalize 3 * e / 2 ^ i = u at *
      generalize e / 2 ^ i = v at *
      omega
    · have hm3 : m < 3 := by
        by_contra hcon
        have : d * 3 ≤ d * m := Nat.mul_le_mul_left d (by omega)
        have e1 : 3 * e / 2 ^ i ≤ 3 * e / 2 ^ 2 := Nat.div_le_div_left (Nat.pow_le_pow_right (by omega) hi1) (by norm_num)
        have e2 : e / 2 ^ 3 ≤ e / 2 ^ i := Nat.div_le_div_left (Nat.pow_le_pow_right (by omega) (by omega)) (by positivity)
        interval_cases i <;> omega
      have hs := Nat.mod_lt e (show 8 > 0 by omega)
      have hg := Nat.div_add_mod e 8
      generalize e / 8 = g at *
      generalize e % 8 = r at *
      interval_cases i <;> interval_cases m <;> interval_cases r <;> omega

end

/-- C101: `GOSTmsg05975sw` records the order of the whole group as `n`; its generator, accepted by `generator()`, has
the prime order `n / 4`. -/
theorem C101_gost_parameters : ∃ p q : Nat, GOSTmsg05975sw.p = p ∧ GOSTmsg05975sw.n = 4 * q ∧ p.Prime ∧ q.Prime ∧
    q ≠ 2 ∧ p ≠ 2 ∧ (4 * GOSTmsg05975sw.a ^ 3 + 27 * GOSTmsg05975sw.b ^ 2 : ZMod p) ≠ 0 ∧
    0 ≤ GOSTmsg05975sw.xG ∧ GOSTmsg05975sw.xG < p ∧ 0 < GOSTmsg05975sw.yG ∧ GOSTmsg05975sw.yG < p ∧
    (∀ oid, GOSTmsg05975sw.generator oid =
      .ok ⟨GOSTmsg05975sw.instance oid, some GOSTmsg05975sw.xG, some GOSTmsg05975sw.yG⟩) ∧
    ∀ _ : Fact p.Prime, ∃ Q : (wCurve p GOSTmsg05975sw.a GOSTmsg05975sw.b).Point,
      Represents (some GOSTmsg05975sw.xG) (some GOSTmsg05975sw.yG) Q ∧ addOrderOf Q = q := by
  have hq := GOSTmsg05975sw_order
  have h1 : stepOk ((GOSTmsg05975sw.n / 4).toNat.log2 + 1) GOSTmsg05975sw.p.toNat GOSTmsg05975sw.a.toNat
      GOSTmsg05975sw.b.toNat GOSTmsg05975sw.xG.toNat GOSTmsg05975sw.yG.toNat (GOSTmsg05975sw.n / 4).toNat = true ∧
      4 * GOSTmsg05975sw.p.toNat < ((GOSTmsg05975sw.n / 4).toNat - 1) ^ 2 ∧
      (0 ≤ GOSTmsg05975sw.p ∧ 0 ≤ GOSTmsg05975sw.a ∧ 0 ≤ GOSTmsg05975sw.b ∧ 0 ≤ GOSTmsg05975sw.xG ∧
        GOSTmsg05975sw.xG < GOSTmsg05975sw.p ∧ 0 < GOSTmsg05975sw.yG ∧ GOSTmsg05975sw.yG < GOSTmsg05975sw.p ∧
        8 < GOSTmsg05975sw.n ∧ GOSTmsg05975sw.n % 4 = 0) := by decide +kernel
  generalize GOSTmsg05975sw = K at *
  obtain ⟨name, kp, ka, kb, kx, ky, kn, kh⟩ := K
  simp only at hq h1 ⊢
  obtain ⟨hs, hb, g1, g2, g3, g4, g5, g6, g7, g8, g9⟩ := h1
  obtain ⟨p, rfl⟩ := Int.eq_ofNat_of_zero_le g1
  obtain ⟨a, rfl⟩ := Int.eq_ofNat_of_zero_le g2
  obtain ⟨b, rfl⟩ := Int.eq_ofNat_of_zero_le g3
  obtain ⟨x, rfl⟩ := Int.eq_ofNat_of_zero_le g4
  obtain ⟨y, rfl⟩ := Int.eq_ofNat_of_zero_le g6.le
  simp only [Int.toNat_natCast] at hs hb
  have s := step_of_ok hs
  have hp := prime_of_step s hq hb
  have : Fact p.Prime := ⟨hp⟩
  have h2 : p ≠ 2 := by
    rintro rfl
    exact s.two_ne (dvd_refl 2) (ZMod.natCast_self 2)
  have hd := s.disc_ne (dvd_refl p)
  have he := s.eqn (dvd_refl p)
  refine ⟨p, (kn / 4).toNat, rfl, by omega, hp, hq, by omega, h2, by push_cast; exact hd, g4, g5, g6, g7, fun oid => ?_,
    fun _ => ?_⟩
  · simp only [WClass.generator]
    rw [point_affine (p := p) _ rfl, if_pos]
    simp only [WClass.instance]
    push_cast
    exact he
  · obtain ⟨hns, ho⟩ := order_facts s hq _ (wCurve_natCast p a b)
    refine ⟨Affine.Point.some _ _ hns, ?_, ho⟩
    have := Represents.affine (p := p) (a := a) (b := b) x y (by rw [Int.cast_natCast, Int.cast_natCast]; exact hns)
    convert this using 2 <;> simp

/-- C101: so `k * G` on `GOSTmsg05975sw` raises `TypeError` exactly when `k` is congruent to `n / 2` or to `-1` modulo
`n`; for every other `k` it is the `k`-fold sum. -/
theorem C101_gost_scalar (oid : Nat) (k : Int) :
    ∃ G, GOSTmsg05975sw.generator oid = .ok G ∧
      (k % GOSTmsg05975sw.n = GOSTmsg05975sw.n / 2 ∨ k % GOSTmsg05975sw.n = GOSTmsg05975sw.n - 1 →
        G.mul k = .error .type) ∧
      (¬ (k % GOSTmsg05975sw.n = GOSTmsg05975sw.n / 2 ∨ k % GOSTmsg05975sw.n = GOSTmsg05975sw.n - 1) →
        ∃ R, G.mul k = .ok R ∧ R.curve = GOSTmsg05975sw.instance oid ∧
          ∀ p : Nat, GOSTmsg05975sw.p = p → ∀ _ : Fact p.Prime,
            ∀ Q : (wCurve p GOSTmsg05975sw.a GOSTmsg05975sw.b).Point,
            Represents G.x G.y Q → Represents R.x R.y (k • Q)) := by
  obtain ⟨p, q, e1, e2, hp, hq, hq2, h2, hd, hx0, hx, -, -, hG, hQ⟩ := C101_gost_parameters
  have : Fact p.Prime := ⟨hp⟩
  obtain ⟨Q, hr, ho⟩ := hQ this
  have hodd : q % 2 = 1 := (hq.eq_two_or_odd).resolve_left hq2
  obtain ⟨o1, o2⟩ := C100_quarter_order (GOSTmsg05975sw.instance oid) e1 h2 hd
    ⟨GOSTmsg05975sw.instance oid, some GOSTmsg05975sw.xG, some GOSTmsg05975sw.yG⟩ rfl (reduced_some hx0 hx) Q hr q e2
    hodd hq.one_lt ho k
  have hhalf : GOSTmsg05975sw.n / 2 = 2 * q := by rw [e2]; omega
  rw [hhalf, e2]
  refine ⟨_, hG oid, o1, fun h => ?_⟩
  obtain ⟨R, r1, r2, r3, -⟩ := o2 h
  refine ⟨R, r1, r2, ?_⟩
  intro p' e1' _ Q' hQ'
  have hpp : p' = p := by
    have : (p' : Int) = p := e1'.symm.trans e1
    exact_mod_cast this
  subst hpp
  have hQQ : Q' = Q := rep_unique hQ' hr
  rw [hQQ]
  exact r3

/-- Negating the generator by multiplication, `-1 * G`, raises. -/
example (oid : Nat) : ∃ G, GOSTmsg05975sw.generator oid = .ok G ∧ G.mul (-1) = .error .type := by
  obtain ⟨G, h1, h2, -⟩ := C101_gost_scalar oid (-1)
  exact ⟨G, h1, h2 (.inr (by decide +kernel))⟩

end Cryptopy
