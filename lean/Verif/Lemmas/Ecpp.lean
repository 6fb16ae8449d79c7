import Verif.Lemmas.XOnly
import Mathlib.Data.ZMod.Basic
import Mathlib.FieldTheory.Finite.Basic
import Mathlib.GroupTheory.OrderOfElement
import Mathlib.Data.Nat.Prime.Basic

/-!
Primality proving with elliptic curves (the criterion of Goldwasser and Kilian, with an elementary bound in
place of Hasse's), and the order of a point, both checked by kernel evaluation of natural number arithmetic.
-/

namespace Cryptopy.Ecpp
open WeierstrassCurve Cryptopy.XOnly

section field
variable {F : Type} [Field F] [DecidableEq F]

/-- The curve `y² = x³ + a x + b`. -/
def curve (a b : F) : Affine F := { a₁ := 0, a₂ := 0, a₃ := 0, a₄ := a, a₆ := b }

variable {a b : F}

omit [DecidableEq F] in
theorem nonsingular (h2 : (2 : F) ≠ 0) (hd : 4 * a ^ 3 + 27 * b ^ 2 ≠ 0) {x y : F}
    (h : y ^ 2 = x ^ 3 + a * x + b) : (curve a b).Nonsingular x y := by
  rw [Affine.nonsingular_iff, Affine.equation_iff]
  refine ⟨by simp only [curve]; linear_combination h, ?_⟩
  by_contra hn
  simp only [curve, not_or, not_not] at hn
  obtain ⟨hx, hy⟩ := hn
  have hy0 : y = 0 := by
    have : 2 * y = 0 := by linear_combination hy
    exact (mul_eq_zero.mp this).resolve_left h2
  have hx0 : 3 * x ^ 2 + a = 0 := by linear_combination -hx
  subst hy0
  have hc : x ^ 3 + a * x + b = 0 := by linear_combination -h
  apply hd
  linear_combination (27 * b - 27 * x ^ 3 - 27 * a * x) * hc +
    (9 * x ^ 4 + 15 * a * x ^ 2 + 4 * a ^ 2) * hx0

omit [DecidableEq F] in
theorem double_ns (hd : 4 * a ^ 3 + 27 * b ^ 2 ≠ 0) (x : F)
    (hx : x ^ 3 + (curve a b).a₂ * x ^ 2 + (curve a b).a₄ * x + (curve a b).a₆ = 0) :
    (x ^ 2 - (curve a b).a₄) ^ 2 - 8 * (curve a b).a₆ * x - 4 * (curve a b).a₂ * (curve a b).a₆ ≠ 0 := by
  simp only [curve] at hx ⊢
  intro h
  have hc : x ^ 3 + a * x + b = 0 := by linear_combination hx
  have h3 : (3 * x ^ 2 + a) ^ 2 = 0 := by linear_combination h + 8 * x * hc
  have hx0 : 3 * x ^ 2 + a = 0 := pow_eq_zero_iff (two_ne_zero) |>.mp h3
  apply hd
  linear_combination (27 * b - 27 * x ^ 3 - 27 * a * x) * hc +
    (9 * x ^ 4 + 15 * a * x ^ 2 + 4 * a ^ 2) * hx0

/-- Doubling. -/
theorem xrep_dbl (h2 : (2 : F) ≠ 0) (hd : 4 * a ^ 3 + 27 * b ^ 2 ≠ 0) {X Z : F} {Q : (curve a b).Point}
    (h : XRep X Z Q) :
    XRep ((X ^ 2 - a * Z ^ 2) ^ 2 - 8 * b * X * Z ^ 3) (4 * Z * (X ^ 3 + a * X * Z ^ 2 + b * Z ^ 3)) (Q + Q) := by
  have := xrep_double (W := curve a b) rfl rfl h2 h (double_ns hd)
  have e1 : (X ^ 2 - a * Z ^ 2) ^ 2 - 8 * b * X * Z ^ 3 = (X ^ 2 - (curve a b).a₄ * Z ^ 2) ^ 2
      - 8 * (curve a b).a₆ * X * Z ^ 3 - 4 * (curve a b).a₂ * (curve a b).a₆ * Z ^ 4 := by
    simp only [curve]; ring
  have e2 : 4 * Z * (X ^ 3 + a * X * Z ^ 2 + b * Z ^ 3) = 4 * Z * (X ^ 3 + (curve a b).a₂ * X ^ 2 * Z
      + (curve a b).a₄ * X * Z ^ 2 + (curve a b).a₆ * Z ^ 3) := by
    simp only [curve]; ring
  rw [e1, e2]
  exact this

/-- Sum of two points whose difference is known. -/
theorem xrep_add (h2 : (2 : F) ≠ 0) {x y : F} {n : (curve a b).Nonsingular x y}
    {X2 Z2 X3 Z3 : F} {Q2 Q3 : (curve a b).Point} (h : Q3 = Q2 + Affine.Point.some x y n)
    (r2 : XRep X2 Z2 Q2) (r3 : XRep X3 Z3 Q3) :
    XRep (2 * ((X2 * Z3 + X3 * Z2) * (X2 * X3 + a * Z2 * Z3) + 2 * b * Z2 ^ 2 * Z3 ^ 2) -
      x * (X2 * Z3 - X3 * Z2) ^ 2) ((X2 * Z3 - X3 * Z2) ^ 2) (Q2 + Q3) := by
  cases Q2 with
  | zero =>
    change XRep _ _ ((0 : (curve a b).Point) + Q3)
    change Q3 = (0 : (curve a b).Point) + _ at h
    rw [zero_add] at h ⊢
    subst h
    obtain ⟨hz, hx⟩ := r2
    obtain ⟨hz3, hx3⟩ := xrep_some.mp r3
    subst hz
    rw [xrep_some]
    refine ⟨pow_ne_zero _ ?_, ?_⟩
    · rw [mul_zero, sub_zero]; exact mul_ne_zero hx hz3
    · rw [hx3]; ring
  | some x2 y2 n2 =>
    obtain ⟨hz2, hx2⟩ := xrep_some.mp r2
    cases Q3 with
    | zero =>
      change XRep _ _ (_ + (0 : (curve a b).Point))
      change (0 : (curve a b).Point) = _ at h
      rw [add_zero]
      have h' : Affine.Point.some x2 y2 n2 = -Affine.Point.some x y n := eq_neg_of_add_eq_zero_left h.symm
      rw [Affine.Point.neg_some, Affine.Point.some.injEq] at h'
      obtain ⟨hz3, hx3⟩ := r3
      subst hz3
      rw [xrep_some]
      refine ⟨pow_ne_zero _ ?_, ?_⟩
      · rw [mul_zero, zero_sub, neg_ne_zero]; exact mul_ne_zero hx3 hz2
      · rw [hx2, h'.1]; ring
    | some x3 y3 n3 =>
      obtain ⟨hz3, hx3⟩ := xrep_some.mp r3
      subst hx2 hx3
      by_cases hx : x2 = x3
      · subst hx
        rcases eq_or_neg (W := curve a b) rfl rfl n2 n3 with he | he
        · exfalso
          rw [← he] at h
          have : Affine.Point.some x y n = 0 := by
            have h' := congrArg (fun t => t - Affine.Point.some x2 y2 n2) h
            simpa using h'.symm
          simp [Affine.Point.zero_def] at this
        · have hs : Affine.Point.some x2 y2 n2 + Affine.Point.some x2 y3 n3 = 0 := by
            rw [he]; exact neg_add_cancel _
          rw [hs, xrep_zero]
          refine ⟨by ring, ?_⟩
          have hy : y2 ≠ 0 := by
            rintro rfl
            have hn : -Affine.Point.some x2 0 n2 = Affine.Point.some x2 0 n2 := by
              rw [Affine.Point.neg_some, Affine.Point.some.injEq, negY_eq rfl rfl]; simp
            have he' : Affine.Point.some x2 y3 n3 = Affine.Point.some x2 0 n2 := by
              rw [← hn, he, neg_neg]
            rw [he'] at h
            have : Affine.Point.some x y n = 0 := by
              have h' := congrArg (fun t => t - Affine.Point.some x2 0 n2) h
              simpa using h'.symm
            simp [Affine.Point.zero_def] at this
          have e := equation (W := curve a b) rfl rfl n2.1
          simp only [curve] at e
          have h4 : (4 : F) ≠ 0 := by
            rw [show (4 : F) = 2 * 2 by norm_num]; exact mul_ne_zero h2 h2
          have : 2 * ((x2 * Z2 * Z3 + x2 * Z3 * Z2) * (x2 * Z2 * (x2 * Z3) + a * Z2 * Z3)
              + 2 * b * Z2 ^ 2 * Z3 ^ 2) - x * (x2 * Z2 * Z3 - x2 * Z3 * Z2) ^ 2 = 4 * y2 ^ 2 * (Z2 * Z3) ^ 2 := by
            rw [e]; ring
          rw [this]
          exact mul_ne_zero (mul_ne_zero h4 (pow_ne_zero _ hy)) (pow_ne_zero _ (mul_ne_zero hz2 hz3))
      · obtain ⟨xs, ys, hs, xd, yd, hd, s1, s2, -, s4⟩ := sum_diff (W := curve a b) rfl rfl n2 n3 hx
        rw [s1, xrep_some]
        have hxd : xd = x := by
          rw [h, add_sub_cancel_left, Affine.Point.some.injEq] at s2
          exact s2.1.symm
        subst hxd
        have hne : x2 - x3 ≠ 0 := sub_ne_zero.mpr hx
        refine ⟨?_, ?_⟩
        · rw [show x2 * Z2 * Z3 - x3 * Z3 * Z2 = (x2 - x3) * (Z2 * Z3) by ring]
          exact pow_ne_zero _ (mul_ne_zero hne (mul_ne_zero hz2 hz3))
        · simp only [curve] at s4
          linear_combination -(Z2 * Z3) ^ 2 * s4

end field

/-! ### Evaluation -/

/-- `u - v` modulo `N`, as a natural number. -/
def subm (N u v : Nat) : Nat := u + (N - v % N)

/-- Continue with the evaluated number. -/
def force {α : Type} (n : Nat) (f : Nat → α) : α :=
  match n with
  | 0 => f 0
  | m + 1 => f (m + 1)

theorem force_eq {α : Type} (n : Nat) (f : Nat → α) : force n f = f n := by cases n <;> rfl

/-- The ladder: from `(k P, (k+1) P)` to `(k' P, (k'+1) P)` where `k'` is `k` followed by the `i` low bits of
`l`; the result is the `Z` coordinate of the first point. -/
def ladder (N a b x l : Nat) : Nat → Nat → Nat → Nat → Nat → Nat
  | 0, _, Z2, _, _ => Z2
  | i + 1, X2, Z2, X3, Z3 =>
    force (X2 * Z3 % N) fun u => force (X3 * Z2 % N) fun v => force (Z2 * Z3 % N) fun w =>
    force (subm N u v ^ 2 % N) fun ZA =>
    force (subm N (2 * ((u + v) * (X2 * X3 + a * w) + 2 * b * w ^ 2)) (x * ZA) % N) fun XA =>
    if (l >>> i) % 2 = 0 then
      force (X2 ^ 2 % N) fun s => force (Z2 ^ 2 % N) fun t => force (X2 * Z2 % N) fun m =>
      force (subm N (subm N s (a * t) ^ 2) (8 * b * (m * t)) % N) fun XD =>
      force (4 * (m * (s + a * t) + b * t ^ 2) % N) fun ZD =>
      ladder N a b x l i XD ZD XA ZA
    else
      force (X3 ^ 2 % N) fun s => force (Z3 ^ 2 % N) fun t => force (X3 * Z3 % N) fun m =>
      force (subm N (subm N s (a * t) ^ 2) (8 * b * (m * t)) % N) fun XD =>
      force (4 * (m * (s + a * t) + b * t ^ 2) % N) fun ZD =>
      ladder N a b x l i XA ZA XD ZD

variable {N q : Nat}

theorem cast_mod (hq : q ∣ N) (u : Nat) : ((u % N : Nat) : ZMod q) = u := by
  rw [ZMod.natCast_eq_natCast_iff]
  exact (Nat.mod_modEq u N).of_dvd hq

theorem cast_subm (hq : q ∣ N) (hN : 0 < N) (u v : Nat) : ((subm N u v : Nat) : ZMod q) = u - v := by
  have h0 : ((N : Nat) : ZMod q) = 0 := (ZMod.natCast_eq_zero_iff _ _).mpr hq
  rw [subm, Nat.cast_add, Nat.cast_sub (Nat.mod_lt _ hN).le, cast_mod hq, h0]
  ring

theorem ladder_eq [Fact q.Prime] (hq : q ∣ N) (hN : 0 < N) (a b x y l : Nat) (h2 : (2 : ZMod q) ≠ 0)
    (hd : 4 * (a : ZMod q) ^ 3 + 27 * (b : ZMod q) ^ 2 ≠ 0)
    (n : (curve (a : ZMod q) (b : ZMod q)).Nonsingular (x : ZMod q) (y : ZMod q)) (i k X2 Z2 X3 Z3 : Nat)
    (r2 : XRep (X2 : ZMod q) Z2 (k • Affine.Point.some _ _ n))
    (r3 : XRep (X3 : ZMod q) Z3 ((k + 1) • Affine.Point.some _ _ n)) :
    ∃ X : ZMod q, XRep X (ladder N a b x l i X2 Z2 X3 Z3 : Nat)
      ((k * 2 ^ i + l % 2 ^ i) • Affine.Point.some _ _ n) := by
  induction i generalizing k X2 Z2 X3 Z3 with
  | zero => exact ⟨X2, by simpa [ladder, Nat.mod_one] using r2⟩
  | succ i ih =>
    have hbit : l % 2 ^ (i + 1) = (l >>> i) % 2 * 2 ^ i + l % 2 ^ i := by
      rw [Nat.shiftRight_eq_div_pow, pow_succ, Nat.mod_mul]; ring
    have hA := xrep_add h2 (succ_nsmul (Affine.Point.some _ _ n) k) r2 r3
    rw [← add_smul] at hA
    rw [ladder]
    simp only [force_eq]
    split
    · next hb =>
      rw [hb, zero_mul, zero_add] at hbit
      have hD := xrep_dbl h2 hd r2
      rw [← add_smul] at hD
      rw [hbit, show k * 2 ^ (i + 1) = (2 * k) * 2 ^ i by ring]
      refine ih _ _ _ _ _ ?_ ?_
      · rw [two_mul]
        convert hD using 1 <;>
        · simp only [cast_mod hq, cast_subm hq hN, Nat.cast_mul, Nat.cast_add, Nat.cast_pow, Nat.cast_ofNat]
          try ring
      · rw [show 2 * k + 1 = k + (k + 1) by ring]
        convert hA using 1 <;>
        · simp only [cast_mod hq, cast_subm hq hN, Nat.cast_mul, Nat.cast_add, Nat.cast_pow, Nat.cast_ofNat]
          try ring
    · next hb =>
      rw [show (l >>> i) % 2 = 1 by omega, one_mul] at hbit
      have hD := xrep_dbl h2 hd r3
      rw [← add_smul] at hD
      rw [hbit, show k * 2 ^ (i + 1) + (2 ^ i + l % 2 ^ i) = (2 * k + 1) * 2 ^ i + l % 2 ^ i by ring]
      refine ih _ _ _ _ _ ?_ ?_
      · rw [show 2 * k + 1 = k + (k + 1) by ring]
        convert hA using 1 <;>
        · simp only [cast_mod hq, cast_subm hq hN, Nat.cast_mul, Nat.cast_add, Nat.cast_pow, Nat.cast_ofNat]
          try ring
      · rw [show 2 * k + 1 + 1 = k + 1 + (k + 1) by ring]
        convert hD using 1 <;>
        · simp only [cast_mod hq, cast_subm hq hN, Nat.cast_mul, Nat.cast_add, Nat.cast_pow, Nat.cast_ofNat]
          try ring

/-- The arithmetic part of a certificate: `(x, y)` is a point of `y² = x³ + a x + b` modulo `N`, the
discriminant is prime to `2 N`, and the multiple by `l` is the point at infinity. -/
def stepOk (bits N a b x y l : Nat) : Bool :=
  decide (1 < N) && decide (l < 2 ^ bits) && decide (Nat.gcd (2 * (4 * a ^ 3 + 27 * b ^ 2)) N = 1) &&
    decide (y ^ 2 % N = (x ^ 3 + a * x + b) % N) && decide (ladder N a b x l bits 1 0 x 1 % N = 0)

structure Step (bits N a b x y l : Nat) : Prop where
  one_lt : 1 < N
  lt : l < 2 ^ bits
  coprime : Nat.gcd (2 * (4 * a ^ 3 + 27 * b ^ 2)) N = 1
  point : y ^ 2 % N = (x ^ 3 + a * x + b) % N
  zero : ladder N a b x l bits 1 0 x 1 % N = 0

theorem step_of_ok {bits N a b x y l : Nat} (h : stepOk bits N a b x y l = true) : Step bits N a b x y l := by
  simp only [stepOk, Bool.and_eq_true, decide_eq_true_eq] at h
  obtain ⟨⟨⟨⟨h1, h2⟩, h3⟩, h4⟩, h5⟩ := h
  exact ⟨h1, h2, h3, h4, h5⟩

namespace Step
variable {bits a b x y l : Nat}

theorem two_ne [Fact q.Prime] (h : Step bits N a b x y l) (hq : q ∣ N) : (2 : ZMod q) ≠ 0 := by
  intro h0
  have h1 : ((2 : Nat) : ZMod q) = 0 := by exact_mod_cast h0
  rw [ZMod.natCast_eq_zero_iff] at h1
  have h2 : q ∣ 1 := by rw [← h.coprime]; exact Nat.dvd_gcd (h1.mul_right _) hq
  exact (Fact.out : q.Prime).one_lt.ne' (Nat.dvd_one.mp h2)

theorem disc_ne [Fact q.Prime] (h : Step bits N a b x y l) (hq : q ∣ N) :
    4 * (a : ZMod q) ^ 3 + 27 * (b : ZMod q) ^ 2 ≠ 0 := by
  intro h0
  have h1 : ((4 * a ^ 3 + 27 * b ^ 2 : Nat) : ZMod q) = 0 := by push_cast; exact h0
  rw [ZMod.natCast_eq_zero_iff] at h1
  have h2 : q ∣ 1 := by rw [← h.coprime]; exact Nat.dvd_gcd (h1.mul_left _) hq
  exact (Fact.out : q.Prime).one_lt.ne' (Nat.dvd_one.mp h2)

theorem eqn [Fact q.Prime] (h : Step bits N a b x y l) (hq : q ∣ N) :
    (y : ZMod q) ^ 2 = (x : ZMod q) ^ 3 + a * x + b := by
  have h1 : y ^ 2 ≡ x ^ 3 + a * x + b [MOD q] := Nat.ModEq.of_dvd hq h.point
  have h2 := (ZMod.natCast_eq_natCast_iff _ _ _).mpr h1
  push_cast at h2
  exact h2

theorem nonsing [Fact q.Prime] (h : Step bits N a b x y l) (hq : q ∣ N) :
    (curve (a : ZMod q) (b : ZMod q)).Nonsingular (x : ZMod q) (y : ZMod q) :=
  nonsingular (h.two_ne hq) (h.disc_ne hq) (h.eqn hq)

theorem smul_zero [Fact q.Prime] (h : Step bits N a b x y l) (hq : q ∣ N) :
    l • (Affine.Point.some _ _ (h.nonsing hq) : (curve (a : ZMod q) (b : ZMod q)).Point) = 0 := by
  obtain ⟨X, hX⟩ := ladder_eq (N := N) hq (by have := h.one_lt; omega) a b x y l (h.two_ne hq) (h.disc_ne hq)
    (h.nonsing hq) bits 0 1 0 x 1 (by rw [zero_nsmul, xrep_zero]; simp)
    (by rw [zero_add, one_nsmul, xrep_some]; simp)
  rw [zero_mul, zero_add, Nat.mod_eq_of_lt h.lt] at hX
  have hz : ((ladder N a b x l bits 1 0 x 1 : Nat) : ZMod q) = 0 := by
    rw [← cast_mod hq, h.zero, Nat.cast_zero]
  rw [hz] at hX
  cases hP : l • (Affine.Point.some _ _ (h.nonsing hq) : (curve (a : ZMod q) (b : ZMod q)).Point) with
  | zero => rfl
  | some x' y' n' =>
    rw [hP, xrep_some] at hX
    exact absurd rfl hX.1

end Step

/-- x-coordinate, arbitrary at infinity. -/
def xOf {F : Type} [Field F] {W : Affine F} : W.Point → F
  | .zero => 0
  | .some x _ _ => x

theorem bound [Fact q.Prime] {bits a b x y l : Nat} (h : Step bits N a b x y l) (hq : q ∣ N) (hl : l.Prime)
    (h2 : l ≠ 2) : l - 1 ≤ 2 * q := by
  set P : (curve (a : ZMod q) (b : ZMod q)).Point := Affine.Point.some _ _ (h.nonsing hq) with hP
  have hP0 : P ≠ 0 := by rw [hP]; simp [Affine.Point.zero_def]
  have : Fact l.Prime := ⟨hl⟩
  have hord : addOrderOf P = l := addOrderOf_eq_prime (h.smul_zero hq) hP0
  have hodd := hl.eq_two_or_odd'.resolve_left h2
  have hnz : ∀ k, 0 < k → k < l → k • P ≠ 0 := by
    intro k hk hkl h0
    have := addOrderOf_dvd_of_nsmul_eq_zero h0
    rw [hord] at this
    exact absurd (Nat.le_of_dvd hk this) (by omega)
  have hinj : Function.Injective fun k : Fin ((l - 1) / 2) => xOf ((k.1 + 1) • P) := by
    intro j k hjk
    have hj := hnz (j.1 + 1) (by omega) (by have := j.2; omega)
    have hk := hnz (k.1 + 1) (by omega) (by have := k.2; omega)
    simp only at hjk
    have key : (j.1 + 1) • P = (k.1 + 1) • P ∨ (j.1 + 1) • P = -((k.1 + 1) • P) := by
      cases hA : (j.1 + 1) • P with
      | zero => exact absurd hA hj
      | some x1 y1 n1 =>
        cases hB : (k.1 + 1) • P with
        | zero => exact absurd hB hk
        | some x2 y2 n2 =>
          rw [hA, hB] at hjk
          simp only [xOf] at hjk
          subst hjk
          exact eq_or_neg (W := curve (a : ZMod q) (b : ZMod q)) rfl rfl n1 n2
    rcases key with he | he
    · have h3 := (nsmul_inj_mod (x := P)).mp he
      rw [hord, Nat.mod_eq_of_lt (by have := j.2; omega), Nat.mod_eq_of_lt (by have := k.2; omega)] at h3
      ext; omega
    · exfalso
      refine hnz (j.1 + 1 + (k.1 + 1)) (by omega) (by have := j.2; have := k.2; omega) ?_
      rw [add_smul, he, neg_add_cancel]
  have hc := Fintype.card_le_of_injective _ hinj
  rw [Fintype.card_fin, ZMod.card] at hc
  obtain ⟨t, ht⟩ := hodd
  omega

theorem prime_of_step {bits N a b x y l : Nat} (h : Step bits N a b x y l) (hl : l.Prime)
    (hb : 4 * N < (l - 1) ^ 2) : N.Prime := by
  by_contra hN
  have hN1 := h.one_lt
  have hp : (N.minFac).Prime := Nat.minFac_prime (by omega)
  have : Fact N.minFac.Prime := ⟨hp⟩
  have h2 : l ≠ 2 := by rintro rfl; omega
  have hle := bound h (Nat.minFac_dvd N) hl h2
  have hsq : N.minFac ^ 2 ≤ N := Nat.minFac_sq_le_self (by omega) hN
  have : (l - 1) ^ 2 ≤ (2 * N.minFac) ^ 2 := Nat.pow_le_pow_left hle 2
  nlinarith

/-! ### Small primes and chains -/

/-- No divisor among `d, d+2, ..., d+2(k-1)`. -/
def noDivisor (n : Nat) : Nat → Nat → Bool
  | 0, _ => true
  | k + 1, d => force d fun d => if n % d = 0 then false else noDivisor n k (d + 2)

theorem noDivisor_spec (n k d m : Nat) (h : noDivisor n k d = true) (h1 : d ≤ m) (h2 : m < d + 2 * k)
    (h3 : m % 2 = d % 2) : ¬ m ∣ n := by
  induction k generalizing d with
  | zero => omega
  | succ k ih =>
    rw [noDivisor, force_eq] at h
    split at h
    · simp at h
    · next hd =>
      by_cases hm : m = d
      · subst hm; rwa [Nat.dvd_iff_mod_eq_zero]
      · exact ih (d + 2) h (by omega) (by omega) (by omega)

/-- Trial division by 2 and by the odd numbers below `2 k + 3`, whose square exceeds `n`. -/
def smallOk (k n : Nat) : Bool :=
  decide (2 < n) && decide (n % 2 = 1) && noDivisor n k 3 && decide (n < (2 * k + 3) ^ 2)

theorem prime_of_small {k n : Nat} (h : smallOk k n = true) : n.Prime := by
  simp only [smallOk, Bool.and_eq_true, decide_eq_true_eq] at h
  obtain ⟨⟨⟨h1, h2⟩, h3⟩, h4⟩ := h
  by_contra hn
  have hp : (n.minFac).Prime := Nat.minFac_prime (by omega)
  have hsq : n.minFac ^ 2 ≤ n := Nat.minFac_sq_le_self (by omega) hn
  have hlt : n.minFac < 2 * k + 3 := lt_of_pow_lt_pow_left₀ 2 (by omega) (lt_of_le_of_lt hsq h4)
  rcases hp.eq_two_or_odd with h5 | h5
  · have := Nat.minFac_dvd n
    rw [h5] at this
    omega
  · have h6 := hp.two_le
    exact noDivisor_spec n k 3 n.minFac h3 (by omega) (by omega) (by omega) (Nat.minFac_dvd n)

/-- A chain of certificates `(N, a, b, x, y)`, each for the prime of the next; the last prime is `n`. -/
def chainOk (n : Nat) : List (Nat × Nat × Nat × Nat × Nat) → Bool
  | [] => smallOk 2047 n
  | [(N, a, b, x, y)] => stepOk (n.log2 + 1) N a b x y n && decide (4 * N < (n - 1) ^ 2) && smallOk 2047 n
  | (N, a, b, x, y) :: (M, r) :: rest =>
    stepOk (M.log2 + 1) N a b x y M && decide (4 * N < (M - 1) ^ 2) && chainOk n ((M, r) :: rest)

theorem prime_of_chain (n : Nat) (c : List (Nat × Nat × Nat × Nat × Nat)) (h : chainOk n c = true) :
    ((c.map Prod.fst).headD n).Prime := by
  induction c with
  | nil => exact prime_of_small h
  | cons s c ih =>
    obtain ⟨N, a, b, x, y⟩ := s
    cases c with
    | nil =>
      simp only [chainOk, Bool.and_eq_true, decide_eq_true_eq] at h
      exact prime_of_step (step_of_ok h.1.1) (prime_of_small h.2) h.1.2
    | cons t c =>
      obtain ⟨M, r⟩ := t
      simp only [chainOk, Bool.and_eq_true, decide_eq_true_eq] at h
      exact prime_of_step (step_of_ok h.1.1) (ih h.2) h.1.2

end Cryptopy.Ecpp
