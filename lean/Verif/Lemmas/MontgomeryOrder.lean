import Verif.Lemmas.Montgomery
import Verif.Lemmas.Ladder
import Verif.Lemmas.Ecpp
import Mathlib.GroupTheory.OrderOfElement
import Mathlib.SetTheory.Cardinal.Finite

/-!
Orders of points and the number of points of Montgomery curves, by evaluation of the reduced ladder.
-/

namespace Cryptopy.MOrder
open Cryptopy Cryptopy.Model Cryptopy.Spec Cryptopy.Ecpp Cryptopy.XOnly WeierstrassCurve

section count
variable {p : Nat} [Fact p.Prime] {a : Int}

private def side : (mCurve p a).Point → Option (ZMod p × Bool)
  | .zero => none
  | .some x y _ => some (x, decide (y.val ≤ p / 2))

private theorem side_injective (h2 : p ≠ 2) : Function.Injective (side (p := p) (a := a)) := by
  intro P Q h
  have hodd := (Fact.out : p.Prime).eq_two_or_odd.resolve_left h2
  cases P with
  | zero =>
    cases Q with
    | zero => rfl
    | some x y n => simp [side] at h
  | some x y n =>
    cases Q with
    | zero => simp [side] at h
    | some x' y' n' =>
      simp only [side, Option.some.injEq, Prod.mk.injEq, decide_eq_decide] at h
      obtain ⟨rfl, hs⟩ := h
      have e1 := (mCurve_equation _ _).mp n.1
      have e2 := (mCurve_equation _ _).mp n'.1
      have hy : y = y' := by
        rcases sq_eq_sq_iff_eq_or_eq_neg.mp (e1.trans e2.symm) with h | h
        · exact h
        · by_cases h0 : y' = 0
          · rw [h, h0, neg_zero]
          · exfalso
            rw [h, ZMod.neg_val, if_neg h0] at hs
            have l1 := ZMod.val_lt y'
            have l2 : 0 < y'.val := Nat.pos_of_ne_zero ((ZMod.val_ne_zero y').mpr h0)
            omega
      subst hy
      rfl

theorem finite_points (h2 : p ≠ 2) : Finite (mCurve p a).Point := Finite.of_injective _ (side_injective h2)

theorem card_points_le (h2 : p ≠ 2) : Nat.card (mCurve p a).Point ≤ 2 * p + 1 := by
  have h := Nat.card_le_card_of_injective _ (side_injective (p := p) (a := a) h2)
  have e : Nat.card (Option (ZMod p × Bool)) = 2 * p + 1 := by
    rw [Finite.card_option, Nat.card_prod, Nat.card_zmod, Nat.card_eq_fintype_card, Fintype.card_bool, mul_comm]
  rwa [e] at h

theorem card_points (h2 : p ≠ 2) (Q R : (mCurve p a).Point) (n : Nat) (hn : Odd n) (hQ : addOrderOf Q = n)
    (hR : addOrderOf R = 8) (hb : 2 * p + 1 < 2 * (8 * n)) : Nat.card (mCurve p a).Point = 8 * n := by
  have := finite_points (p := p) (a := a) h2
  have hle := card_points_le (p := p) (a := a) h2
  have hpos : 0 < Nat.card (mCurve p a).Point := Nat.card_pos
  have hdvd : 8 * n ∣ Nat.card (mCurve p a).Point := by
    refine Nat.Coprime.mul_dvd_of_dvd_of_dvd ?_ (hR ▸ addOrderOf_dvd_natCard R) (hQ ▸ addOrderOf_dvd_natCard Q)
    exact Nat.Coprime.pow_left 3 (Nat.coprime_two_left.mpr hn)
  obtain ⟨m, hm⟩ := hdvd
  have hm2 : m < 2 := by
    by_contra h
    have := Nat.mul_le_mul_left (8 * n) (show 2 ≤ m by omega)
    omega
  have hm1 : m = 1 := by
    rcases Nat.eq_zero_or_pos m with h | h
    · subst h; omega
    · omega
  rw [hm, hm1, mul_one]

end count

/-! ### Evaluation -/

/-- The ladder with reduced numbers: from `(k P, (k+1) P)` to the multiples by `k` followed by the `i` low bits of `l`;
the result is the `Z` coordinate of the first point. -/
def mLadder (p a x l : Nat) : Nat → Nat → Nat → Nat → Nat → Nat
  | 0, _, Z2, _, _ => Z2
  | i + 1, X2, Z2, X3, Z3 =>
    force (subm p (X2 * X3) (Z2 * Z3) ^ 2 % p) fun XA =>
    force (x * (subm p (X2 * Z3) (Z2 * X3) ^ 2 % p) % p) fun ZA =>
    if (l >>> i) % 2 = 0 then
      force (X2 ^ 2 % p) fun s => force (Z2 ^ 2 % p) fun t => force (X2 * Z2 % p) fun m =>
      force (subm p s t ^ 2 % p) fun XD => force (4 * m * (s + a * m + t) % p) fun ZD =>
      mLadder p a x l i XD ZD XA ZA
    else
      force (X3 ^ 2 % p) fun s => force (Z3 ^ 2 % p) fun t => force (X3 * Z3 % p) fun m =>
      force (subm p s t ^ 2 % p) fun XD => force (4 * m * (s + a * m + t) % p) fun ZD =>
      mLadder p a x l i XA ZA XD ZD

section eval
variable {p : Nat} [Fact p.Prime]

theorem mLadder_eq (a x y l : Nat) (h2 : (2 : ZMod p) ≠ 0) (ha : (a : ZMod p) ^ 2 ≠ 4) (hx : (x : ZMod p) ≠ 0)
    (n : (mCurve p a).Nonsingular (x : ZMod p) (y : ZMod p)) (i k X2 Z2 X3 Z3 : Nat)
    (r2 : XRep (X2 : ZMod p) Z2 (k • Affine.Point.some _ _ n))
    (r3 : XRep (X3 : ZMod p) Z3 ((k + 1) • Affine.Point.some _ _ n)) :
    ∃ X : ZMod p, XRep X (mLadder p a x l i X2 Z2 X3 Z3 : Nat)
      ((k * 2 ^ i + l % 2 ^ i) • Affine.Point.some _ _ n) := by
  have hp0 : 0 < p := (Fact.out : p.Prime).pos
  have hpp : p ∣ p := dvd_rfl
  have ha2 : (mCurve p a).a₂ = (a : ZMod p) := by simp [mCurve]
  induction i generalizing k X2 Z2 X3 Z3 with
  | zero => exact ⟨X2, by simpa [mLadder, Nat.mod_one] using r2⟩
  | succ i ih =>
    have hbit : l % 2 ^ (i + 1) = (l >>> i) % 2 * 2 ^ i + l % 2 ^ i := by
      rw [Nat.shiftRight_eq_div_pow, pow_succ, Nat.mod_mul]; ring
    have hA := xrep_diffAdd (W := mCurve p a) rfl rfl rfl rfl h2 n hx (succ_nsmul (Affine.Point.some _ _ n) k) r2 r3
    rw [← add_nsmul] at hA
    rw [mLadder]
    simp only [force_eq]
    split
    · next hb =>
      rw [hb, zero_mul, zero_add] at hbit
      have hD := xrep_mdouble (W := mCurve p a) rfl rfl rfl rfl h2 (by rw [ha2]; exact ha) r2
      rw [← add_nsmul, ha2] at hD
      rw [hbit, show k * 2 ^ (i + 1) = (2 * k) * 2 ^ i by ring]
      refine ih _ _ _ _ _ ?_ ?_
      · rw [two_mul]
        convert hD using 1 <;>
        · simp only [cast_mod hpp, cast_subm hpp hp0, Nat.cast_mul, Nat.cast_add, Nat.cast_pow, Nat.cast_ofNat]
          try ring
      · rw [show 2 * k + 1 = k + (k + 1) by ring]
        convert hA using 1 <;>
        · simp only [cast_mod hpp, cast_subm hpp hp0, Nat.cast_mul, Nat.cast_pow]
    · next hb =>
      rw [show (l >>> i) % 2 = 1 by omega, one_mul] at hbit
      have hD := xrep_mdouble (W := mCurve p a) rfl rfl rfl rfl h2 (by rw [ha2]; exact ha) r3
      rw [← add_nsmul, ha2] at hD
      rw [hbit, show k * 2 ^ (i + 1) + (2 ^ i + l % 2 ^ i) = (2 * k + 1) * 2 ^ i + l % 2 ^ i by ring]
      refine ih _ _ _ _ _ ?_ ?_
      · rw [show 2 * k + 1 = k + (k + 1) by ring]
        convert hA using 1 <;>
        · simp only [cast_mod hpp, cast_subm hpp hp0, Nat.cast_mul, Nat.cast_pow]
      · rw [show 2 * k + 1 + 1 = k + 1 + (k + 1) by ring]
        convert hD using 1 <;>
        · simp only [cast_mod hpp, cast_subm hpp hp0, Nat.cast_mul, Nat.cast_add, Nat.cast_pow, Nat.cast_ofNat]
          try ring

/-- Is the multiple by `l` the point at infinity? -/
def mZero (p a x l bits : Nat) : Bool := decide (mLadder p a x l bits 1 0 x 1 % p = 0)

theorem mZero_iff (a x y l bits : Nat) (h2 : (2 : ZMod p) ≠ 0) (ha : (a : ZMod p) ^ 2 ≠ 4) (hx : (x : ZMod p) ≠ 0)
    (n : (mCurve p a).Nonsingular (x : ZMod p) (y : ZMod p)) (hl : l < 2 ^ bits) :
    mZero p a x l bits = true ↔ l • Affine.Point.some _ _ n = 0 := by
  obtain ⟨X, hX⟩ := mLadder_eq a x y l h2 ha hx n bits 0 1 0 x 1 (by rw [zero_nsmul, xrep_zero]; simp)
    (by rw [zero_add, one_nsmul, xrep_some]; simp)
  rw [zero_mul, zero_add, Nat.mod_eq_of_lt hl] at hX
  rw [mZero, decide_eq_true_eq, ← Nat.dvd_iff_mod_eq_zero, ← ZMod.natCast_eq_zero_iff]
  generalize l • Affine.Point.some _ _ n = Q at *
  cases Q with
  | zero => exact ⟨fun _ => rfl, fun _ => hX.1⟩
  | some x' y' n' => exact ⟨fun h => absurd h (xrep_some.mp hX).1, nofun⟩

/-- The checks on one curve: the point `(x, y)` and the prime `n`, a point `(r, s)` of order eight. -/
def mOk (p a x y n r s : Nat) : Bool :=
  decide (2 < p) && decide (a ^ 2 % p ≠ 4 % p) && decide (x % p ≠ 0) && decide (r % p ≠ 0) &&
    decide (y ^ 2 % p = (x ^ 3 + a * x ^ 2 + x) % p) && decide (s ^ 2 % p = (r ^ 3 + a * r ^ 2 + r) % p) &&
    mZero p a x n (n.log2 + 1) && mZero p a r 8 4 && !mZero p a r 4 4 && decide (2 < n) &&
    decide (2 * p + 1 < 2 * (8 * n))

theorem of_mOk {a x y n r s : Nat} (h : mOk p a x y n r s = true) (hn : n.Prime) :
    p ≠ 2 ∧ ¬ ((a : Int) ^ 2 ≡ 4 [ZMOD p]) ∧
    ∃ ns : (mCurve p a).Nonsingular (x : ZMod p) (y : ZMod p), addOrderOf (Affine.Point.some _ _ ns) = n ∧
      Nat.card (mCurve p a).Point = 8 * n := by
  rw [mOk] at h
  simp only [Bool.and_eq_true, decide_eq_true_eq, Bool.not_eq_true'] at h
  obtain ⟨⟨⟨⟨⟨⟨⟨⟨⟨⟨h1, h2⟩, h3⟩, h4⟩, h5⟩, h6⟩, h7⟩, h8⟩, h9⟩, h10⟩, h11⟩ := h
  have hp2 : p ≠ 2 := by omega
  have h2' := two_ne_zero_zmod (p := p) hp2
  have ha : (a : ZMod p) ^ 2 ≠ 4 := by
    intro h
    have : ((a ^ 2 : Nat) : ZMod p) = ((4 : Nat) : ZMod p) := by push_cast; exact h
    exact h2 ((ZMod.natCast_eq_natCast_iff _ _ _).mp this)
  have ha' : (((a : Nat) : Int) : ZMod p) ^ 2 ≠ 4 := by rw [Int.cast_natCast]; exact ha
  have nz : ∀ u : Nat, u % p ≠ 0 → (u : ZMod p) ≠ 0 := fun u hu h =>
    hu (Nat.dvd_iff_mod_eq_zero.mp ((ZMod.natCast_eq_zero_iff _ _).mp h))
  have on : ∀ u v : Nat, v ^ 2 % p = (u ^ 3 + a * u ^ 2 + u) % p →
      (mCurve p a).Nonsingular (u : ZMod p) (v : ZMod p) := by
    intro u v huv
    refine m_nonsingular hp2 ha' ?_
    have := (ZMod.natCast_eq_natCast_iff _ _ _).mpr huv
    push_cast at this ⊢
    exact this
  have n1 := on x y h5
  have n2 := on r s h6
  have o1 : addOrderOf (Affine.Point.some _ _ n1) = n := by
    have : Fact n.Prime := ⟨hn⟩
    refine addOrderOf_eq_prime ?_ (Affine.Point.some_ne_zero n1)
    exact (mZero_iff a x y n _ h2' ha (nz x h3) n1 Nat.lt_log2_self).mp h7
  have o2 : addOrderOf (Affine.Point.some _ _ n2) = 8 := by
    have : Fact (Nat.Prime 2) := ⟨Nat.prime_two⟩
    refine addOrderOf_eq_prime_pow (p := 2) (n := 2) ?_ ?_
    · rw [show 2 ^ 2 = 4 by norm_num, ← mZero_iff a r s 4 4 h2' ha (nz r h4) n2 (by norm_num), h9]
      exact Bool.false_ne_true
    · exact (mZero_iff a r s 8 4 h2' ha (nz r h4) n2 (by norm_num)).mp h8
  refine ⟨hp2, ?_, n1, o1, card_points hp2 _ _ n (hn.odd_of_ne_two (by omega)) o1 o2 h11⟩
  rw [← ZMod.intCast_eq_intCast_iff]
  push_cast
  exact ha

end eval

end Cryptopy.MOrder
