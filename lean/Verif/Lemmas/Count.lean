import Verif.Lemmas.Ecpp
import Mathlib.GroupTheory.Perm.Cycle.Type
import Mathlib.GroupTheory.Index
import Mathlib.SetTheory.Cardinal.Finite

/-!
The number of points of a curve without a root of `x³ + a x + b`: an odd multiple of the order of a point, at most
`2 p + 1`.
-/

namespace Cryptopy.Ecpp
open WeierstrassCurve

/-! ### The number of points is at most `2 p + 1` -/

section count
variable {p : Nat} [Fact p.Prime]

/-- The x coordinate and the half in which y lies. -/
def side {a b : ZMod p} : (curve a b).Point → Option (ZMod p × Bool)
  | .zero => none
  | .some x y _ => some (x, decide (y.val ≤ p / 2))

theorem side_injective {a b : ZMod p} (h2 : p ≠ 2) : Function.Injective (side (a := a) (b := b)) := by
  intro P Q h
  have hodd := (Fact.out : p.Prime).eq_two_or_odd.resolve_left h2
  cases P with
  | zero =>
    cases Q with
    | zero => rfl
    | some x y n => simp [side] at h
  | some x y n =>
    cases Q with
    | zero => simp [side] at h
    | some x' y' n' =>
      simp only [side, Option.some.injEq, Prod.mk.injEq, decide_eq_decide] at h
      obtain ⟨rfl, hs⟩ := h
      have e1 : y ^ 2 = x ^ 3 + a * x + b := by
        have := (Affine.equation_iff _ _).mp n.1
        simp only [curve] at this
        linear_combination this
      have e2 : y' ^ 2 = x ^ 3 + a * x + b := by
        have := (Affine.equation_iff _ _).mp n'.1
        simp only [curve] at this
        linear_combination this
      have hy : y = y' := by
        rcases sq_eq_sq_iff_eq_or_eq_neg.mp (e1.trans e2.symm) with h | h
        · exact h
        · by_cases h0 : y' = 0
          · rw [h, h0, neg_zero]
          · exfalso
            rw [h, ZMod.neg_val, if_neg h0] at hs
            have l1 := ZMod.val_lt y'
            have l2 : 0 < y'.val := Nat.pos_of_ne_zero ((ZMod.val_ne_zero y').mpr h0)
            omega
      subst hy
      rfl

theorem finite_points {a b : ZMod p} (h2 : p ≠ 2) : Finite (curve a b).Point :=
  Finite.of_injective _ (side_injective h2)

theorem card_points_le {a b : ZMod p} (h2 : p ≠ 2) : Nat.card (curve a b).Point ≤ 2 * p + 1 := by
  have h := Nat.card_le_card_of_injective _ (side_injective (a := a) (b := b) h2)
  have e : Nat.card (Option (ZMod p × Bool)) = 2 * p + 1 := by
    rw [Finite.card_option, Nat.card_prod, Nat.card_zmod, Nat.card_eq_fintype_card, Fintype.card_bool, mul_comm]
  rwa [e] at h

/-- A curve without a point of order two and with a point of large order `n` has `n` points. -/
theorem card_points {a b : ZMod p} (h2 : p ≠ 2) (hroot : ∀ x : ZMod p, x ^ 3 + a * x + b ≠ 0)
    (Q : (curve a b).Point) (n : Nat) (hn : addOrderOf Q = n) (hb : 2 * p + 1 < 3 * n) :
    Nat.card (curve a b).Point = n := by
  have := finite_points (a := a) (b := b) h2
  have hle := card_points_le (a := a) (b := b) h2
  obtain ⟨m, hm⟩ : n ∣ Nat.card (curve a b).Point := hn ▸ addOrderOf_dvd_natCard Q
  have hpos : 0 < Nat.card (curve a b).Point := Nat.card_pos
  have hm3 : m < 3 := by
    by_contra h
    have : n * 3 ≤ n * m := Nat.mul_le_mul_left n (by omega)
    omega
  have hm2 : m ≠ 2 := by
    rintro rfl
    obtain ⟨T, hT⟩ := exists_prime_addOrderOf_dvd_card' (G := (curve a b).Point) 2 ⟨n, by rw [hm, mul_comm]⟩
    have hT0 : T ≠ 0 := by
      rintro rfl
      rw [addOrderOf_zero] at hT
      omega
    have hTT : T + T = 0 := by
      have := addOrderOf_nsmul_eq_zero T
      rwa [hT, two_nsmul] at this
    cases T with
    | zero => exact hT0 rfl
    | some x y h =>
      have hneg : (Affine.Point.some x y h : (curve a b).Point) = -Affine.Point.some x y h :=
        eq_neg_of_add_eq_zero_left hTT
      rw [Affine.Point.neg_some, Affine.Point.some.injEq] at hneg
      have hy : y = -y := by
        have := hneg.2
        simpa [Affine.negY, curve] using this
      have hy0 : y = 0 := by
        have h3 : 2 * y = 0 := by linear_combination hy
        refine (mul_eq_zero.mp h3).resolve_left fun h0 => ?_
        have h4 : ((2 : Nat) : ZMod p) = 0 := by exact_mod_cast h0
        rw [ZMod.natCast_eq_zero_iff] at h4
        exact h2 ((Nat.prime_dvd_prime_iff_eq (Fact.out) Nat.prime_two).mp h4)
      have he := (Affine.equation_iff _ _).mp h.1
      simp only [curve, hy0] at he
      exact hroot x (by linear_combination -he)
  have hm1 : m = 1 := by
    rcases Nat.eq_zero_or_pos m with h | h
    · subst h; omega
    · omega
  rw [hm, hm1, mul_one]

/-- In a group with as many elements as the order of `Q`, everything is a multiple of `Q`. -/
theorem multiple_of_card {G : Type} [AddGroup G] [Finite G] (Q T : G) (h : Nat.card G = addOrderOf Q) :
    ∃ k : Nat, T = k • Q := by
  classical
  have hz : AddSubgroup.zmultiples Q = ⊤ := AddSubgroup.eq_top_of_card_eq _ (by rw [Nat.card_zmultiples, h])
  have hT : T ∈ AddSubgroup.zmultiples Q := by rw [hz]; trivial
  obtain ⟨k, hk⟩ := (mem_zmultiples_iff_mem_range_addOrderOf (x := Q)).mp hT |> Finset.mem_image.mp
  exact ⟨k, hk.2.symm⟩

end count

/-! ### No roots -/

/-- The product of `c0 + c1 X + c2 X²` and `d0 + d1 X + d2 X²` modulo `X³ + a X + b` and `p`. -/
def mulCubic (p a b c0 c1 c2 d0 d1 d2 : Nat) {α : Type} (k : Nat → Nat → Nat → α) : α :=
  force ((c1 * d2 + c2 * d1) % p) fun d3 => force (c2 * d2 % p) fun d4 =>
  force ((c0 * d0 + (p - b) * d3) % p) fun e0 =>
  force ((c0 * d1 + c1 * d0 + (p - a) * d3 + (p - b) * d4) % p) fun e1 =>
  force ((c0 * d2 + c1 * d1 + c2 * d0 + (p - a) * d4) % p) fun e2 => k e0 e1 e2

/-- `X` to the power of `l`, from the power of `l / 2 ^ i` on, then `k`. -/
def powCubic (p a b l : Nat) {α : Type} (k : Nat → Nat → Nat → α) : Nat → Nat → Nat → Nat → α
  | 0, c0, c1, c2 => k c0 c1 c2
  | i + 1, c0, c1, c2 => mulCubic p a b c0 c1 c2 c0 c1 c2 fun d0 d1 d2 =>
    if (l >>> i) % 2 = 0 then powCubic p a b l k i d0 d1 d2
    else mulCubic p a b d0 d1 d2 0 1 0 fun e0 e1 e2 => powCubic p a b l k i e0 e1 e2

/-- `v (X ^ p - X) = 1` modulo `X³ + a X + b` and `p`. -/
def noRootOk (p a b v0 v1 v2 : Nat) : Bool :=
  decide (a < p) && decide (b < p) && decide (p < 2 ^ (p.log2 + 1)) &&
    powCubic p a b p (fun c0 c1 c2 => mulCubic p a b c0 (c1 + (p - 1)) c2 v0 v1 v2 fun e0 e1 e2 =>
      decide (e0 % p = 1 % p ∧ e1 % p = 0 ∧ e2 % p = 0)) (p.log2 + 1) 1 0 0

section root
variable {p : Nat}

theorem mulCubic_spec {a b : Nat} (ha : a ≤ p) (hb : b ≤ p) (r : ZMod p) (hr : r ^ 3 + a * r + b = 0)
    (c0 c1 c2 d0 d1 d2 : Nat) {α : Type} (k : Nat → Nat → Nat → α) :
    ∃ e0 e1 e2 : Nat, mulCubic p a b c0 c1 c2 d0 d1 d2 k = k e0 e1 e2 ∧
      (e0 + e1 * r + e2 * r ^ 2 : ZMod p) = (c0 + c1 * r + c2 * r ^ 2) * (d0 + d1 * r + d2 * r ^ 2) := by
  refine ⟨_, _, _, by simp only [mulCubic, force_eq]; rfl, ?_⟩
  simp only [ZMod.natCast_mod, Nat.cast_add, Nat.cast_mul, Nat.cast_sub ha, Nat.cast_sub hb, ZMod.natCast_self]
  linear_combination -((c1 * d2 + c2 * d1 : ZMod p) + c2 * d2 * r) * hr

theorem powCubic_spec {a b : Nat} (ha : a ≤ p) (hb : b ≤ p) (r : ZMod p) (hr : r ^ 3 + a * r + b = 0)
    (l : Nat) {α : Type} (k : Nat → Nat → Nat → α) : ∀ (i m c0 c1 c2 : Nat),
    (c0 + c1 * r + c2 * r ^ 2 : ZMod p) = r ^ m →
    ∃ e0 e1 e2 : Nat, powCubic p a b l k i c0 c1 c2 = k e0 e1 e2 ∧
      (e0 + e1 * r + e2 * r ^ 2 : ZMod p) = r ^ (m * 2 ^ i + l % 2 ^ i) := by
  intro i
  induction i with
  | zero =>
    intro m c0 c1 c2 h
    exact ⟨c0, c1, c2, rfl, by rw [h, pow_zero, Nat.mod_one, mul_one, add_zero]⟩
  | succ i ih =>
    intro m c0 c1 c2 h
    have hm : l % 2 ^ (i + 1) = (l >>> i) % 2 * 2 ^ i + l % 2 ^ i := by
      rw [Nat.shiftRight_eq_div_pow, Nat.mod_pow_succ]; ring
    rw [powCubic]
    obtain ⟨d0, d1, d2, hd, ed⟩ := mulCubic_spec ha hb r hr c0 c1 c2 c0 c1 c2 (fun d0 d1 d2 =>
      if (l >>> i) % 2 = 0 then powCubic p a b l k i d0 d1 d2
      else mulCubic p a b d0 d1 d2 0 1 0 fun e0 e1 e2 => powCubic p a b l k i e0 e1 e2)
    rw [hd]
    rw [h, ← pow_add] at ed
    rcases Nat.mod_two_eq_zero_or_one (l >>> i) with hb' | hb'
    · rw [if_pos hb']
      obtain ⟨e0, e1, e2, he, ee⟩ := ih (m + m) d0 d1 d2 ed
      refine ⟨e0, e1, e2, he, ?_⟩
      rw [ee, hm, hb', pow_succ]
      congr 1
      ring
    · rw [if_neg (by omega)]
      obtain ⟨f0, f1, f2, hf, ef⟩ := mulCubic_spec ha hb r hr d0 d1 d2 0 1 0
        (fun e0 e1 e2 => powCubic p a b l k i e0 e1 e2)
      rw [hf]
      rw [ed] at ef
      obtain ⟨e0, e1, e2, he, ee⟩ := ih (m + m + 1) f0 f1 f2 (by
        rw [ef, pow_succ]; push_cast; ring)
      refine ⟨e0, e1, e2, he, ?_⟩
      rw [ee, hm, hb', pow_succ]
      congr 1
      ring

theorem noRoot [Fact p.Prime] {a b v0 v1 v2 : Nat} (h : noRootOk p a b v0 v1 v2 = true) (r : ZMod p) :
    r ^ 3 + a * r + b ≠ 0 := by
  intro hr
  rw [noRootOk, Bool.and_eq_true, Bool.and_eq_true, Bool.and_eq_true, decide_eq_true_eq, decide_eq_true_eq,
    decide_eq_true_eq] at h
  obtain ⟨⟨⟨ha, hb⟩, hl⟩, h⟩ := h
  obtain ⟨c0, c1, c2, hc, ec⟩ := powCubic_spec ha.le hb.le r hr p (fun c0 c1 c2 =>
    mulCubic p a b c0 (c1 + (p - 1)) c2 v0 v1 v2 fun e0 e1 e2 =>
      decide (e0 % p = 1 % p ∧ e1 % p = 0 ∧ e2 % p = 0)) (p.log2 + 1) 0 1 0 0 (by simp)
  rw [hc] at h
  rw [zero_mul, zero_add, Nat.mod_eq_of_lt hl, ZMod.pow_card] at ec
  obtain ⟨e0, e1, e2, he, ee⟩ := mulCubic_spec ha.le hb.le r hr c0 (c1 + (p - 1)) c2 v0 v1 v2
    (fun e0 e1 e2 => decide (e0 % p = 1 % p ∧ e1 % p = 0 ∧ e2 % p = 0))
  rw [he, decide_eq_true_eq] at h
  have h0 : ((e0 : Nat) : ZMod p) = 1 := by
    have := (ZMod.natCast_eq_natCast_iff' e0 1 p).mpr h.1
    rwa [Nat.cast_one] at this
  have h1 : ((e1 : Nat) : ZMod p) = 0 := (ZMod.natCast_eq_zero_iff _ _).mpr (Nat.dvd_of_mod_eq_zero h.2.1)
  have h2 : ((e2 : Nat) : ZMod p) = 0 := (ZMod.natCast_eq_zero_iff _ _).mpr (Nat.dvd_of_mod_eq_zero h.2.2)
  rw [h0, h1, h2, zero_mul, zero_mul, add_zero, add_zero] at ee
  have hz : (c0 + ((c1 + (p - 1) : Nat) : ZMod p) * r + c2 * r ^ 2 : ZMod p) = 0 := by
    rw [Nat.cast_add, Nat.cast_sub (Fact.out : p.Prime).one_lt.le, ZMod.natCast_self, Nat.cast_one]
    linear_combination ec
  rw [hz, zero_mul] at ee
  exact one_ne_zero ee

end root

end Cryptopy.Ecpp
