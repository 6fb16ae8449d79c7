import Verif.Spec.Edwards
import Verif.Lemmas.Ecpp
import Mathlib.GroupTheory.Sylow
import Mathlib.GroupTheory.OrderOfElement
import Mathlib.NumberTheory.LegendreSymbol.Basic
import Mathlib.SetTheory.Cardinal.Finite

/-!
Orders of points and the number of points of complete Edwards curves, by evaluation of the addition law in
projective coordinates.
-/

namespace Cryptopy.Spec.Edwards
open Cryptopy.Ecpp

section field
variable {K : Type} [Field K] {E : Edwards K}

/-- Projective coordinates of a point. -/
def Rep (X Y Z : K) (P : E.Point) : Prop := Z ≠ 0 ∧ X = P.x * Z ∧ Y = P.y * Z

theorem rep_add {X1 Y1 Z1 X2 Y2 Z2 : K} {P Q : E.Point} (h1 : Rep X1 Y1 Z1 P) (h2 : Rep X2 Y2 Z2 Q) :
    Rep (Z1 * Z2 * ((Z1 * Z2) ^ 2 - E.d * (X1 * X2) * (Y1 * Y2)) * (X1 * Y2 + X2 * Y1))
      (Z1 * Z2 * ((Z1 * Z2) ^ 2 + E.d * (X1 * X2) * (Y1 * Y2)) * (Y1 * Y2 - E.a * (X1 * X2)))
      (((Z1 * Z2) ^ 2 - E.d * (X1 * X2) * (Y1 * Y2)) * ((Z1 * Z2) ^ 2 + E.d * (X1 * X2) * (Y1 * Y2))) (P + Q) := by
  obtain ⟨z1, rfl, rfl⟩ := h1
  obtain ⟨z2, rfl, rfl⟩ := h2
  have hp := one_add_ne P.eqn Q.eqn
  have hm := one_sub_ne P.eqn Q.eqn
  have e1 : (Z1 * Z2) ^ 2 - E.d * (P.x * Z1 * (Q.x * Z2)) * (P.y * Z1 * (Q.y * Z2)) =
      (Z1 * Z2) ^ 2 * (1 - E.d * P.x * Q.x * P.y * Q.y) := by ring
  have e2 : (Z1 * Z2) ^ 2 + E.d * (P.x * Z1 * (Q.x * Z2)) * (P.y * Z1 * (Q.y * Z2)) =
      (Z1 * Z2) ^ 2 * (1 + E.d * P.x * Q.x * P.y * Q.y) := by ring
  rw [e1, e2]
  refine ⟨?_, ?_, ?_⟩
  · have := mul_ne_zero z1 z2
    exact mul_ne_zero (mul_ne_zero (pow_ne_zero _ this) hm) (mul_ne_zero (pow_ne_zero _ this) hp)
  · rw [add_x]
    field_simp
  · rw [add_y]
    field_simp

theorem rep_zero_iff {X Y Z : K} {P : E.Point} (h : Rep X Y Z P) : P = 0 ↔ X = 0 ∧ Y = Z := by
  obtain ⟨hz, rfl, rfl⟩ := h
  constructor
  · rintro rfl; simp
  · rintro ⟨h1, h2⟩
    ext
    · exact (mul_eq_zero.mp h1).resolve_right hz
    · exact mul_right_cancel₀ hz (by rw [h2]; simp)

/-- The only elements killed by two are the identity and `(0, -1)`. -/
theorem two_torsion {T : E.Point} (h : T + T = 0) : T = 0 ∨ T = ⟨0, -1, by unfold Equation; ring⟩ := by
  have hT : T = -T := eq_neg_of_add_eq_zero_left h
  have hx : T.x = 0 := by
    have : T.x = -T.x := congrArg Point.x hT
    have : 2 * T.x = 0 := by linear_combination this
    exact (mul_eq_zero.mp this).resolve_left E.two
  have he := T.eqn
  unfold Equation at he
  rw [hx] at he
  have : (T.y - 1) * (T.y + 1) = 0 := by linear_combination he
  rcases mul_eq_zero.mp this with hy | hy
  · left; ext
    · exact hx
    · exact sub_eq_zero.mp hy
  · right; ext
    · exact hx
    · exact eq_neg_of_add_eq_zero_left hy

/-- A double satisfies this condition (2-descent). -/
theorem double_square (S : E.Point) : IsSquare ((E.a - E.d) * (1 - (S + S).y ^ 2)) := by
  have he := S.eqn
  have hm := one_sub_ne S.eqn S.eqn
  unfold Equation at he
  rw [add_y]
  have hm' : (1 - E.d * S.x * S.x * S.y * S.y) ≠ 0 := hm
  refine ⟨2 * (E.a - E.d) * (S.x * S.y) / (1 - E.d * S.x * S.x * S.y * S.y), ?_⟩
  have key : (1 - E.d * S.x * S.x * S.y * S.y) ^ 2 - (S.y * S.y - E.a * S.x * S.x) ^ 2 =
      4 * (E.a - E.d) * (S.x * S.y) ^ 2 := by
    have e1 : 1 - E.d * S.x * S.x * S.y * S.y = 2 - E.a * S.x ^ 2 - S.y ^ 2 := by linear_combination he
    rw [e1]
    linear_combination (-4) * he
  generalize 1 - E.d * S.x * S.x * S.y * S.y = D at *
  generalize S.y * S.y - E.a * S.x * S.x = t at *
  have : D ^ 2 ≠ 0 := pow_ne_zero _ hm
  field_simp
  linear_combination (E.a - E.d) * key

end field

/-! ### The 2-part of a group with one involution -/

section group
variable {G : Type} [AddCommGroup G]

theorem mem_of_two_power (t R : G) (k : Nat) (hinv : ∀ T : G, T + T = 0 → T = 0 ∨ T = t)
    (hR : addOrderOf R = 2 ^ (k + 1)) (hnd : ∀ S : G, S + S ≠ R) (m : Nat) (T : G) (hT : 2 ^ m • T = 0) :
    ∃ c : ℤ, T = c • R := by
  have ht : ∃ c : ℤ, t = c • R := by
    have h0 : 2 ^ k • R ≠ 0 := by
      intro h
      have := Nat.le_of_dvd (by positivity) (addOrderOf_dvd_of_nsmul_eq_zero h)
      rw [hR, pow_succ] at this
      have : 0 < 2 ^ k := by positivity
      omega
    have h1 : 2 ^ k • R + 2 ^ k • R = 0 := by
      rw [← add_nsmul, ← mul_two, ← pow_succ, ← hR, addOrderOf_nsmul_eq_zero]
    exact ⟨(2 ^ k : Nat), by rw [natCast_zsmul]; exact ((hinv _ h1).resolve_left h0).symm⟩
  induction m generalizing T with
  | zero => exact ⟨0, by simpa using hT⟩
  | succ m ih =>
    obtain ⟨c, hc⟩ := ih (T + T) (by rw [← two_nsmul, ← mul_nsmul', ← pow_succ, hT])
    rcases Int.even_or_odd' c with ⟨e, he | he⟩
    · have h2 : T - e • R + (T - e • R) = 0 := by
        rw [sub_add_sub_comm, hc, he, ← add_zsmul, ← two_mul, sub_self]
      rcases hinv _ h2 with h | h
      · exact ⟨e, sub_eq_zero.mp h⟩
      · obtain ⟨c', hc'⟩ := ht
        exact ⟨e + c', by rw [add_zsmul, ← hc', ← h]; abel⟩
    · exfalso
      refine hnd (T - e • R) ?_
      rw [sub_add_sub_comm, hc, he, ← add_zsmul, ← two_mul, add_zsmul, one_zsmul, add_sub_cancel_left]

theorem not_dvd_card [Finite G] (t R : G) (k : Nat) (hinv : ∀ T : G, T + T = 0 → T = 0 ∨ T = t)
    (hR : addOrderOf R = 2 ^ (k + 1)) (hnd : ∀ S : G, S + S ≠ R) : ¬ 2 ^ (k + 2) ∣ Nat.card G := by
  intro hdvd
  have : Fact (Nat.Prime 2) := ⟨Nat.prime_two⟩
  have hd' : 2 ^ (k + 2) ∣ Nat.card (Multiplicative G) := hdvd
  obtain ⟨H, hH⟩ := Sylow.exists_subgroup_card_pow_prime (G := Multiplicative G) 2 hd'
  have hle : H ≤ Subgroup.zpowers (Multiplicative.ofAdd R) := by
    intro T hT
    have h1 : T ^ (2 ^ (k + 2)) = 1 := by
      rw [← hH]
      have := pow_card_eq_one' (G := H) (x := ⟨T, hT⟩)
      exact congrArg Subtype.val this
    obtain ⟨c, hc⟩ := mem_of_two_power t R k hinv hR hnd (k + 2) T.toAdd (by
      rw [← toAdd_pow, h1, toAdd_one])
    refine Subgroup.mem_zpowers_iff.mpr ⟨c, ?_⟩
    rw [← ofAdd_zsmul, ← hc, ofAdd_toAdd]
  have hc := Subgroup.card_le_of_le hle
  rw [hH, Nat.card_zpowers] at hc
  have ho : orderOf (Multiplicative.ofAdd R) = addOrderOf R := orderOf_ofAdd_eq_addOrderOf R
  rw [ho, hR, pow_succ _ (k + 1)] at hc
  have : 0 < 2 ^ (k + 1) := by positivity
  omega

end group

/-! ### The number of points -/

section count
variable {p : Nat} [Fact p.Prime] {E : Edwards (ZMod p)}

private def side (P : E.Point) : ZMod p × Bool := (P.x, decide (P.y.val ≤ p / 2))

private theorem side_injective (h2 : p ≠ 2) : Function.Injective (side (E := E)) := by
  intro P Q h
  have hodd := (Fact.out : p.Prime).eq_two_or_odd.resolve_left h2
  simp only [side, Prod.mk.injEq, decide_eq_decide] at h
  obtain ⟨hx, hs⟩ := h
  have e1 := P.eqn
  have e2 := Q.eqn
  unfold Equation at e1 e2
  rw [hx] at e1
  have hne : 1 - E.d * Q.x ^ 2 ≠ 0 := by
    intro h0
    by_cases hq : Q.x = 0
    · rw [hq] at h0; simp at h0
    · exact d_square (E := E) (u := 1) (v := Q.x) hq (by linear_combination h0)
  have hyy : P.y ^ 2 = Q.y ^ 2 := mul_left_cancel₀ hne (by linear_combination e1 - e2)
  have hy : P.y = Q.y := by
    rcases sq_eq_sq_iff_eq_or_eq_neg.mp hyy with h | h
    · exact h
    · by_cases h0 : Q.y = 0
      · rw [h, h0, neg_zero]
      · exfalso
        rw [h, ZMod.neg_val, if_neg h0] at hs
        have l1 := ZMod.val_lt Q.y
        have l2 : 0 < Q.y.val := Nat.pos_of_ne_zero ((ZMod.val_ne_zero Q.y).mpr h0)
        omega
  ext
  · exact hx
  · exact hy

theorem finite_points (h2 : p ≠ 2) : Finite E.Point := Finite.of_injective _ (side_injective h2)

theorem card_points_le (h2 : p ≠ 2) : Nat.card E.Point ≤ 2 * p := by
  have h := Nat.card_le_card_of_injective _ (side_injective (E := E) h2)
  have e : Nat.card (ZMod p × Bool) = 2 * p := by
    rw [Nat.card_prod, Nat.card_zmod, Nat.card_eq_fintype_card, Fintype.card_bool, mul_comm]
  rwa [e] at h

/-- A point of odd order `n` and one of order `2^(k+1)` that is not a double give the number of points. -/
theorem card_points (h2 : p ≠ 2) (Q R : E.Point) (n k : Nat) (hn : Odd n) (hQ : addOrderOf Q = n)
    (hR : addOrderOf R = 2 ^ (k + 1)) (hnd : ¬ IsSquare ((E.a - E.d) * (1 - R.y ^ 2)))
    (hb : 2 * p < 3 * (2 ^ (k + 1) * n)) : Nat.card E.Point = 2 ^ (k + 1) * n := by
  have := finite_points (E := E) h2
  have hle := card_points_le (E := E) h2
  have hpos : 0 < Nat.card E.Point := Nat.card_pos
  have hdvd : 2 ^ (k + 1) * n ∣ Nat.card E.Point := by
    refine Nat.Coprime.mul_dvd_of_dvd_of_dvd ?_ (hR ▸ addOrderOf_dvd_natCard R) (hQ ▸ addOrderOf_dvd_natCard Q)
    exact Nat.Coprime.pow_left _ (Nat.coprime_two_left.mpr hn)
  obtain ⟨m, hm⟩ := hdvd
  have hm3 : m < 3 := by
    by_contra h
    have := Nat.mul_le_mul_left (2 ^ (k + 1) * n) (show 3 ≤ m by omega)
    omega
  have hm2 : m ≠ 2 := by
    rintro rfl
    refine not_dvd_card (G := E.Point) _ R k (fun T => two_torsion) hR ?_ ⟨n, by rw [hm]; ring⟩
    rintro S rfl
    exact hnd (double_square S)
  have hm1 : m = 1 := by
    rcases Nat.eq_zero_or_pos m with h | h
    · subst h; omega
    · omega
  rw [hm, hm1, mul_one]

end count

/-! ### Evaluation -/

/-- Double and add, from the multiple by `k` to the multiple by `k` followed by the `i` low bits of `l`, on the curve
with `a = 1`. -/
def edMul (p d x y l : Nat) {α : Type} (cont : Nat → Nat → Nat → α) : Nat → Nat → Nat → Nat → α
  | 0, X, Y, Z => cont X Y Z
  | i + 1, X, Y, Z =>
    force (X * X % p) fun u => force (Y * Y % p) fun v => force (Z * Z % p) fun w =>
    force (d * u % p * v % p) fun e => force (w * w % p) fun ww =>
    force (subm p ww e % p) fun f => force ((ww + e) % p) fun g =>
    force (w * f % p * (2 * (X * Y)) % p) fun X' => force (w * g % p * subm p v u % p) fun Y' =>
    force (f * g % p) fun Z' =>
    if (l >>> i) % 2 = 0 then edMul p d x y l cont i X' Y' Z'
    else
      force (X' * x % p) fun u => force (Y' * y % p) fun v =>
      force (d * u % p * v % p) fun e => force (Z' * Z' % p) fun ww =>
      force (subm p ww e % p) fun f => force ((ww + e) % p) fun g =>
      force (Z' * f % p * (X' * y + x * Y') % p) fun X'' => force (Z' * g % p * subm p v u % p) fun Y'' =>
      force (f * g % p) fun Z'' =>
      edMul p d x y l cont i X'' Y'' Z''

section eval
variable {p : Nat} [Fact p.Prime] {E : Edwards (ZMod p)}

theorem edMul_spec {α : Type} (d x y l : Nat) (ha : E.a = 1) (hd : E.d = d) (P : E.Point) (hx : P.x = x) (hy : P.y = y)
    (i k X Y Z : Nat) (h : Rep (X : ZMod p) (Y : ZMod p) (Z : ZMod p) (k • P)) :
    ∃ X' Y' Z' : Nat, Rep (X' : ZMod p) (Y' : ZMod p) (Z' : ZMod p) ((k * 2 ^ i + l % 2 ^ i) • P) ∧
      ∀ cont : Nat → Nat → Nat → α, edMul p d x y l cont i X Y Z = cont X' Y' Z' := by
  have hp0 : 0 < p := (Fact.out : p.Prime).pos
  have hpp : p ∣ p := dvd_rfl
  induction i generalizing k X Y Z with
  | zero => exact ⟨X, Y, Z, by simpa [Nat.mod_one] using h, fun _ => rfl⟩
  | succ i ih =>
    have hbit : l % 2 ^ (i + 1) = (l >>> i) % 2 * 2 ^ i + l % 2 ^ i := by
      rw [Nat.shiftRight_eq_div_pow, pow_succ, Nat.mod_mul]; ring
    have hD := rep_add h h
    rw [← add_nsmul, ← two_mul k, ha, hd] at hD
    simp only [edMul, force_eq]
    split
    · next hb =>
      rw [hb, zero_mul, zero_add] at hbit
      rw [hbit, show k * 2 ^ (i + 1) = (2 * k) * 2 ^ i by ring]
      refine ih _ _ _ _ ?_
      convert hD using 1 <;>
      · simp only [cast_mod hpp, cast_subm hpp hp0, Nat.cast_mul, Nat.cast_add, Nat.cast_ofNat]
        try ring
    · next hb =>
      rw [show (l >>> i) % 2 = 1 by omega, one_mul] at hbit
      have h1 : Rep (x : ZMod p) (y : ZMod p) 1 P := ⟨one_ne_zero, by rw [hx, mul_one], by rw [hy, mul_one]⟩
      have hA := rep_add hD h1
      rw [← succ_nsmul, ha, hd] at hA
      rw [hbit, show k * 2 ^ (i + 1) + (2 ^ i + l % 2 ^ i) = (2 * k + 1) * 2 ^ i + l % 2 ^ i by ring]
      refine ih _ _ _ _ ?_
      convert hA using 1 <;>
      · simp only [cast_mod hpp, cast_subm hpp hp0, Nat.cast_mul, Nat.cast_add, Nat.cast_ofNat]
        try ring

/-- Is the multiple by `l` the identity? -/
def edZero (p d x y l bits : Nat) : Bool :=
  edMul p d x y l (fun X Y Z => decide (X % p = 0) && decide (Y % p = Z % p)) bits 0 1 1

theorem edZero_iff (d x y l bits : Nat) (ha : E.a = 1) (hd : E.d = d) (P : E.Point) (hx : P.x = x) (hy : P.y = y)
    (hl : l < 2 ^ bits) : edZero p d x y l bits = true ↔ l • P = 0 := by
  obtain ⟨X, Y, Z, h1, h2⟩ := edMul_spec (α := Bool) d x y l ha hd P hx hy bits 0 0 1 1 (by
    rw [zero_nsmul]; exact ⟨by simp, by simp, by simp⟩)
  rw [zero_mul, zero_add, Nat.mod_eq_of_lt hl] at h1
  rw [edZero, h2, Bool.and_eq_true, decide_eq_true_eq, decide_eq_true_eq, rep_zero_iff h1,
    ZMod.natCast_eq_zero_iff, ZMod.natCast_eq_natCast_iff, Nat.dvd_iff_mod_eq_zero]
  rfl

/-- In a field with `p` elements, `p` of the form `4 k + 3`, the opposite of a nonzero square is not a square. -/
theorem not_square_of_neg {u r : ZMod p} (hp : p % 4 = 3) (hu : u ≠ 0) (h : r ^ 2 + u = 0) : ¬ IsSquare u := by
  rintro ⟨s, rfl⟩
  have hs : s ≠ 0 := by rintro rfl; simp at hu
  have : IsSquare (-1 : ZMod p) := ⟨r / s, by field_simp; linear_combination -h⟩
  exact (ZMod.exists_sq_eq_neg_one_iff.mp this) hp

end eval

/-! ### The checks on one curve -/

/-- Checks for `x² + y² = 1 + d x² y²`: the point `(x, y)` and the prime `q`, a point `(r, s)` of order `2^(k+1)`, square
roots of `-d` and of `-(1 - d)(1 - s²)`. -/
def edOk (p d x y q k r s rd z : Nat) : Bool :=
  decide (p % 4 = 3) && decide (d < p) && decide (d ≠ 0) && decide ((rd ^ 2 + d) % p = 0) &&
    decide ((x ^ 2 + y ^ 2) % p = (1 + d * x ^ 2 * y ^ 2) % p) &&
    decide ((r ^ 2 + s ^ 2) % p = (1 + d * r ^ 2 * s ^ 2) % p) && decide (x % p ≠ 0) &&
    decide ((z ^ 2 + subm p 1 d * subm p 1 (s ^ 2)) % p = 0) &&
    decide (subm p 1 d * subm p 1 (s ^ 2) % p ≠ 0) &&
    edZero p d x y q (q.log2 + 1) && edZero p d r s (2 ^ (k + 1)) (k + 2) && !edZero p d r s (2 ^ k) (k + 2) &&
    decide (2 < q) && decide (2 * p < 3 * (2 ^ (k + 1) * q))

theorem of_edOk {p : Nat} [Fact p.Prime] {d x y q k r s rd z : Nat} (h : edOk p d x y q k r s rd z = true) (hq : q.Prime) :
    ∃ E : Edwards (ZMod p), E.a = 1 ∧ E.d = d ∧ ∃ G : E.Point, G.x = x ∧ G.y = y ∧ addOrderOf G = q ∧
      Nat.card E.Point = 2 ^ (k + 1) * q := by
  rw [edOk] at h
  simp only [Bool.and_eq_true, decide_eq_true_eq, Bool.not_eq_true'] at h
  obtain ⟨⟨⟨⟨⟨⟨⟨⟨⟨⟨⟨⟨⟨h1, h2⟩, h3⟩, h4⟩, h5⟩, h6⟩, h7⟩, h8⟩, h9⟩, h10⟩, h11⟩, h12⟩, h13⟩, h14⟩ := h
  have hp0 : 0 < p := (Fact.out : p.Prime).pos
  have hpp : p ∣ p := dvd_rfl
  have hp2 : p ≠ 2 := by omega
  have zr : ∀ u : Nat, u % p = 0 ↔ (u : ZMod p) = 0 := fun u => by
    rw [← Nat.dvd_iff_mod_eq_zero, ← ZMod.natCast_eq_zero_iff]
  have h2' : (2 : ZMod p) ≠ 0 := by
    have : ((2 : Nat) : ZMod p) ≠ 0 := by
      rw [Ne, ← zr, Nat.mod_eq_of_lt] <;> omega
    exact_mod_cast this
  have hd0 : (d : ZMod p) ≠ 0 := by
    rw [Ne, ← zr, Nat.mod_eq_of_lt h2]; exact h3
  rw [zr] at h4 h8
  rw [Ne, zr] at h7 h9
  simp only [Nat.cast_add, Nat.cast_mul, Nat.cast_pow, cast_subm hpp hp0, Nat.cast_one] at h4 h8 h9
  let E : Edwards (ZMod p) := ⟨1, d, h2', one_ne_zero, not_square_of_neg h1 hd0 h4⟩
  have ha : E.a = 1 := by change (1 : ZMod p) ^ 2 = 1; ring
  have on : ∀ u v : Nat, (u ^ 2 + v ^ 2) % p = (1 + d * u ^ 2 * v ^ 2) % p → E.Equation u v := by
    intro u v huv
    have := (ZMod.natCast_eq_natCast_iff _ _ _).mpr huv
    push_cast at this
    unfold Equation
    rw [ha, one_mul]
    exact this
  let G : E.Point := ⟨x, y, on x y h5⟩
  let R : E.Point := ⟨r, s, on r s h6⟩
  have oG : addOrderOf G = q := by
    have : Fact q.Prime := ⟨hq⟩
    refine addOrderOf_eq_prime ((edZero_iff d x y q _ ha rfl G rfl rfl Nat.lt_log2_self).mp h10) ?_
    intro h0
    exact h7 (congrArg Point.x h0)
  have oR : addOrderOf R = 2 ^ (k + 1) := by
    have : Fact (Nat.Prime 2) := ⟨Nat.prime_two⟩
    refine addOrderOf_eq_prime_pow ?_ ?_
    · rw [← edZero_iff d r s (2 ^ k) (k + 2) ha rfl R rfl rfl (Nat.pow_lt_pow_right (by norm_num) (by omega)), h12]
      exact Bool.false_ne_true
    · exact (edZero_iff d r s (2 ^ (k + 1)) (k + 2) ha rfl R rfl rfl
        (Nat.pow_lt_pow_right (by norm_num) (by omega))).mp h11
  refine ⟨E, ha, rfl, G, rfl, rfl, oG, card_points hp2 G R q k (hq.odd_of_ne_two (by omega)) oG oR ?_ h14⟩
  rw [ha]
  exact not_square_of_neg h1 h9 h8

end Cryptopy.Spec.Edwards
