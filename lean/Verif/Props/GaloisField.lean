import Verif.Model.GaloisField
import Verif.Lemmas.Arith
import Verif.Lemmas.Sqrt
import Mathlib.Data.ZMod.Basic

/-!
Properties C71-C73: `fmath/galoisfield.py`.
-/

namespace Cryptopy
open Model

private theorem gfpNew_spec (p : Nat) (hp : 1 ≤ p) (v : Int) :
    ∃ e, gfpNew p v = .ok e ∧ e.p = p ∧ 0 ≤ e.value ∧ e.value < p ∧ (e.value : ZMod p) = v := by
  refine ⟨⟨p, v.fmod p⟩, by rw [gfpNew, if_neg (by omega)], rfl, Int.fmod_nonneg_of_pos _ (by omega),
    Int.fmod_lt_of_pos _ (by omega), ?_⟩
  simp only
  rw [fmod_pos_eq _ (by omega), emod_cast]

/-- What an operand stands for: an integer for itself, an element for the value it stores. -/
def intOf : Operand → Int
  | .int i => i
  | .elem e => e.value

private theorem toInt_eq (o : Operand) : o.toInt = intOf o := by cases o <;> rfl

/-! ### C71: ring operations -/

/-- C71: creating an element reduces the value. -/
theorem C71_new (p : Nat) (hp : 1 ≤ p) (v : Int) :
    ∃ e, gfpNew p v = .ok e ∧ e.p = p ∧ 0 ≤ e.value ∧ e.value < p ∧ (e.value : ZMod p) = v :=
  gfpNew_spec p hp v
example := C71_new 7 (by decide) (-3)

/-- C71: sums, differences and products, with the element on either side, and negation agree with
`ZMod p` and store a reduced value of the same field. -/
theorem C71_ring (p : Nat) (hp : 1 ≤ p) (x : GFpElem) (hx : x.p = p) (o : Operand) :
    (∃ e, x.add o = .ok e ∧ e.p = p ∧ 0 ≤ e.value ∧ e.value < p ∧
      (e.value : ZMod p) = x.value + intOf o) ∧
    (∃ e, x.radd o = .ok e ∧ e.p = p ∧ 0 ≤ e.value ∧ e.value < p ∧
      (e.value : ZMod p) = intOf o + x.value) ∧
    (∃ e, x.sub o = .ok e ∧ e.p = p ∧ 0 ≤ e.value ∧ e.value < p ∧
      (e.value : ZMod p) = x.value - intOf o) ∧
    (∃ e, x.rsub o = .ok e ∧ e.p = p ∧ 0 ≤ e.value ∧ e.value < p ∧
      (e.value : ZMod p) = intOf o - x.value) ∧
    (∃ e, x.mul o = .ok e ∧ e.p = p ∧ 0 ≤ e.value ∧ e.value < p ∧
      (e.value : ZMod p) = x.value * intOf o) ∧
    (∃ e, x.rmul o = .ok e ∧ e.p = p ∧ 0 ≤ e.value ∧ e.value < p ∧
      (e.value : ZMod p) = intOf o * x.value) ∧
    (∃ e, x.neg = .ok e ∧ e.p = p ∧ 0 ≤ e.value ∧ e.value < p ∧ (e.value : ZMod p) = -x.value) := by
  simp only [← toInt_eq] at *
  refine ⟨?_, ?_, ?_, ?_, ?_, ?_, ?_⟩
  · obtain ⟨e, h1, h2⟩ := gfpNew_spec p hp (x.value + o.toInt)
    push_cast at h2
    exact ⟨e, by rw [GFpElem.add, hx, h1], h2⟩
  · obtain ⟨e, h1, h2⟩ := gfpNew_spec p hp (x.value + o.toInt)
    push_cast at h2
    rw [add_comm (x.value : ZMod p)] at h2
    exact ⟨e, by rw [GFpElem.radd, hx, h1], h2⟩
  · obtain ⟨e, h1, h2⟩ := gfpNew_spec p hp (x.value - o.toInt)
    push_cast at h2
    exact ⟨e, by rw [GFpElem.sub, hx, h1], h2⟩
  · obtain ⟨e, h1, h2⟩ := gfpNew_spec p hp (o.toInt - x.value)
    push_cast at h2
    exact ⟨e, by rw [GFpElem.rsub, hx, h1], h2⟩
  · obtain ⟨e, h1, h2⟩ := gfpNew_spec p hp (x.value * o.toInt)
    push_cast at h2
    exact ⟨e, by rw [GFpElem.mul, hx, h1], h2⟩
  · obtain ⟨e, h1, h2⟩ := gfpNew_spec p hp (x.value * o.toInt)
    push_cast at h2
    rw [mul_comm (x.value : ZMod p)] at h2
    exact ⟨e, by rw [GFpElem.rmul, GFpElem.mul, hx, h1], h2⟩
  · obtain ⟨e, h1, h2⟩ := gfpNew_spec p hp (-x.value)
    push_cast at h2
    exact ⟨e, by rw [GFpElem.neg, hx, h1], h2⟩
example := C71_ring 7 (by decide) ⟨7, 5⟩ rfl (.int (-9))

/-- C71: `^` is exponentiation in `ZMod p`, with the element as base or as exponent. -/
theorem C71_power (p : Nat) (hp : 1 ≤ p) (x : GFpElem) (hx : x.p = p) :
    (∀ k : Nat, ∃ e, x.xor k = .ok e ∧ e.p = p ∧ 0 ≤ e.value ∧ e.value < p ∧
      (e.value : ZMod p) = (x.value : ZMod p) ^ k) ∧
    (∀ o : Operand, ∃ e, x.rxor o = .ok e ∧ e.p = p ∧ 0 ≤ e.value ∧ e.value < p ∧
      (e.value : ZMod p) = (intOf o : ZMod p) ^ x.value.toNat) := by
  simp only [← toInt_eq] at *
  constructor
  · intro k
    obtain ⟨e, h1, h2⟩ := gfpNew_spec p hp (x.value ^ k)
    push_cast at h2
    exact ⟨e, by rw [GFpElem.xor, hx, h1], h2⟩
  · intro o
    obtain ⟨e, h1, h2⟩ := gfpNew_spec p hp (o.toInt ^ x.value.toNat)
    push_cast at h2
    exact ⟨e, by rw [GFpElem.rxor, hx, h1], h2⟩
example := C71_power 7 (by decide) ⟨7, 5⟩ rfl

/-- C71: `p = 0` is a `ZeroDivisionError`, and `is_element` always raises `NameError`. -/
theorem C71_errors (v p x : Int) :
    gfpNew 0 v = .error .zeroDivision ∧ gfpIsElement p x = .error .name := ⟨rfl, rfl⟩

example : (⟨7, 5⟩ : GFpElem).p = (7 : Nat) := rfl
example : (⟨7, 5⟩ : GFpElem).add (.int 4) = .ok ⟨7, 2⟩ := rfl

/-! ### C72: division -/

private theorem egcd_spec (a b : Int) : (egcd a b).2.1 * a + (egcd a b).2.2 * b = (egcd a b).1 ∧
    (egcd a b).1 = gcd2 a b := by
  induction a, b using egcd.induct with
  | case1 b =>
    rw [egcd, dif_pos rfl, gcd2, dif_neg (by simp)]
    exact ⟨by ring, rfl⟩
  | case2 a b h ih =>
    rw [egcd, dif_neg h]
    obtain ⟨h1, h2⟩ := ih
    have h3 := Int.fmod_add_mul_fdiv b a
    constructor
    · simp only
      rw [← h1]
      linear_combination (-(egcd (b.fmod a) a).2.1) * h3
    · rw [gcd2, dif_pos h]; exact h2

private theorem gfInverseMod_ok (v : Int) (p : Nat) (hp : 2 ≤ p) (h0 : 0 ≤ v) (hg : Int.gcd v p = 1) :
    ∃ i, gfInverseMod v p = .ok i ∧ (i : ZMod p) * v = 1 := by
  obtain ⟨h1, h2⟩ := egcd_spec v p
  have h3 : gcd2 v p = 1 := by rw [gcd2_eq v p h0 (by omega), hg]; rfl
  rw [h3] at h2
  rw [h2] at h1
  refine ⟨(egcd v p).2.1.fmod p, ?_, ?_⟩
  · rw [gfInverseMod]
    rw [if_neg (by rw [h2]; simp), if_neg (by omega)]
  · rw [fmod_pos_eq _ (by omega), emod_cast]
    have := congrArg (Int.cast : Int → ZMod p) h1
    push_cast at this
    rw [ZMod.natCast_self, mul_zero, add_zero] at this
    exact this

private theorem gfInverseMod_error (v : Int) (p : Nat) (h : v < 0 ∨ Int.gcd v p ≠ 1) :
    gfInverseMod v p = .error .exception := by
  obtain ⟨-, h2⟩ := egcd_spec v p
  rw [gfInverseMod]
  rw [if_pos]
  rw [h2]
  intro h3
  rcases h with h | h
  · have := gcd2_neg v p h
    omega
  · apply h
    rw [← gcd2_natAbs, h3]; rfl

/-- C72: dividing by a non-negative value coprime to `p` gives the quotient, unique in `[0, p)`. -/
theorem C72_div (p : Nat) (hp : 2 ≤ p) (x : GFpElem) (hx : x.p = p) (o : Operand)
    (h0 : 0 ≤ intOf o) (hg : Int.gcd (intOf o) p = 1) :
    ∃ e, x.div o = .ok e ∧ e.p = p ∧ 0 ≤ e.value ∧ e.value < p ∧
      e.value * intOf o ≡ x.value [ZMOD p] ∧
      ∀ q : Int, 0 ≤ q → q < p → q * intOf o ≡ x.value [ZMOD p] → q = e.value := by
  simp only [← toInt_eq] at *
  obtain ⟨i, hi, hinv⟩ := gfInverseMod_ok o.toInt p hp h0 hg
  obtain ⟨m, hm, hm2, -, -, hm5⟩ := gfpNew_spec p (by omega) (x.value * i)
  obtain ⟨e, he, he2, he3, he4, he5⟩ := gfpNew_spec p (by omega) m.value
  have hval : (e.value : ZMod p) = x.value * i := by rw [he5, hm5]; push_cast; ring
  refine ⟨e, ?_, he2, he3, he4, ?_, ?_⟩
  · rw [GFpElem.div, hx, hi]
    change (do let m ← x.mul (.int i); gfpNew p m.value) = _
    rw [GFpElem.mul, hx]
    simp only [Operand.toInt]
    rw [hm]
    exact he
  · apply (ZMod.intCast_eq_intCast_iff _ _ _).mp
    push_cast
    rw [hval, mul_assoc, hinv, mul_one]
  · intro q hq0 hq1 hq
    apply eq_of_cast_eq hq0 hq1 he3 he4
    rw [hval]
    have := (ZMod.intCast_eq_intCast_iff _ _ _).mpr hq
    push_cast at this
    rw [← this, mul_assoc, mul_comm (o.toInt : ZMod p), hinv, mul_one]

/-- C72: dividing an integer by an element whose value is coprime to `p` gives the quotient. -/
theorem C72_rdiv (p : Nat) (hp : 2 ≤ p) (x : GFpElem) (hx : x.p = p) (h0 : 0 ≤ x.value) (o : Operand)
    (hg : Int.gcd x.value p = 1) :
    ∃ e, x.rdiv o = .ok e ∧ e.p = p ∧ 0 ≤ e.value ∧ e.value < p ∧
      e.value * x.value ≡ intOf o [ZMOD p] := by
  simp only [← toInt_eq] at *
  obtain ⟨i, hi, hinv⟩ := gfInverseMod_ok x.value p hp h0 hg
  obtain ⟨e, he, he2, he3, he4, he5⟩ := gfpNew_spec p (by omega) (o.toInt * i)
  refine ⟨e, ?_, he2, he3, he4, ?_⟩
  · rw [GFpElem.rdiv, hx, hi]
    exact he
  · apply (ZMod.intCast_eq_intCast_iff _ _ _).mp
    push_cast
    rw [he5]
    push_cast
    rw [mul_assoc, hinv, mul_one]
example := C72_rdiv 9 (by decide) ⟨9, 5⟩ rfl (by decide) (.int 4) (by decide)

/-- C72: every divisor that shares a factor with `p`, and every negative integer divisor, even one
that is invertible modulo `p`, raises `Exception`. -/
theorem C72_div_error (p : Nat) (x : GFpElem) (hx : x.p = p) (o : Operand) :
    ((intOf o < 0 ∨ Int.gcd (intOf o) p ≠ 1) → x.div o = .error .exception) ∧
    ((x.value < 0 ∨ Int.gcd x.value p ≠ 1) → x.rdiv o = .error .exception) := by
  simp only [← toInt_eq] at *
  constructor
  · intro h
    rw [GFpElem.div, hx, gfInverseMod_error _ p h]; rfl
  · intro h
    rw [GFpElem.rdiv, hx, gfInverseMod_error _ p h]; rfl

example : ∃ e, (⟨7, 5⟩ : GFpElem).div (.int 3) = .ok e ∧ e.p = (7 : Nat) ∧ 0 ≤ e.value ∧ e.value < (7 : Nat) ∧
    e.value * 3 ≡ 5 [ZMOD (7 : Nat)] ∧
    ∀ q : Int, 0 ≤ q → q < (7 : Nat) → q * 3 ≡ 5 [ZMOD (7 : Nat)] → q = e.value :=
  C72_div 7 (by decide) ⟨7, 5⟩ rfl (.int 3) (by decide) (by decide)
example : (⟨7, 5⟩ : GFpElem).div (.int (-3)) = .error .exception :=
  (C72_div_error 7 ⟨7, 5⟩ rfl (.int (-3))).1 (.inl (by decide))

/-! ### C73: comparison -/

/-- C73: `==` compares the stored representative with `int(other)`. -/
theorem C73_eq_iff (x : GFpElem) (o : Operand) : x.eq o = true ↔ x.value = intOf o := by
  simp only [← toInt_eq] at *
  rw [GFpElem.eq, GFpElem.cmp]
  split <;> simp_all

/-- C73: a created element differs from every unreduced integer, even congruent ones; elements of
different fields with the same representative are equal. -/
theorem C73_eq_representatives (p : Nat) (hp : 1 ≤ p) (v : Int) (hv : v < 0 ∨ p ≤ v) :
    ∃ e, gfpNew p v = .ok e ∧ e.value ≡ v [ZMOD p] ∧ e.eq (.int v) = false ∧
      ∀ p' : Int, e.eq (.elem ⟨p', e.value⟩) = true := by
  obtain ⟨e, h1, -, h3, h4, h5⟩ := gfpNew_spec p hp v
  refine ⟨e, h1, (ZMod.intCast_eq_intCast_iff _ _ _).mp h5, ?_, fun p' => (C73_eq_iff _ _).mpr rfl⟩
  rw [← Bool.not_eq_true, C73_eq_iff]
  simp only [intOf]
  omega

/-- C73: for elements with different representatives both are greater than the other and neither is
less. -/
theorem C73_not_an_order (x y : GFpElem) (h : x.value ≠ y.value) :
    x.gt (.elem y) = true ∧ y.gt (.elem x) = true ∧ x.lt (.elem y) = false ∧ y.lt (.elem x) = false := by
  have h1 : x.cmp (.elem y) = 1 := if_neg h
  have h2 : y.cmp (.elem x) = 1 := if_neg (Ne.symm h)
  simp [GFpElem.gt, GFpElem.lt, h1, h2]

example : ∃ e, gfpNew (7 : Nat) 9 = .ok e ∧ e.value ≡ 9 [ZMOD (7 : Nat)] ∧ e.eq (.int 9) = false ∧
      ∀ p' : Int, e.eq (.elem ⟨p', e.value⟩) = true := C73_eq_representatives 7 (by decide) 9 (by decide)
example : (⟨7, 5⟩ : GFpElem).value ≠ (⟨7, 3⟩ : GFpElem).value := by decide

end Cryptopy
