import Verif.Model.FieldPower
import Verif.Props.GaloisField
import Mathlib.FieldTheory.Finite.Basic

/-!
C157: powers of field elements and field elements as exponents.
-/

namespace Cryptopy
open Model

/-- The value of `a` modulo `p` as a stored field element. -/
def elemOf (p : Nat) (a : Int) : GFpElem := ⟨p, a % p⟩

/-- C157: `gfp(v)` is the element `elemOf p v` used in the statements below. -/
theorem C157_elements (p : Nat) (hp : 1 ≤ p) (v : Int) : gfpNew p v = .ok (elemOf p v) := by
  obtain ⟨e, h1, h2, h3, h4, h5⟩ := C71_new p hp v
  have h6 := (ZMod.intCast_eq_intCast_iff _ _ _).mp h5
  rw [Int.ModEq, Int.emod_eq_of_lt h3 h4] at h6
  rw [h1]
  congr 1
  cases e
  simp only at h2 h6
  rw [h2, h6, elemOf]

example : gfpNew 7 (-12) = .ok ⟨7, 2⟩ ∧ elemOf 7 (-12) = ⟨7, 2⟩ := by decide +kernel

private theorem elemOf_eq {p : Nat} {a b : Int} (h : (a : ZMod p) = b) : elemOf p a = elemOf p b := by
  have h6 := (ZMod.intCast_eq_intCast_iff _ _ _).mp h
  rw [elemOf, elemOf, show a % (p : Int) = b % p from h6]

private theorem eq_of_elemOf {p : Nat} {a b : Int} (h : elemOf p a = elemOf p b) : (a : ZMod p) = b := by
  rw [elemOf, elemOf, GFpElem.mk.injEq] at h
  exact (ZMod.intCast_eq_intCast_iff _ _ _).mpr h.2

private theorem val_cast (p : Nat) (a : Int) : (((elemOf p a).value : Int) : ZMod p) = a := by
  rw [elemOf]; simp

private theorem val_nonneg (p : Nat) (hp : 1 ≤ p) (a : Int) : 0 ≤ (elemOf p a).value := Int.emod_nonneg _ (by omega)

private theorem xor_eq (p : Nat) (hp : 1 ≤ p) (a : Int) (k : Nat) : (elemOf p a).xor k = .ok (elemOf p (a ^ k)) := by
  rw [GFpElem.xor, show (elemOf p a).p = p from rfl, C157_elements p hp]
  congr 1
  apply elemOf_eq
  push_cast
  rw [val_cast]

private theorem rxor_eq (p : Nat) (hp : 1 ≤ p) (a b : Int) :
    (elemOf p b).rxor (.int a) = .ok (elemOf p (a ^ (b % p).toNat)) := by
  rw [GFpElem.rxor, show (elemOf p b).p = p from rfl, C157_elements p hp]
  rfl

private theorem mul_eq (p : Nat) (hp : 1 ≤ p) (a b : Int) :
    (elemOf p a).mul (.elem (elemOf p b)) = .ok (elemOf p (a * b)) := by
  rw [GFpElem.mul, show (elemOf p a).p = p from rfl, C157_elements p hp]
  congr 1
  apply elemOf_eq
  push_cast
  rw [val_cast, show Operand.toInt (.elem (elemOf p b)) = (elemOf p b).value from rfl, val_cast]

private theorem add_eq (p : Nat) (hp : 1 ≤ p) (a : Int) (o : Operand) (b : Int) (ho : ((o.toInt : Int) : ZMod p) = b) :
    (elemOf p a).add o = .ok (elemOf p (a + b)) := by
  rw [GFpElem.add, show (elemOf p a).p = p from rfl, C157_elements p hp]
  congr 1
  apply elemOf_eq
  push_cast
  rw [val_cast, ho]

/-- C157: for integer exponents the laws of powers hold for every modulus. -/
theorem C157_power_laws (p : Nat) (hp : 1 ≤ p) (a b : Int) (j k : Nat) :
    (do let u ← (elemOf p a).xor j; let v ← (elemOf p a).xor k; u.mul (.elem v)) = (elemOf p a).xor (j + k) ∧
    (do let u ← (elemOf p a).xor j; u.xor k) = (elemOf p a).xor (j * k) ∧
    (do let u ← (elemOf p a).mul (.elem (elemOf p b)); u.xor k) =
      (do let u ← (elemOf p a).xor k; let v ← (elemOf p b).xor k; u.mul (.elem v)) := by
  refine ⟨?_, ?_, ?_⟩
  · rw [xor_eq p hp, xor_eq p hp, xor_eq p hp]
    change (elemOf p (a ^ j)).mul (.elem (elemOf p (a ^ k))) = _
    rw [mul_eq p hp, pow_add]
  · rw [xor_eq p hp, xor_eq p hp]
    change (elemOf p (a ^ j)).xor k = _
    rw [xor_eq p hp, pow_mul]
  · rw [mul_eq p hp, xor_eq p hp, xor_eq p hp]
    change (elemOf p (a * b)).xor k = (elemOf p (a ^ k)).mul (.elem (elemOf p (b ^ k)))
    rw [mul_eq p hp, xor_eq p hp, mul_pow]
example := C157_power_laws 11 (by decide) 7 (-4) 5 12

/-- C157: for a prime `p`, `x^p == x`; for `x` other than zero `x^(p-1) == 1` and `x^(p-2) == 1/x`. -/
theorem C157_fermat (p : Nat) (hp : p.Prime) (a : Int) :
    (elemOf p a).xor p = .ok (elemOf p a) ∧
    (¬ (p : Int) ∣ a → (elemOf p a).xor (p - 1) = .ok (elemOf p 1) ∧
      (elemOf p a).xor (p - 2) = (elemOf p a).rdiv (.int 1)) := by
  have : Fact p.Prime := ⟨hp⟩
  refine ⟨?_, fun h => ⟨?_, ?_⟩⟩
  · rw [xor_eq p hp.one_le]
    congr 1
    apply elemOf_eq
    push_cast
    exact ZMod.pow_card _
  all_goals have h0 : (a : ZMod p) ≠ 0 := fun h' => h ((ZMod.intCast_zmod_eq_zero_iff_dvd a p).mp h')
  · rw [xor_eq p hp.one_le]
    congr 1
    apply elemOf_eq
    push_cast
    exact ZMod.pow_card_sub_one_eq_one h0
  · have hco : Int.gcd (elemOf p a).value p = 1 := by
      rw [elemOf, Int.gcd_emod]
      rw [← Int.isCoprime_iff_gcd_eq_one, isCoprime_comm]
      exact (Int.prime_iff_natAbs_prime.mpr (by simpa using hp)).coprime_iff_not_dvd.mpr h
    obtain ⟨e, h1, h2, h3, h4, h5⟩ := C72_rdiv p hp.two_le (elemOf p a) rfl (val_nonneg p hp.one_le a) (.int 1) hco
    rw [h1, xor_eq p hp.one_le]
    congr 1
    have he : e = elemOf p e.value := by
      cases e
      simp only at h2 h3 h4
      rw [elemOf, Int.emod_eq_of_lt h3 h4, h2]
    rw [he]
    apply elemOf_eq
    have h6 := (ZMod.intCast_eq_intCast_iff _ _ _).mpr h5
    rw [Int.cast_mul, val_cast] at h6
    push_cast
    have h7 : (a : ZMod p) ^ (p - 2) * a = 1 := by
      rw [← pow_succ, show p - 2 + 1 = p - 1 by have := hp.two_le; omega]
      exact ZMod.pow_card_sub_one_eq_one h0
    refine mul_right_cancel₀ h0 ?_
    rw [h7, h6]
    simp [intOf]

/-- C157: with field elements as exponents `a^(x+y)` and `(a^x)*(a^y)` are equal exactly if the sum of the exponents is below
`p`, or `a` is 1, or `a` is 0 and the sum is not `p` itself. -/
theorem C157_element_exponents (p : Nat) (hp : p.Prime) (a : Int) (x y : Nat) (hx : x < p) (hy : y < p) :
    (do let z ← (elemOf p x).add (.elem (elemOf p y)); z.rxor (.int a)) =
      (do let u ← (elemOf p x).rxor (.int a); let v ← (elemOf p y).rxor (.int a); u.mul (.elem v)) ↔
    x + y < p ∨ (p : Int) ∣ a - 1 ∨ ((p : Int) ∣ a ∧ x + y ≠ p) := by
  have : Fact p.Prime := ⟨hp⟩
  have hcast : ((Operand.toInt (.elem (elemOf p y)) : Int) : ZMod p) = ((y : Int) : ZMod p) := val_cast p y
  have hm : ∀ z : Nat, z < p → (((z : Int)) % (p : Int)).toNat = z := fun z hz => by
    rw [Int.emod_eq_of_lt (by omega) (by omega), Int.toNat_natCast]
  rw [add_eq p hp.one_le _ _ _ hcast, rxor_eq p hp.one_le a x, rxor_eq p hp.one_le a y, hm x hx, hm y hy]
  change (elemOf p ((x : Int) + y)).rxor (.int a) = (elemOf p (a ^ x)).mul (.elem (elemOf p (a ^ y))) ↔ _
  rw [mul_eq p hp.one_le, rxor_eq p hp.one_le]
  have hone : (p : Int) ∣ a - 1 ↔ (a : ZMod p) = 1 := by
    rw [← ZMod.intCast_zmod_eq_zero_iff_dvd]
    push_cast
    exact sub_eq_zero
  have hzero : (p : Int) ∣ a ↔ (a : ZMod p) = 0 := (ZMod.intCast_zmod_eq_zero_iff_dvd a p).symm
  rw [hone, hzero]
  by_cases hlt : x + y < p
  · have h1 := hm (x + y) hlt
    push_cast at h1
    rw [h1, pow_add]
    exact iff_of_true rfl (Or.inl hlt)
  · have h1 : (((x : Int) + y) % (p : Int)).toNat = x + y - p := by
      have h2 := hm (x + y - p) (by omega)
      rw [Nat.cast_sub (by omega)] at h2
      push_cast at h2
      rwa [Int.sub_emod_right] at h2
    rw [h1]
    have key : (Except.ok (elemOf p (a ^ (x + y - p))) : Py GFpElem) = .ok (elemOf p (a ^ x * a ^ y)) ↔
        (a : ZMod p) ^ (x + y - p) = (a : ZMod p) ^ (x + y - p) * a := by
      have h3 : (a : ZMod p) ^ x * (a : ZMod p) ^ y = (a : ZMod p) ^ (x + y - p) * a := by
        rw [← pow_add, show x + y = (x + y - p) + p by omega, pow_add, ZMod.pow_card, Nat.add_sub_cancel]
      constructor
      · intro h
        injection h with h
        have := eq_of_elemOf h
        push_cast at this
        exact this.trans h3
      · intro h
        congr 1
        apply elemOf_eq
        push_cast
        rw [h3, ← h]
    rw [key]
    by_cases h0 : (a : ZMod p) = 0
    · rw [h0]
      by_cases he : x + y = p
      · rw [he, Nat.sub_self]
        simp
      · rw [zero_pow (by omega)]
        simp [he]
    · constructor
      · intro h
        refine Or.inr (Or.inl ?_)
        have h4 : (a : ZMod p) ^ (x + y - p) * 1 = (a : ZMod p) ^ (x + y - p) * a := by rw [mul_one]; exact h
        exact (mul_left_cancel₀ (pow_ne_zero _ h0) h4).symm
      · rintro (h | h | h)
        · exact absurd h hlt
        · rw [h]; simp
        · exact absurd h.1 h0

/-- C157: `x^2+3*x+1` is `x` to the power of `3*x+3`, reduced modulo `p`, and not the quadratic polynomial; `**` always
raises TypeError. -/
theorem C157_precedence (p : Nat) (hp : 1 ≤ p) (a : Int) (o : Operand) :
    quadraticAsWritten (elemOf p a) = .ok (elemOf p (a ^ ((3 * a + 3) % p).toNat)) ∧
    quadraticMeant (elemOf p a) = .ok (elemOf p (a ^ 2 + 3 * a + 1)) ∧
    (elemOf p a).pow o = .error .type := by
  have hr : ∀ b c : Int, (elemOf p b).rmul (.int c) = .ok (elemOf p (b * c)) := by
    intro b c
    rw [GFpElem.rmul, GFpElem.mul, show (elemOf p b).p = p from rfl, C157_elements p hp]
    congr 1
    apply elemOf_eq
    push_cast
    rw [val_cast]
    rfl
  have hra : ∀ b c : Int, (elemOf p b).radd (.int c) = .ok (elemOf p (b + c)) := fun b c => add_eq p hp b (.int c) c rfl
  refine ⟨?_, ?_, rfl⟩
  · rw [quadraticAsWritten, hr]
    change (do let b ← (elemOf p (a * 3)).radd (.int 2); let c ← b.add (.int 1); (elemOf p a).xorElem c : Py GFpElem) = _
    rw [hra]
    change (do let c ← (elemOf p (a * 3 + 2)).add (.int 1); (elemOf p a).xorElem c : Py GFpElem) = _
    rw [add_eq p hp _ (.int 1) 1 rfl]
    change (elemOf p a).xor ((a * 3 + 2 + 1) % (p : Int)).toNat = _
    rw [xor_eq p hp, show a * 3 + 2 + 1 = 3 * a + 3 by ring]
  · rw [quadraticMeant, xor_eq p hp, hr]
    change (do let b ← (elemOf p (a ^ 2)).add (.elem (elemOf p (a * 3))); b.add (.int 1) : Py GFpElem) = _
    rw [add_eq p hp _ (.elem (elemOf p (a * 3))) (a * 3) (val_cast p _)]
    change (elemOf p (a ^ 2 + a * 3)).add (.int 1) = _
    rw [add_eq p hp _ (.int 1) 1 rfl, mul_comm a 3]

/-- A case in which the two readings of `x^2+3*x+1` differ, and one in which they agree. -/
example : quadraticAsWritten (elemOf 11 2) = .ok ⟨11, 6⟩ ∧ quadraticMeant (elemOf 11 2) = .ok ⟨11, 0⟩ := by decide +kernel
/-- Cases of `C157_element_exponents` with and without the law, and one of `C157_fermat`. -/
example : (do let z ← (elemOf 7 3).add (.elem (elemOf 7 5)); z.rxor (.int 2)) ≠
    (do let u ← (elemOf 7 3).rxor (.int 2); let v ← (elemOf 7 5).rxor (.int 2); u.mul (.elem v) : Py GFpElem) :=
  fun h => by have := (C157_element_exponents 7 (by decide) 2 3 5 (by norm_num) (by norm_num)).mp h; omega
example : ¬ ((7 : Nat) : Int) ∣ 3 ∧ (elemOf 7 3).rdiv (.int 1) = .ok ⟨7, 5⟩ := by decide +kernel

end Cryptopy
