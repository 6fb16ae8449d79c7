import Mathlib.NumberTheory.LucasPrimality
import Mathlib.Data.ZMod.Basic

/-!
Primality certificates checked by kernel evaluation of natural number arithmetic.
-/

namespace Cryptopy.Cert

/-- Modular exponentiation by repeated squaring, `acc * a^e mod n`, with `fuel` bits. -/
def powMod : Nat → Nat → Nat → Nat → Nat → Nat
  | 0, _, _, n, acc => acc % n
  | fuel + 1, a, e, n, acc =>
    powMod fuel (a * a % n) (e / 2) n (if e % 2 = 1 then acc * a % n else acc)

theorem powMod_eq (fuel a e n acc : Nat) (h : e < 2 ^ fuel) :
    powMod fuel a e n acc ≡ acc * a ^ e [MOD n] := by
  induction fuel generalizing a e acc with
  | zero =>
    have : e = 0 := by simpa using h
    subst this
    simpa [powMod] using Nat.mod_modEq acc n
  | succ k ih =>
    rw [powMod]
    refine (ih _ (e / 2) _ (by rw [pow_succ] at h; omega)).trans ?_
    have h2 : (a * a % n) ^ (e / 2) ≡ (a * a) ^ (e / 2) [MOD n] := (Nat.mod_modEq _ _).pow _
    have h3 : (a * a) ^ (e / 2) = a ^ (2 * (e / 2)) := by rw [pow_mul, pow_two]
    rw [h3] at h2
    by_cases ho : e % 2 = 1
    · rw [if_pos ho]
      have h4 : acc * a ^ e = acc * a * a ^ (2 * (e / 2)) := by
        conv_lhs => rw [← Nat.div_add_mod e 2, ho, pow_add, pow_one]
        ring
      rw [h4]
      exact (Nat.mod_modEq _ _).mul h2
    · rw [if_neg ho]
      have h4 : a ^ e = a ^ (2 * (e / 2)) := by
        conv_lhs => rw [← Nat.div_add_mod e 2, show e % 2 = 0 by omega, Nat.add_zero]
      rw [h4]
      exact (Nat.ModEq.refl _).mul h2

theorem powMod_zmod (fuel a e n : Nat) (h : e < 2 ^ fuel) :
    ((powMod fuel a e n 1 : Nat) : ZMod n) = (a : ZMod n) ^ e := by
  have := powMod_eq fuel a e n 1 h
  rw [one_mul] at this
  rw [(ZMod.natCast_eq_natCast_iff _ _ _).mpr this]
  push_cast; rfl

theorem powMod_lt (fuel a e n acc : Nat) (h : 0 < n) : powMod fuel a e n acc < n := by
  induction fuel generalizing a e acc with
  | zero => exact Nat.mod_lt _ h
  | succ k ih => rw [powMod]; exact ih _ _ _

/-- The arithmetic part of a Lucas certificate for `n`: witness `a`, prime factors `fs` of `n - 1`
with multiplicity. -/
def lucasOk (fuel n a : Nat) (fs : List Nat) : Bool :=
  decide (1 < n) && decide (n - 1 < 2 ^ fuel) && decide (fs.prod = n - 1) &&
    decide (powMod fuel a (n - 1) n 1 = 1) &&
    fs.all fun q => decide (powMod fuel a ((n - 1) / q) n 1 ≠ 1)

theorem prime_of_lucas (fuel n a : Nat) (fs : List Nat) (h : lucasOk fuel n a fs = true)
    (hp : ∀ q ∈ fs, q.Prime) : n.Prime := by
  simp only [lucasOk, Bool.and_eq_true, decide_eq_true_eq, List.all_eq_true] at h
  obtain ⟨⟨⟨⟨h1, h2⟩, h3⟩, h4⟩, h5⟩ := h
  apply lucas_primality n (a : ZMod n)
  · rw [← powMod_zmod fuel a (n - 1) n h2, h4]; simp
  · intro q hq hd
    have hmem : q ∈ fs := by
      rw [← h3] at hd
      obtain ⟨r, hr, hqr⟩ := (Prime.dvd_prod_iff hq.prime).mp hd
      rwa [(Nat.prime_dvd_prime_iff_eq hq (hp r hr)).mp hqr]
    have h6 := h5 q hmem
    intro h7
    apply h6
    rw [← powMod_zmod fuel a ((n - 1) / q) n
      (lt_of_le_of_lt (Nat.div_le_self _ _) h2)] at h7
    have h8 : ((1 : Nat) : ZMod n) = 1 := by simp
    rw [← h8, ZMod.natCast_eq_natCast_iff] at h7
    have h9 : powMod fuel a ((n - 1) / q) n 1 % n = 1 % n := h7
    rwa [Nat.mod_eq_of_lt (powMod_lt _ _ _ _ _ (by omega)), Nat.mod_eq_of_lt h1] at h9

end Cryptopy.Cert
