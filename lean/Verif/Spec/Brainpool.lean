import Mathlib.Data.Nat.Prime.Defs
import Verif.Spec.Sha1

/-!
The generation of the Brainpool curve parameters from seeds ("ECC Brainpool Standard Curves and Curve Generation",
version 1.0, section 5; RFC 5639).
-/

namespace Cryptopy.Spec

/-- `update_seed`. -/
def updateSeed (s : Nat) : Nat := (s + 1) % 2 ^ 160

/-- `p` is the least prime from `c` on that is 3 modulo 4. -/
def LeastPrime (c p : Nat) : Prop :=
  c ≤ p ∧ p.Prime ∧ p % 4 = 3 ∧ ∀ q, c ≤ q → q.Prime → q % 4 = 3 → p ≤ q

/-- The generation of a prime of `L` bits from the seed `s` ends with `p`: the least prime from the number of the seed on
is taken if it has `L` bits, otherwise the next seed is used. -/
inductive PrimeFromSeed (L : Nat) : Nat → Nat → Prop
  | found (s p : Nat) : LeastPrime (seedNumber2 L s) p → 2 ^ (L - 1) ≤ p → p < 2 ^ L → PrimeFromSeed L s p
  | next (s q p : Nat) : LeastPrime (seedNumber2 L s) q → ¬ (2 ^ (L - 1) ≤ q ∧ q < 2 ^ L) →
      PrimeFromSeed L (updateSeed s) p → PrimeFromSeed L s p

/-- What the generation demands of the pair `(A, B)` of candidates made from the seeds `s` and `t` before it counts
points: `-3 = A z ^ 4` can be solved, `t` comes after `s`, and `B` is the first of the numbers of the seeds from the one after
`s` on that is no square modulo `p`. -/
def Candidates (L p s j A B : Nat) : Prop :=
  A = seedNumber1 L s ∧ (∃ z, (A * z ^ 4 + 3) % p = 0) ∧ 0 < j ∧ B = seedNumber1 L (updateSeed^[j] s) ∧
    (¬ ∃ r, r ^ 2 % p = B % p) ∧ ∀ i, 0 < i → i < j → ∃ r, r ^ 2 % p = seedNumber1 L (updateSeed^[i] s) % p

end Cryptopy.Spec
