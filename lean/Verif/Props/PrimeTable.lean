import Verif.Lemmas.Factor
import Verif.Model.PrimeTable

/-!
The tables of primes (C93).
-/

namespace Cryptopy.Props
open Model

theorem primesTo5k_check : (List.range 5000).filter (trial 71) = primesTo5k := by decide +kernel

/-- C93: the members of `primes_to_5k` are exactly the primes below 5000. -/
theorem C93_primes_to_5k (n : Nat) : n ∈ primesTo5k ↔ n.Prime ∧ n < 5000 := by
  rw [← primesTo5k_check, List.mem_filter, List.mem_range]
  constructor
  · rintro ⟨h1, h2⟩
    exact ⟨(trial_iff 71 n (by omega)).mp h2, h1⟩
  · rintro ⟨h1, h2⟩
    exact ⟨h2, (trial_iff 71 n (by omega)).mpr h1⟩

/-- C93: `primes_to_5k` is in increasing order, without repetition. -/
theorem C93_sorted : primesTo5k.Pairwise (· < ·) := by
  rw [← primesTo5k_check]
  exact List.pairwise_lt_range.filter _

/-- C93: the members of `smallprimes` are exactly the primes up to 1229. -/
theorem C93_smallprimes (n : Int) : n ∈ smallprimes ↔ 0 ≤ n ∧ n.toNat.Prime ∧ n ≤ 1229 := by
  constructor
  · intro h
    obtain ⟨h1, h2, h3⟩ := smallprimes_primes n h
    exact ⟨h2, h1, h3⟩
  · rintro ⟨h1, h2, h3⟩
    have := (smallprimes_exact n.toNat (by omega)).mpr h2
    rwa [Int.toNat_of_nonneg h1] at this

/-- C93: `smallprimes` is in increasing order. -/
theorem C93_smallprimes_sorted : smallprimes.Pairwise (· < ·) := smallprimes_sorted

/-- The tables are not empty. -/
example : 4999 ∈ primesTo5k ∧ (1229 : Int) ∈ smallprimes := by decide +kernel

end Cryptopy.Props
