import Verif.Model.Seeds
import Verif.Lemmas.Sha1
import Verif.Props.Curves

/-!
C132: how the NIST curves follow from their seeds.
-/

namespace Cryptopy
open Model

private theorem seeds_checked : ∀ e ∈ nistSeeds, Sha1.expandFast (e.1.p.toNat.log2 + 1 - 160 * (e.1.p.toNat.log2 / 160) - 1)
    (e.1.p.toNat.log2 / 160) e.2.1 (fun x => decide (x = e.2.2)) = true := by decide +kernel

private theorem squares_checked : ∀ e ∈ nistSeeds, e.1.a = e.1.p - 3 ∧ 0 < e.1.b ∧ e.1.b < e.1.p ∧
    0 < e.2.2 ∧ (e.2.2 : Int) < e.1.p ∧ ((e.2.2 : Int) * e.1.b ^ 2 + 27) % e.1.p = 0 ∧
    2 ^ e.1.p.toNat.log2 ≤ e.1.p ∧ e.1.p < 2 ^ (e.1.p.toNat.log2 + 1) := by decide +kernel

private theorem listed : ∀ e ∈ nistSeeds, e.1 ∈ primeOrderClasses := by
  intro e he
  simp only [nistSeeds, List.mem_cons, List.not_mem_nil, or_false] at he
  rcases he with rfl | rfl | rfl | rfl | rfl <;> simp only [primeOrderClasses, List.mem_cons, true_or, or_true]

/-- C132: `seed_c` is the number that ANSI X9.62 derives from `seed` with SHA-1 for the bit length `L` of `p`, and `b` and
`p - b` are the only numbers below `p` with `seed_c * b ** 2 = -27` modulo `p`; `a` is -3. -/
theorem C132_nist (K : WClass) (seed c : Nat) (h : (K, seed, c) ∈ nistSeeds) :
    (∃ L, 2 ^ (L - 1) ≤ K.p ∧ K.p < 2 ^ L ∧ c = Spec.seedNumber1 L seed) ∧ K.a = K.p - 3 ∧ 0 < K.b ∧ K.b < K.p ∧
      ∀ b : Int, 0 ≤ b → b < K.p → ((c * b ^ 2 + 27) % K.p = 0 ↔ b = K.b ∨ b = K.p - K.b) := by
  obtain ⟨ha, hb, hbp, hc, hcp, hm, hl, hu⟩ := squares_checked _ h
  have hs := seeds_checked _ h
  obtain ⟨p, n, hp, -, hprime, -⟩ := C95_parameters K (listed _ h)
  dsimp only at ha hb hbp hc hcp hm hl hu hs
  refine ⟨⟨K.p.toNat.log2 + 1, by simpa using hl, hu, ?_⟩, ha, hb, hbp, fun b b0 b1 => ?_⟩
  · rw [Sha1.expandFast_eq] at hs
    have := of_decide_eq_true hs
    rw [Spec.seedNumber1]
    exact this.symm
  · rw [hp] at hm hcp hbp b1 ⊢
    generalize K.b = B at *
    have hpI : Prime (p : Int) := Nat.prime_iff_prime_int.mp hprime
    have hc' : ¬ (p : Int) ∣ c := fun hd => by
      have := Int.le_of_dvd (by omega) hd
      omega
    rw [← Int.dvd_iff_emod_eq_zero] at hm ⊢
    constructor
    · intro hd
      have h1 : (p : Int) ∣ c * ((b - B) * (b + B)) := by
        have := dvd_sub hd hm
        rwa [show (c : Int) * b ^ 2 + 27 - (c * B ^ 2 + 27) = c * ((b - B) * (b + B)) by ring] at this
      rcases (hpI.dvd_mul.mp ((hpI.dvd_mul.mp h1).resolve_left hc')) with h2 | h2
      · left
        have := Int.eq_zero_of_abs_lt_dvd h2 (by rw [abs_lt]; omega)
        omega
      · right
        obtain ⟨k, hk⟩ := h2
        have : k = 1 := by
          have h3 : 0 < (p : Int) * k := by omega
          have h4 : (p : Int) * k < p * 2 := by omega
          have h5 : 0 < (p : Int) := by omega
          have := pos_of_mul_pos_right h3 h5.le
          have := lt_of_mul_lt_mul_left h4 h5.le
          omega
        subst this
        omega
    · rintro (rfl | rfl)
      · exact hm
      · have : (c : Int) * (p - B) ^ 2 + 27 = c * B ^ 2 + 27 + p * (c * (p - 2 * B)) := by ring
        rw [this]
        exact dvd_add hm (dvd_mul_right _ _)

/-- The seed of P-256 gives the number that is recorded. -/
example : Spec.seedNumber1 256 0xc49d360886e704936a6678e1139d26b7819f7e90 =
    0x7efba1662985be9403cb055c75d4f7e0ce8d84a9c5114abcaf3177680104fa0d := by
  have hm : (SECP_256r1, 0xc49d360886e704936a6678e1139d26b7819f7e90,
      0x7efba1662985be9403cb055c75d4f7e0ce8d84a9c5114abcaf3177680104fa0d) ∈ nistSeeds := by simp [nistSeeds]
  have hs := seeds_checked _ hm
  rw [Sha1.expandFast_eq] at hs
  exact of_decide_eq_true hs

end Cryptopy
