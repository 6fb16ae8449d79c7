import Verif.Lemmas.PseudoScan

/-!
The search of `PseudoScan` for all composite numbers below `179^4` without prime factor up to 173.
-/

namespace Cryptopy.PseudoScan

/-- `y` and its squares, `k` values in all, differ from `n - 1` modulo `n`. -/
def misses (n : Nat) : Nat → Nat → Bool
  | 0, _ => true
  | k + 1, y => !(Nat.beq y (n - 1)) && Ecpp.force (y * y % n) (misses n k)

theorem misses_spec (n k : Nat) : ∀ y, misses n k (y % n) = true → ∀ j < k, y ^ 2 ^ j % n ≠ n - 1 := by
  induction k with
  | zero => intro y _ j hj; omega
  | succ k ih =>
    intro y h j hj
    rw [misses, Ecpp.force_eq, Bool.and_eq_true, Bool.not_eq_true', ← Bool.not_eq_true, Nat.beq_eq, ← Nat.mul_mod] at h
    cases j with
    | zero => rw [pow_zero, pow_one]; exact h.1
    | succ j =>
      have := ih (y * y) h.2 j (by omega)
      rwa [← pow_two, ← pow_mul, ← pow_succ'] at this

/-- `n` is not a strong probable prime to the base `a`. -/
def strongFails (a n : Nat) : Bool :=
  Ecpp.force (Cert.powMod 30 a (Nat.div (n - 1) (Nat.gcd (n - 1) (2 ^ 30))) n 1) fun y =>
    !(Nat.beq y 1) && misses n 30 y

theorem strongFails_spec {a n : Nat} (hn : 3 ≤ n) (hn' : n < 2 ^ 30) (h : strongFails a n = true) (s t : Nat)
    (hst : n - 1 = 2 ^ s * t) (ht : t % 2 = 1) : a ^ t % n ≠ 1 ∧ ∀ j < s, a ^ (2 ^ j * t) % n ≠ n - 1 := by
  have hs : s < 30 := by
    by_contra hge
    have h1 : 2 ^ 30 ≤ 2 ^ s := Nat.pow_le_pow_right (by norm_num) (by omega)
    have h2 : 2 ^ s ≤ 2 ^ s * t := Nat.le_mul_of_pos_right _ (by omega)
    omega
  have hg : Nat.gcd (n - 1) (2 ^ 30) = 2 ^ s := by
    rw [hst, show (2 : Nat) ^ 30 = 2 ^ s * 2 ^ (30 - s) by rw [← pow_add]; congr 1; omega, Nat.gcd_mul_left]
    have : Nat.Coprime t (2 ^ (30 - s)) := Nat.Coprime.pow_right _ (Nat.coprime_two_right.mpr (Nat.odd_iff.mpr ht))
    rw [Nat.coprime_iff_gcd_eq_one.mp this, mul_one]
  have hq : Nat.div (n - 1) (2 ^ s) = t := by rw [hst]; exact Nat.mul_div_cancel_left t (by positivity)
  rw [strongFails, Ecpp.force_eq, hg, hq, Bool.and_eq_true, Bool.not_eq_true', ← Bool.not_eq_true, Nat.beq_eq] at h
  have htn : t < 2 ^ 30 := by
    have : t ≤ 2 ^ s * t := Nat.le_mul_of_pos_left _ (by positivity)
    omega
  have hp := Cert.powMod_eq 30 a t n 1 htn
  have hlt : Cert.powMod 30 a t n 1 < n := Cert.powMod_lt _ _ _ _ _ (by omega)
  rw [one_mul, Nat.ModEq, Nat.mod_eq_of_lt hlt] at hp
  rw [hp] at h
  refine ⟨h.1, fun j hj => ?_⟩
  have := misses_spec n 30 _ h.2 j (by omega)
  rwa [← pow_mul, mul_comm] at this

/-- The numbers that pass the test to the base 2 are tested more strictly, to the bases 2, 3, 5 and 7. -/
def failsMore (n : Nat) : Bool :=
  Ecpp.force n fun n => strongFails 2 n || strongFails 3 n || strongFails 5 n || strongFails 7 n

/-- If `p` is prime: some base up to 173 is a primitive root modulo `p`, and the products `p m` below `179^4` with
`m = 1` modulo `p - 1` and `m ≥ p` fail a test or have a prime factor up to 173. -/
noncomputable def checkP (p : Nat) : Bool :=
  Bool.rec true (Bool.rec false (scan failsMore 1026625681 primorial173 p (Nat.pred p) 40000 p)
    (primes173.any fun g => ordOk g p (Nat.pred p))) (Nat.beq (Nat.gcd p primorial173) 1)

/-- `checkP` for `c` numbers from `p` on. -/
noncomputable def checkFrom (c : Nat) : Nat → Bool :=
  Nat.rec (fun _ => true) (fun _ ih p => Nat.rec false (fun r _ => Bool.rec false (ih (Nat.succ r)) (checkP p))
    (Nat.succ p)) c

theorem checkFrom_spec (c : Nat) : ∀ p, checkFrom c p = true → ∀ q, p ≤ q → q < p + c → checkP q = true := by
  induction c with
  | zero => intro p _ q h1 h2; omega
  | succ c ih =>
    intro p h q h1 h2
    have e : checkFrom (c + 1) p = Bool.rec false (checkFrom c (p + 1)) (checkP p) := rfl
    rw [e] at h
    cases hp : checkP p
    · rw [hp] at h; cases h
    · rw [hp] at h
      rcases Nat.eq_or_lt_of_le h1 with rfl | h3
      · exact hp
      · exact ih (p + 1) h q h3 (by omega)

set_option maxRecDepth 100000
private theorem check0 : checkFrom 12 179 = true := by decide +kernel
private theorem check1 : checkFrom 6 191 = true := by decide +kernel
private theorem check2 : checkFrom 14 197 = true := by decide +kernel
private theorem check3 : checkFrom 18 211 = true := by decide +kernel
private theorem check4 : checkFrom 12 229 = true := by decide +kernel
private theorem check5 : checkFrom 28 241 = true := by decide +kernel
private theorem check6 : checkFrom 24 269 = true := by decide +kernel
private theorem check7 : checkFrom 44 293 = true := by decide +kernel
private theorem check8 : checkFrom 46 337 = true := by decide +kernel
private theorem check9 : checkFrom 66 383 = true := by decide +kernel
private theorem check10 : checkFrom 114 449 = true := by decide +kernel
private theorem check11 : checkFrom 164 563 = true := by decide +kernel
private theorem check12 : checkFrom 336 727 = true := by decide +kernel
private theorem check13 : checkFrom 976 1063 = true := by decide +kernel
private theorem check14 : checkFrom 4040 2039 = true := by decide +kernel
private theorem check15 : checkFrom 9190 6079 = true := by decide +kernel
private theorem check16 : checkFrom 11228 15269 = true := by decide +kernel
private theorem check17 : checkFrom 5544 26497 = true := by decide +kernel

theorem checkP_all (p : Nat) (h1 : 179 ≤ p) (h2 : p < 32041) : checkP p = true := by
  rcases Nat.lt_or_ge p 191 with h | g0
  · exact checkFrom_spec _ _ check0 p h1 h
  rcases Nat.lt_or_ge p 197 with h | g1
  · exact checkFrom_spec _ _ check1 p g0 h
  rcases Nat.lt_or_ge p 211 with h | g2
  · exact checkFrom_spec _ _ check2 p g1 h
  rcases Nat.lt_or_ge p 229 with h | g3
  · exact checkFrom_spec _ _ check3 p g2 h
  rcases Nat.lt_or_ge p 241 with h | g4
  · exact checkFrom_spec _ _ check4 p g3 h
  rcases Nat.lt_or_ge p 269 with h | g5
  · exact checkFrom_spec _ _ check5 p g4 h
  rcases Nat.lt_or_ge p 293 with h | g6
  · exact checkFrom_spec _ _ check6 p g5 h
  rcases Nat.lt_or_ge p 337 with h | g7
  · exact checkFrom_spec _ _ check7 p g6 h
  rcases Nat.lt_or_ge p 383 with h | g8
  · exact checkFrom_spec _ _ check8 p g7 h
  rcases Nat.lt_or_ge p 449 with h | g9
  · exact checkFrom_spec _ _ check9 p g8 h
  rcases Nat.lt_or_ge p 563 with h | g10
  · exact checkFrom_spec _ _ check10 p g9 h
  rcases Nat.lt_or_ge p 727 with h | g11
  · exact checkFrom_spec _ _ check11 p g10 h
  rcases Nat.lt_or_ge p 1063 with h | g12
  · exact checkFrom_spec _ _ check12 p g11 h
  rcases Nat.lt_or_ge p 2039 with h | g13
  · exact checkFrom_spec _ _ check13 p g12 h
  rcases Nat.lt_or_ge p 6079 with h | g14
  · exact checkFrom_spec _ _ check14 p g13 h
  rcases Nat.lt_or_ge p 15269 with h | g15
  · exact checkFrom_spec _ _ check15 p g14 h
  rcases Nat.lt_or_ge p 26497 with h | g16
  · exact checkFrom_spec _ _ check16 p g15 h
  exact checkFrom_spec _ _ check17 p g16 h2

end Cryptopy.PseudoScan
