import Verif.Lemmas.DocScan

/-! A search for composite numbers below 1373653 that pass the strong tests to the bases 2 and 3. -/

namespace Cryptopy.PseudoScan

/-- Rejected by the strong test to the base 2 or 3. -/
def fails23 (n : Nat) : Bool := Ecpp.force n fun n => strongFails 2 n || strongFails 3 n

/-- The search for one `p`, `m` running through the numbers that are 1 modulo the order of 2. -/
noncomputable def ptP (p : Nat) : Bool :=
  Bool.rec true (Ecpp.force (ordGuess p) fun o => Ecpp.force (primesBelow p) fun P =>
    Ecpp.force (Nat.div (Nat.pred p) o) fun k =>
    Nat.ble 1 o && ordOk 2 p o && (Nat.beq k 0 || Nat.blt (1 + (k - 1) * o) p) &&
      Ecpp.force (1 + k * o) (scan fails23 1373653 P p o 200000))
    (Nat.beq (Nat.gcd p primorial173) 1 || primes173.any fun q => Nat.beq q p)

/-- `ptP` for `c` numbers from `p` on. -/
noncomputable def ptFrom (c : Nat) : Nat → Bool :=
  Nat.rec (fun _ => true) (fun _ ih p => Nat.rec false (fun r _ => Bool.rec false (ih (Nat.succ r)) (ptP p))
    (Nat.succ p)) c

theorem ptFrom_spec (c : Nat) : ∀ p, ptFrom c p = true → ∀ q, p ≤ q → q < p + c → ptP q = true := by
  induction c with
  | zero => intro p _ q h1 h2; omega
  | succ c ih =>
    intro p h q h1 h2
    have e : ptFrom (c + 1) p = Bool.rec false (ptFrom c (p + 1)) (ptP p) := rfl
    rw [e] at h
    cases hp : ptP p
    · rw [hp] at h; cases h
    · rw [hp] at h
      rcases Nat.eq_or_lt_of_le h1 with rfl | h3
      · exact hp
      · exact ih (p + 1) h q h3 (by omega)

set_option maxRecDepth 100000

theorem pt0 : ptFrom 2 5 = true := by decide +kernel
theorem pt1 : ptFrom 4 7 = true := by decide +kernel
theorem pt2 : ptFrom 1162 11 = true := by decide +kernel

theorem ptP_all (p : Nat) (h1 : 5 ≤ p) (h2 : p < 1173) : ptP p = true := by
  rcases Nat.lt_or_ge p 7 with h | g0
  · exact ptFrom_spec _ _ pt0 p h1 h
  rcases Nat.lt_or_ge p 11 with h | g1
  · exact ptFrom_spec _ _ pt1 p g0 h
  exact ptFrom_spec _ _ pt2 p g1 h2

end Cryptopy.PseudoScan
