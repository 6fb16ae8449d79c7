import Verif.Lemmas.Count
import Verif.Model.Curves

/-!
A computation that establishes the facts about the numbers of one curve of `ecc/curves.py`.
-/

namespace Cryptopy.Ecpp

theorem prime_of_chain_eq {N : Nat} (n : Nat) (c : List (Nat × Nat × Nat × Nat × Nat))
    (h : chainOk n c = true) (e : N = (c.map Prod.fst).headD n) : N.Prime := e ▸ prime_of_chain n c h

end Cryptopy.Ecpp

namespace Cryptopy.Model
open Cryptopy.Ecpp

/-- The checks on the numbers of one class, with numbers that show that there are no roots. -/
def WClass.ok (K : WClass) (v0 v1 v2 : Nat) : Bool :=
  decide (0 ≤ K.p ∧ 0 ≤ K.a ∧ 0 ≤ K.b ∧ 0 ≤ K.xG ∧ K.xG < K.p ∧ 0 < K.yG ∧ K.yG < K.p ∧ 2 < K.n ∧ K.h = 1) &&
    stepOk (K.n.toNat.log2 + 1) K.p.toNat K.a.toNat K.b.toNat K.xG.toNat K.yG.toNat K.n.toNat &&
    decide (4 * K.p.toNat < (K.n.toNat - 1) ^ 2) && decide (2 * K.p.toNat + 1 < 3 * K.n.toNat) &&
    noRootOk K.p.toNat K.a.toNat K.b.toNat v0 v1 v2

/-- The facts that the checks establish, in natural numbers. -/
structure WClass.Checked (K : WClass) : Prop where
  ex : ∃ p a b x y n bits : Nat, K.p = p ∧ K.a = a ∧ K.b = b ∧ K.xG = x ∧ K.yG = y ∧ K.n = n ∧ K.h = 1 ∧
    x < p ∧ 0 < y ∧ y < p ∧ p.Prime ∧ n.Prime ∧ n ≠ 2 ∧ Step bits p a b x y n ∧ 2 * p + 1 < 3 * n ∧
    ∃ v0 v1 v2, noRootOk p a b v0 v1 v2 = true

theorem WClass.Checked.of_ok {K : WClass} (hn : K.n.toNat.Prime) (v0 v1 v2 : Nat) (h : K.ok v0 v1 v2 = true) :
    K.Checked := by
  rw [WClass.ok, Bool.and_eq_true, Bool.and_eq_true, Bool.and_eq_true, Bool.and_eq_true, decide_eq_true_eq,
    decide_eq_true_eq, decide_eq_true_eq] at h
  obtain ⟨⟨⟨⟨⟨h1, h2, h3, h4, h5, h6, h7, h8, h9⟩, hs⟩, hb⟩, hc⟩, hr⟩ := h
  have hs' := step_of_ok hs
  have hp := prime_of_step hs' hn hb
  exact ⟨K.p.toNat, K.a.toNat, K.b.toNat, K.xG.toNat, K.yG.toNat, K.n.toNat, _, by omega, by omega, by omega, by omega,
    by omega, by omega, h9, by omega, by omega, by omega, hp, hn, by omega, hs', hc, v0, v1, v2, hr⟩

end Cryptopy.Model
