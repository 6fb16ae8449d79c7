import Verif.Spec.Chance
import Mathlib.Logic.Function.Basic

/-!
The same as `Verif/Spec/Chance.lean` for many owners of keys: each question is for one of them.
-/

namespace Cryptopy.Spec
open Cryptopy

/-- Somebody who asks `u` owners for encryptions and openings. -/
abbrev OwnersAsker (u : ℕ) (R : Type) : Type := Asker (Fin u × AeadAsk) AeadAnswer R

variable {u : ℕ} {R : Type}

/-- Whatever the answers are, no encryption has the nonce of an earlier one of the same owner or one of the nonces in the
list of the owner. -/
def FreshEach : (Fin u → List Bytes) → OwnersAsker u R → Prop
  | _, .done _ => True
  | l, .ask (i, .inl m) next => m.iv ∉ l i ∧ ∀ t, FreshEach (Function.update l i (m.iv :: l i)) (next t)
  | l, .ask (_, .inr _) next => ∀ t, FreshEach l (next t)

/-- The chance of a result with `accept` if each encryption is a random string of the length of the plaintext with a
random tag of sixteen octets, independent of everything before, and if each owner accepts exactly the outcomes of their
own earlier encryptions; the lists have the encryptions so far. -/
noncomputable def chanceEach (accept : R → Prop) : (Fin u → List (AeadQuery × Bytes × Bytes)) → OwnersAsker u R → ℚ
  | _, .done r => open Classical in if accept r then 1 else 0
  | l, .ask (i, .inl m) next => (∑ t : Str m.pt.length × Str 16,
      chanceEach accept (Function.update l i ((m, t.1.1, t.2.1) :: l i)) (next (.inl (.ok (t.1.1, t.2.1))))) /
        Fintype.card (Str m.pt.length × Str 16)
  | l, .ask (i, .inr x) next => chanceEach accept l (next (.inr (.ok (lookUp (l i) x))))

/-- With the answers of `g`, an owner accepts something that is not the outcome of an earlier encryption of their own; the
lists have the encryptions so far. -/
def ForgesEach (g : Fin u × AeadAsk → AeadAnswer) : (Fin u → List (AeadQuery × Py (Bytes × Bytes))) → OwnersAsker u R → Prop
  | _, .done _ => False
  | l, .ask (i, .inl m) next => ForgesEach g (match g (i, .inl m) with
      | .inl a => Function.update l i ((m, a) :: l i)
      | .inr _ => l) (next (g (i, .inl m)))
  | l, .ask (i, .inr x) next =>
      (∃ pt, g (i, .inr x) = .inr (.ok (some pt)) ∧ (⟨x.aad, x.iv, pt⟩, .ok (x.ct, x.tag)) ∉ l i) ∨
        ForgesEach g l (next (g (i, .inr x)))

end Cryptopy.Spec
