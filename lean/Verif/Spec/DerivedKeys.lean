import Verif.Spec.Chance
import Verif.Spec.RandomFunction

/-!
Questions to a hash function and to somebody who derives keys.
-/

namespace Cryptopy.Spec

/-- A question for the hash value of a string or for a derived key of `n` octets with the label `a`. -/
inductive KeyAsk (L : Type) where
  | hash (x : Bytes)
  | key (a : L) (n : ℕ)

/-- The number of hash values asked for. -/
def KeyAsk.hashes {L : Type} : KeyAsk L → ℕ
  | .hash _ => 1
  | .key _ _ => 0

/-- No two keys are asked for with the same label; the list has the labels so far. -/
def FreshLabels {L R : Type} : List L → Asker (KeyAsk L) (Py Bytes) R → Prop
  | _, .done _ => True
  | S, .ask (.hash _) next => ∀ t, FreshLabels S (next t)
  | S, .ask (.key a _) next => a ∉ S ∧ ∀ t, FreshLabels (a :: S) (next t)

/-- The chance of a result with `accept` if each derived key is a random string, independent of everything before, and
the hash function is random, with values of `d` octets; the list has the hash values so far. -/
noncomputable def keyChance {L R : Type} (d : ℕ) (accept : R → Prop) :
    List (Bytes × Bytes) → Asker (KeyAsk L) (Py Bytes) R → ℚ
  | _, .done r => open Classical in if accept r then 1 else 0
  | l, .ask (.hash x) next =>
    match l.lookup x with
    | some t => keyChance d accept l (next (.ok t))
    | none => (∑ t : Str d, keyChance d accept ((x, t.1) :: l) (next (.ok t.1))) / Fintype.card (Str d)
  | l, .ask (.key _ n) next => (∑ t : Str n, keyChance d accept l (next (.ok t.1))) / Fintype.card (Str n)

end Cryptopy.Spec
