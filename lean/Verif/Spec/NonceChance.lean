import Verif.Spec.Chance

/-!
Asking for encryptions whose nonces are drawn at random by the encrypting side.
-/

namespace Cryptopy.Spec
open Cryptopy

/-- The chance of a result with `accept` if for each question a string of `n` octets is drawn and `g` answers with its help. -/
noncomputable def drawChance {M T R : Type} (n : ℕ) (g : Str n → M → T) (accept : R → Prop) : Asker M T R → ℚ
  | .done r => open Classical in if accept r then 1 else 0
  | .ask m next => (∑ ν : Str n, drawChance n g accept (next (g ν m))) / Fintype.card (Str n)

/-- The chance if each answer is a random string of `n` octets with a random string of the length of the message, independent of
everything before. -/
noncomputable def freshChance {R : Type} (n : ℕ) (accept : R → Prop) : Asker Bytes (Py (Bytes × Bytes)) R → ℚ
  | .done r => open Classical in if accept r then 1 else 0
  | .ask m next => (∑ t : Str n × Str m.length, freshChance n accept (next (.ok (t.1.1, t.2.1)))) /
      Fintype.card (Str n × Str m.length)

end Cryptopy.Spec
