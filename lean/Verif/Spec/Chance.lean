import Verif.Py
import Verif.Spec.Asker
import Mathlib.Data.Fintype.BigOperators
import Mathlib.Data.Finite.Defs
import Mathlib.Data.Set.Finite.List
import Mathlib.Data.Rat.Defs
import Mathlib.Algebra.Order.Field.Rat

/-!
Asking for authenticated encryptions and for openings, and what somebody sees who gets random strings for encryptions
and can open nothing else.
-/

namespace Cryptopy.Spec
open Cryptopy

/-- The octet strings of a length. -/
abbrev Str (n : ℕ) : Type := {s : Bytes // s.length = n}

instance (n : ℕ) : Finite (Str n) := by
  have : Finite UInt8 := Finite.of_injective (fun x => x.toFin) fun a b h => UInt8.toFin_inj.mp h
  exact (List.finite_length_eq UInt8 n).to_subtype

noncomputable instance (n : ℕ) : Fintype (Str n) := Fintype.ofFinite _

/-- What is encrypted: the associated data, the variable part of the nonce and the plaintext. -/
structure AeadQuery where
  aad : Bytes
  iv : Bytes
  pt : Bytes
  deriving DecidableEq

/-- What is given to a recipient: the associated data, the variable part of the nonce, the ciphertext and the tag. -/
structure AeadSent where
  aad : Bytes
  iv : Bytes
  ct : Bytes
  tag : Bytes
  deriving DecidableEq

/-- A question is for an encryption or for an opening. -/
abbrev AeadAsk : Type := AeadQuery ⊕ AeadSent

/-- The answer to the first kind of question is a ciphertext with a tag, to the second kind the plaintext, or `none` if
the recipient does not accept. -/
abbrev AeadAnswer : Type := Py (Bytes × Bytes) ⊕ Py (Option Bytes)

/-- Somebody who asks for encryptions and openings. -/
abbrev AeadAsker (R : Type) : Type := Asker AeadAsk AeadAnswer R

/-- Whatever the answers are, no encryption has the nonce of an earlier one or one of the nonces in the list. -/
def FreshNonces {R : Type} : List Bytes → AeadAsker R → Prop
  | _, .done _ => True
  | l, .ask (.inl m) next => m.iv ∉ l ∧ ∀ t, FreshNonces (m.iv :: l) (next t)
  | l, .ask (.inr _) next => ∀ t, FreshNonces l (next t)

/-- The plaintext of an earlier encryption with just this outcome; the list has the encryptions and the outcomes. -/
def lookUp (l : List (AeadQuery × Bytes × Bytes)) (x : AeadSent) : Option Bytes :=
  (l.find? fun e => e.1.aad = x.aad ∧ e.1.iv = x.iv ∧ e.2 = (x.ct, x.tag)).map fun e => e.1.pt

/-- The chance of a result with `accept` if each encryption is a random string of the length of the plaintext with a
random tag of sixteen octets, independent of everything before, and if the recipient accepts exactly the outcomes of
earlier encryptions; the list has the encryptions so far. -/
noncomputable def chance {R : Type} (accept : R → Prop) : List (AeadQuery × Bytes × Bytes) → AeadAsker R → ℚ
  | _, .done r => open Classical in if accept r then 1 else 0
  | l, .ask (.inl m) next => (∑ t : Str m.pt.length × Str 16,
      chance accept ((m, t.1.1, t.2.1) :: l) (next (.inl (.ok (t.1.1, t.2.1))))) / Fintype.card (Str m.pt.length × Str 16)
  | l, .ask (.inr x) next => chance accept l (next (.inr (.ok (lookUp l x))))

/-- With the answers of `g`, a recipient accepts something that is not the outcome of an earlier encryption; the list has
the encryptions so far. -/
def Forges {R : Type} (g : AeadAsk → AeadAnswer) : List (AeadQuery × Py (Bytes × Bytes)) → AeadAsker R → Prop
  | _, .done _ => False
  | l, .ask (.inl m) next => Forges g (match g (.inl m) with
      | .inl a => (m, a) :: l
      | .inr _ => l) (next (g (.inl m)))
  | l, .ask (.inr x) next =>
      (∃ pt, g (.inr x) = .inr (.ok (some pt)) ∧ (⟨x.aad, x.iv, pt⟩, .ok (x.ct, x.tag)) ∉ l) ∨
        Forges g l (next (g (.inr x)))

end Cryptopy.Spec
