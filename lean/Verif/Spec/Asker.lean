/-!
Somebody who asks for tags: the adaptive attacker of the definitions of security of a message authentication code.
-/

namespace Cryptopy.Spec

/-- A strategy: either it ends with a result, or it asks for the tag of a message and goes on depending on the answer. -/
inductive Asker (M T R : Type) where
  | done (r : R)
  | ask (m : M) (next : T → Asker M T R)

variable {M T R : Type}

/-- The result if `g` answers. -/
def Asker.run (g : M → T) : Asker M T R → R
  | .done r => r
  | .ask m next => (next (g m)).run g

/-- The messages asked for if `g` answers. -/
def Asker.asked (g : M → T) : Asker M T R → List M
  | .done _ => []
  | .ask m next => m :: (next (g m)).asked g

/-- Whatever the answers are, the costs of the messages asked for and of the result add up to at most `c`. -/
def Asker.CostLe (cost : M → Nat) (last : R → Nat) : Asker M T R → Nat → Prop
  | .done r, c => last r ≤ c
  | .ask m next, c => cost m ≤ c ∧ ∀ t, (next t).CostLe cost last (c - cost m)

/-- Whatever the answers are, only messages in `S` are asked for. -/
def Asker.Within (S : M → Prop) : Asker M T R → Prop
  | .done _ => True
  | .ask m next => S m ∧ ∀ t, (next t).Within S

end Cryptopy.Spec
