import Verif.Spec.Asker
import Mathlib.Tactic.Common

/-!
One strategy after another.
-/

namespace Cryptopy.Core
open Spec (Asker)

/-- First one strategy, then another. -/
def andThen {M A X Y : Type} : Asker M A X → (X → Asker M A Y) → Asker M A Y
  | .done x, k => k x
  | .ask v next, k => .ask v fun y => andThen (next y) k

variable {M A X Y : Type} {b b' : ℕ}

theorem andThen_run (g : M → A) (T : Asker M A X)
    (k : X → Asker M A Y) : (andThen T k).run g = (k (T.run g)).run g := by
  induction T with
  | done x => rfl
  | ask v next ih => exact ih _

theorem cost_mono (cost : M → ℕ) (T : Asker M A X) (h : b ≤ b')
    (hc : T.CostLe cost (fun _ => 0) b) : T.CostLe cost (fun _ => 0) b' := by
  induction T generalizing b b' with
  | done x => exact Nat.zero_le _
  | ask v next ih => exact ⟨Nat.le_trans hc.1 h, fun y => ih y (Nat.sub_le_sub_right h _) (hc.2 y)⟩

theorem andThen_cost (cost : M → ℕ) (T : Asker M A X)
    (k : X → Asker M A Y) (h : T.CostLe cost (fun _ => 0) b)
    (hk : ∀ x, (k x).CostLe cost (fun _ => 0) b') : (andThen T k).CostLe cost (fun _ => 0) (b + b') := by
  induction T generalizing b with
  | done x => exact cost_mono cost _ (Nat.le_add_left _ _) (hk x)
  | ask v next ih =>
    refine ⟨Nat.le_trans h.1 (Nat.le_add_right _ _), fun y => ?_⟩
    have := ih y (h.2 y)
    have h1 := h.1
    rwa [show b + b' - cost v = b - cost v + b' by omega]

theorem andThen_asked (g : M → A) (T : Asker M A X) (k : X → Asker M A Y) :
    (andThen T k).asked g = T.asked g ++ (k (T.run g)).asked g := by
  induction T with
  | done x => rfl
  | ask v next ih => exact congrArg (v :: ·) (ih _)

end Cryptopy.Core
