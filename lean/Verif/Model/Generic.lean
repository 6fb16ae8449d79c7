import Verif.Model.Ecc

/-!
Programs that use point objects only through their operators (`ecc/ellipticcurve.py` lines 67-96): they add, subtract,
negate, double, multiply by integers and compare with `==`, and never look at a coordinate.
-/

namespace Cryptopy.Model

/-- One step of such a program; the operands are given by their positions in the list of all points so far.
The operators of `ecc/ellipticcurve.py` lines 67-96. -/
inductive PointCmd where
  | add (i j : Nat)
  | sub (i j : Nat)
  | neg (i : Nat)
  | double (i : Nat)
  | mul (k : Int) (i : Nat)

/-- The operators of a kind of point objects; `none` stands for an exception.  As in `ecc/ellipticcurve.py` lines 67-96. -/
structure PointOps (α : Type) where
  add : α → α → Option α
  sub : α → α → Option α
  neg : α → Option α
  double : α → Option α
  mul : Int → α → Option α
  same : α → α → Bool

/-- The operators of the points of Weierstrass curves: `__add__`, `__sub__`, `__neg__`, `double`, `__mul__` and `__cmp__` (as `==`),
`ecc/ellipticcurve.py` lines 67-96. -/
def pointOps : PointOps WPoint where
  add P Q := (P.add Q).toOption
  sub P Q := (P.sub Q).toOption
  neg P := P.neg.toOption
  double P := P.double.toOption
  mul k P := (P.mul k).toOption
  same P Q := P.eq Q

variable {α : Type}

/-- Carries out a step.  The result is `none` if an operator raises, and if an operand does not exist.
Calls the operators of `ecc/ellipticcurve.py` lines 67-96. -/
def PointCmd.exec (m : PointOps α) (l : List (Option α)) : PointCmd → Option α
  | .add i j => (l.getD i none).bind fun a => (l.getD j none).bind fun b => m.add a b
  | .sub i j => (l.getD i none).bind fun a => (l.getD j none).bind fun b => m.sub a b
  | .neg i => (l.getD i none).bind m.neg
  | .double i => (l.getD i none).bind m.double
  | .mul k i => (l.getD i none).bind (m.mul k)

/-- All that such a program can know: for each step whether it raised and, if not, the position of the first point that is
`==` to its result.  This is the outcome of all comparisons between the points so far.
Comparisons are those of `ecc/ellipticcurve.py` lines 76-81. -/
def pointView (m : PointOps α) (l : List (Option α)) : List (Option Nat) :=
  l.map fun o => o.map fun a => l.findIdx fun b => match b with | some b => m.same b a | none => false

/-- Runs a program for `q` steps: every step may depend on all that is known so far.
The program is the caller of `ecc/ellipticcurve.py` lines 67-96, no code of `/repo`. -/
def runPoints (m : PointOps α) (A : List (Option Nat) → PointCmd) : Nat → List (Option α) → List (Option α)
  | 0, l => l
  | q + 1, l => runPoints m A q (l ++ [(A (pointView m l)).exec m l])

end Cryptopy.Model
