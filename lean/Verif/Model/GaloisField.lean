import Verif.Py
import Verif.Model.Arith

/-!
Model of `/repo/fmath/galoisfield.py`.

An element is its field's modulus and its stored value.  An operand is an element or a Python integer;
`int(other)` is `Operand.toInt`.  Negative exponents, which give floats in Python 2, are outside the
model (`xorOp` takes the exponent as a natural number).
-/

namespace Cryptopy.Model

/-- `class Element_of_GFp`, `fmath/galoisfield.py` lines 35-40: the field is represented by its modulus (line 22). -/
structure GFpElem where
  p : Int
  value : Int
  deriving DecidableEq, Repr

/-- `GFp.__call__`, `fmath/galoisfield.py` lines 24-26, and `Element_of_GFp.__init__`, lines 38-40. -/
def gfpNew (p value : Int) : Py GFpElem :=
  if p = 0 then .error .zeroDivision else .ok ⟨p, value.fmod p⟩

/-- What can stand on the other side of an operator.  `fmath/galoisfield.py` lines 42-82. -/
inductive Operand where
  | int (i : Int)
  | elem (e : GFpElem)

/-- `int(other)`: an integer is itself, an element gives its value (`fmath/galoisfield.py` lines 81-82). -/
def Operand.toInt : Operand → Int
  | .int i => i
  | .elem e => e.value

/-- `egcd`, `fmath/galoisfield.py` lines 88-93. -/
def egcd (a b : Int) : Int × Int × Int :=
  if _h : a = 0 then (b, 0, 1)
  else
    let r := egcd (b.fmod a) a
    (r.1, r.2.2 - b.fdiv a * r.2.1, r.2.1)
termination_by a.natAbs
decreasing_by exact natAbs_fmod_lt b _h

/-- `inverse_mod`, `fmath/galoisfield.py` lines 95-100. -/
def gfInverseMod (a m : Int) : Py Int :=
  let r := egcd a m
  if r.1 ≠ 1 then .error .exception
  else if m = 0 then .error .zeroDivision
  else .ok (r.2.1.fmod m)

namespace GFpElem

/-- `__add__`, `fmath/galoisfield.py` lines 42-43. -/
def add (x : GFpElem) (o : Operand) : Py GFpElem := gfpNew x.p (x.value + o.toInt)
/-- `__radd__`, `fmath/galoisfield.py` lines 45-46. -/
def radd (x : GFpElem) (o : Operand) : Py GFpElem := gfpNew x.p (x.value + o.toInt)
/-- `__neg__`, `fmath/galoisfield.py` lines 48-49. -/
def neg (x : GFpElem) : Py GFpElem := gfpNew x.p (-x.value)
/-- `__sub__`, `fmath/galoisfield.py` lines 51-52. -/
def sub (x : GFpElem) (o : Operand) : Py GFpElem := gfpNew x.p (x.value - o.toInt)
/-- `__rsub__`, `fmath/galoisfield.py` lines 54-55. -/
def rsub (x : GFpElem) (o : Operand) : Py GFpElem := gfpNew x.p (o.toInt - x.value)
/-- `__mul__`, `fmath/galoisfield.py` lines 57-58. -/
def mul (x : GFpElem) (o : Operand) : Py GFpElem := gfpNew x.p (x.value * o.toInt)
/-- `__rmul__`, `fmath/galoisfield.py` lines 60-61. -/
def rmul (x : GFpElem) (o : Operand) : Py GFpElem := x.mul o
/-- `__div__`, `fmath/galoisfield.py` lines 63-64: `self.gf(int(self * self.gf.inverse(int(other))))`. -/
def div (x : GFpElem) (o : Operand) : Py GFpElem := do
  let i ← gfInverseMod o.toInt x.p
  let m ← x.mul (.int i)
  gfpNew x.p m.value
/-- `__rdiv__`, `fmath/galoisfield.py` lines 66-67. -/
def rdiv (x : GFpElem) (o : Operand) : Py GFpElem := do
  let i ← gfInverseMod x.value x.p
  gfpNew x.p (o.toInt * i)
/-- `__xor__`, `fmath/galoisfield.py` lines 69-70, non-negative exponent. -/
def xor (x : GFpElem) (k : Nat) : Py GFpElem := gfpNew x.p (x.value ^ k)
/-- `__rxor__`, `fmath/galoisfield.py` lines 72-73, for an element with non-negative value. -/
def rxor (x : GFpElem) (o : Operand) : Py GFpElem := gfpNew x.p (o.toInt ^ x.value.toNat)
/-- `__cmp__`, `fmath/galoisfield.py` lines 75-79. -/
def cmp (x : GFpElem) (o : Operand) : Int := if x.value = o.toInt then 0 else 1
/-- `x == other`: Python 2 uses `__cmp__ == 0`.  `fmath/galoisfield.py` lines 75-79. -/
def eq (x : GFpElem) (o : Operand) : Bool := x.cmp o == 0
/-- `x > other`: Python 2 uses `__cmp__ > 0`.  `fmath/galoisfield.py` lines 75-79. -/
def gt (x : GFpElem) (o : Operand) : Bool := x.cmp o > 0
/-- `x < other`: Python 2 uses `__cmp__ < 0`.  `fmath/galoisfield.py` lines 75-79. -/
def lt (x : GFpElem) (o : Operand) : Bool := x.cmp o < 0

end GFpElem

/-- `GFp.is_element`, `fmath/galoisfield.py` lines 28-29: the name `p` is bound nowhere in the function or the module. -/
def gfpIsElement (_p _x : Int) : Py Bool := .error .name

end Cryptopy.Model
