import Verif.Model.GaloisField

/-!
Expressions with `^` and `**` on the elements of `fmath/galoisfield.py`.  Python parses `^` as the operator that binds more
weakly than `+` and `*`.
-/

namespace Cryptopy.Model

/-- `x ** other` and `other ** x`: the class of lines 35-84 of `fmath/galoisfield.py` has neither `__pow__` nor `__rpow__`,
although the text in lines 4-7 says that `**` can be used. -/
def GFpElem.pow (_x : GFpElem) (_o : Operand) : Py GFpElem := .error .type

/-- `x^y` for an element as exponent: line 70 of `fmath/galoisfield.py` with `int(other)` of lines 81-82. -/
def GFpElem.xorElem (x y : GFpElem) : Py GFpElem := x.xor y.value.toNat

/-- `x^2+3*x+1`, the expression that line 12 of `fmath/galoisfield.py` shows with a misplaced `*`, as Python evaluates it:
`x^((2+3*x)+1)`. -/
def quadraticAsWritten (x : GFpElem) : Py GFpElem := do
  let a ← x.rmul (.int 3)
  let b ← a.radd (.int 2)
  let c ← b.add (.int 1)
  x.xorElem c

/-- `(x^2)+3*x+1`.  What line 12 of `fmath/galoisfield.py` means. -/
def quadraticMeant (x : GFpElem) : Py GFpElem := do
  let s ← x.xor 2
  let a ← x.rmul (.int 3)
  let b ← s.add (.elem a)
  b.add (.int 1)

end Cryptopy.Model
