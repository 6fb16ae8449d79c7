import Mathlib.Data.Nat.Digits.Defs
import Verif.Model.Ecc
import Verif.Model.GaloisField

/-!
The text forms of points, `ecc/ellipticcurve.py`, and of field elements, `fmath/galoisfield.py`.
-/

namespace Cryptopy.Model

/-- The decimal digits of a natural number.  `ecc/ellipticcurve.py` line 92 and `fmath/galoisfield.py` line 85. -/
def decimalNat (n : Nat) : List Char :=
  if n = 0 then ['0'] else ((Nat.digits 10 n).map fun d => Char.ofNat (48 + d)).reverse

/-- `"%d" % x` for an integer.  `ecc/ellipticcurve.py` line 92 and `fmath/galoisfield.py` line 85. -/
def decimalInt (x : Int) : List Char := if x < 0 then '-' :: decimalNat x.natAbs else decimalNat x.natAbs

/-- `Point.__str__`, `ecc/ellipticcurve.py` lines 120-123, which replaces the definition of lines 90-92: a coordinate
that is `None` is a `TypeError`. -/
def WPoint.str (s : WPoint) : Py (List Char) :=
  if s.eq s.curve.identity then .ok "IDENTITY".toList
  else do
    let x ← num s.x
    let y ← num s.y
    .ok ('(' :: decimalInt x ++ ',' :: decimalInt y ++ [')'])

/-- `Element_of_GFp.__str__`, `fmath/galoisfield.py` lines 84-85. -/
def GFpElem.str (x : GFpElem) : List Char := decimalInt x.value

/-- `GFp.inverse`, `fmath/galoisfield.py` lines 31-32. -/
def gfpInverse (p x : Int) : Py Int := gfInverseMod x p

end Cryptopy.Model
