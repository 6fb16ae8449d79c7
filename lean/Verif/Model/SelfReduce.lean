import Verif.Model.Ecc

/-!
Programs of an attacker who has a procedure that finds private keys, shared secrets, squares or parities, and uses it together with the
operators of points (`ecc/ellipticcurve.py` lines 67-96).
-/

namespace Cryptopy.Model

/-- Looks for the private key of `X` by a call of the procedure `find` for the point `X + r*P` (`__add__`, `__rmul__`,
`ecc/ellipticcurve.py` lines 67-96). -/
def blindKey (find : WPoint → Int) (P X : WPoint) (r : Int) : Py Int := do
  let R ← P.mul r
  let Z ← X.add R
  return find Z - r

/-- Looks for the shared secret of `X` and `Y` by a call of the procedure `agree` for `X + r*P` and `Y + s*P`
(`ecc/ellipticcurve.py` lines 67-96). -/
def blindShared (agree : WPoint → WPoint → WPoint) (P X Y : WPoint) (r s : Int) : Py WPoint := do
  let R ← P.mul r
  let S ← P.mul s
  let X' ← X.add R
  let Y' ← Y.add S
  let A ← X.mul (-s)
  let B ← Y.mul (-r)
  let C ← P.mul (-(r * s))
  let Z ← (agree X' Y').add A
  let Z ← Z.add B
  Z.add C

/-- Computes the shared secret of `X` and `Y` with a procedure `square` that computes `x*x*P` from `x*P`; `quarter` is the inverse of 4
modulo the order (`ecc/ellipticcurve.py` lines 67-96). -/
def sharedFromSquares (square : WPoint → WPoint) (quarter : Int) (X Y : WPoint) : Py WPoint := do
  let S ← X.add Y
  let N ← Y.mul (-1)
  let D ← X.add N
  let M ← (square D).mul (-1)
  let Z ← (square S).add M
  Z.mul quarter

/-- Computes a private key, bit by bit, with a procedure `odd` that tells the parity of private keys; `half` is the inverse of 2 modulo
the order and `k` the number of bits (`ecc/ellipticcurve.py` lines 67-96). -/
def keyFromParity (odd : WPoint → Bool) (half : Int) (P : WPoint) : Nat → WPoint → Py Int
  | 0, _ => return 0
  | k + 1, X =>
    if odd X then do
      let N ← P.mul (-1)
      let Y ← X.add N
      let Y ← Y.mul half
      let v ← keyFromParity odd half P k Y
      return 2 * v + 1
    else do
      let Y ← X.mul half
      let v ← keyFromParity odd half P k Y
      return 2 * v

end Cryptopy.Model
