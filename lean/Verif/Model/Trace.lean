import Verif.Model.Ecc

/-!
`scalar_multiple` of `ecc/ecc.py`, lines 77-105, with a log of the point operations it calls.
-/

namespace Cryptopy.Model

/-- A call of `double`, `ecc/ecc.py` line 99, of `+ point`, line 101, and of `+ negative_self`, line 103. -/
inductive PointOp
  | double
  | add
  | addNegative
  deriving DecidableEq

/-- `scalarStep` with the log.  `ecc/ecc.py` lines 98-103. -/
def scalarStepLogged (e e3 : Nat) (point negative : WPoint) (i : Nat) (s : WPoint × List PointOp) :
    Py (WPoint × List PointOp) := do
  let doubled ← s.1.double
  let log := s.2 ++ [.double]
  let s ← (if e3 &&& i ≠ 0 ∧ e &&& i = 0 then do
      let added ← doubled.add point
      .ok (added, log ++ [.add])
    else .ok (doubled, log) : Py (WPoint × List PointOp))
  (if e3 &&& i = 0 ∧ e &&& i ≠ 0 then do
      let added ← s.1.add negative
      .ok (added, s.2 ++ [.addNegative])
    else .ok s : Py (WPoint × List PointOp))

/-- `scalarLoop` with the log.  `ecc/ecc.py` lines 97-104. -/
def scalarLoopLogged (e e3 : Nat) (point negative : WPoint) (i : Nat) (s : WPoint × List PointOp) :
    Py (WPoint × List PointOp) :=
  if _h : 1 < i then do
    let s ← scalarStepLogged e e3 point negative i s
    scalarLoopLogged e e3 point negative (i / 2) s
  else .ok s
termination_by i

/-- `WPoint.mul` with the log.  `ecc/ecc.py` lines 77-105. -/
def WPoint.mulLogged (point : WPoint) (scalar : Int) : Py (WPoint × List PointOp) := do
  let c := point.curve
  let e ← pyMod scalar point.curve.n
  if e = 0 then .ok (c.identity, [])
  else if point.eq c.identity then .ok (c.identity, [])
  else do
    Py.assert (e > 0)
    let e := e.toNat
    let e3 := 3 * e
    let y ← num point.y
    let negativeSelf ← c.point point.x (some (-y))
    scalarLoopLogged e e3 point negativeSelf (leftmostBit e3 / 2) (point, [])

end Cryptopy.Model
