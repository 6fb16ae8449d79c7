import Verif.Model.Ecc

/-!
Model of the affine arithmetic of `MontgomeryCurveFp` and of the remaining methods of
`TwistedEdwardsCurveFp`, `/repo/ecc/ecc.py`.

No object of these classes can be created as shipped (C81), so the attribute `IDENTITY` is a parameter:
what a subclass with another `identity` method would put there.  All points belong to one curve object.
-/

namespace Cryptopy.Model

/-- The coordinates of a point object.  `ecc/ellipticcurve.py` lines 60-65. -/
abbrev MPt := Option Int × Option Int

/-- `MontgomeryCurveFp.double_point`, `ecc/ecc.py` lines 230-239. -/
def MCurve.doublePoint (c : MCurve) (pt : MPt) : Py MPt := do
  let a ← attr c.a
  let x1 ← num pt.1
  let y1 ← num pt.2
  let i ← inverseMod (2 * y1) c.p
  let l := (3 * x1 * x1 + 2 * a * x1 + 1) * i
  let x3 := l * l - a - 2 * x1
  let y3 := l * (x1 - x3) - y1
  let x ← pyMod x3 c.p
  let y ← pyMod y3 c.p
  let (x, y) ← c.point x y
  .ok (some x, some y)

/-- `MontgomeryCurveFp.add_points`, `ecc/ecc.py` lines 205-224. -/
def MCurve.addPoints (c : MCurve) (ident p1 p2 : MPt) : Py MPt :=
  if p2 = ident then .ok p1
  else if p1 = ident then .ok p2
  else do
    let a ← attr c.a
    if p1.1 = p2.1 then
      if p1.2 = p2.2 then c.doublePoint p1
      else do
        let y1 ← num p1.2
        let y2 ← num p2.2
        Py.assert (y1 + y2 = 0)
        .ok p1
    else do
      let y2 ← num p2.2
      let y1 ← num p1.2
      let x2 ← num p2.1
      let x1 ← num p1.1
      let i ← inverseMod (x2 - x1) c.p
      let l := (y2 - y1) * i
      let x3 := l ^ 2 - a - x1 - x2
      let y3 := l * (x1 - x3) - y1
      let x ← pyMod x3 c.p
      let y ← pyMod y3 c.p
      let (x, y) ← c.point x y
      .ok (some x, some y)

/-- `MontgomeryCurveFp.scalar_multiple`, `ecc/ecc.py` lines 241-248; `none` for a recursion that does not
end. -/
def MCurve.scalarMultiple (c : MCurve) (ident pt : MPt) (scalar : Int) : Option (Py MPt) :=
  if scalar = 0 then some (.ok ident)
  else do
    let r ← MCurve.scalarMultiple c ident pt (scalar.fdiv 2)
    some (do
      let q ← r
      let q ← c.addPoints ident q q
      if scalar % 2 = 1 then c.addPoints ident q pt else .ok q)
partial_fixpoint

end Cryptopy.Model
