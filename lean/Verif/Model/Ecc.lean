import Verif.Py
import Verif.Model.Arith
import Verif.Model.Encoding

/-!
Model of `/repo/ecc/ellipticcurve.py` and `/repo/ecc/ecc.py`.

A curve object is its class attributes together with an identity number `oid`: curve classes define no
comparison, so `==` on curves is object identity.  A coordinate is an integer or `None`
(`Option Int`); arithmetic on `None` is a `TypeError`.  Attributes that `curves.py` does not always
define (`a` of a Montgomery curve) are optional, reading a missing one is an `AttributeError`.
-/

namespace Cryptopy.Model

/-- An instance of `SmallWeierstrassCurveFp` or of its subclass `KoblitzCurveFp` (`a = 0`),
`ecc/ecc.py` lines 29-133: the attributes that the methods read. -/
structure WCurve where
  oid : Nat
  p : Int
  a : Int
  b : Int
  n : Int
  deriving DecidableEq, Repr

/-- `class Point`, `ecc/ellipticcurve.py` lines 58-64. -/
structure WPoint where
  curve : WCurve
  x : Option Int
  y : Option Int
  deriving DecidableEq, Repr

/-- A coordinate used as a number.  For example `ecc/ecc.py` lines 42-61. -/
def num : Option Int → Py Int
  | some i => .ok i
  | none => .error .type

/-- `v % p`.  For example `ecc/ecc.py` lines 42-61. -/
def pyMod (v p : Int) : Py Int := if p = 0 then .error .zeroDivision else .ok (v.fmod p)

/-- `Point.__cmp__`, `ecc/ellipticcurve.py` lines 76-81, used by `==`. -/
def WPoint.eq (s o : WPoint) : Bool := s.curve.oid == o.curve.oid && s.x == o.x && s.y == o.y

namespace WCurve

/-- `identity`, `ecc/ecc.py` lines 107-112, stored as `IDENTITY` by `EllipticCurveFp.__init__`,
`ecc/ellipticcurve.py` line 49. -/
def identity (c : WCurve) : WPoint := ⟨c, none, none⟩

/-- `on_curve`, `ecc/ecc.py` lines 33-40. -/
def onCurve (c : WCurve) (pt : WPoint) : Py Bool :=
  if pt.eq c.identity then .ok true
  else do
    let y ← num pt.y
    let l ← pyMod (y ^ 2) c.p
    let x ← num pt.x
    let r ← pyMod (x ^ 3 + c.a * x + c.b) c.p
    .ok (l == r)

/-- `EllipticCurve.point`, `ecc/ellipticcurve.py` lines 28-30, and `Point.__init__`, lines 60-65, with
`validate=True`. -/
def point (c : WCurve) (x y : Option Int) : Py WPoint := do
  let pt : WPoint := ⟨c, x, y⟩
  let ok ← c.onCurve pt
  if ok then .ok pt else .error .assertion

/-- `inverse`, `ecc/ellipticcurve.py` lines 51-55. -/
def inverse (c : WCurve) (a : Int) : Py Int := inverseMod a c.p

/-- `double_point`, `ecc/ecc.py` lines 67-75. -/
def doublePoint (c : WCurve) (pt : WPoint) : Py WPoint := do
  let x ← num pt.x
  let y ← num pt.y
  let i ← c.inverse (2 * y)
  let l ← pyMod ((3 * x * x + c.a) * i) c.p
  let x3 ← pyMod (l * l - 2 * x) c.p
  let y3 ← pyMod (l * (x - x3) - y) c.p
  c.point (some x3) (some y3)

/-- `add_points`, `ecc/ecc.py` lines 42-61. -/
def addPoints (c : WCurve) (p1 p2 : WPoint) : Py WPoint := do
  Py.assert (p1.curve.oid = p2.curve.oid)
  if p2.eq c.identity then .ok p1
  else if p1.eq c.identity then .ok p2
  else if p1.x = p2.x then do
    let y1 ← num p1.y
    let y2 ← num p2.y
    let s ← pyMod (y1 + y2) c.p
    if s = 0 then .ok c.identity
    else p1.curve.doublePoint p1
  else do
    let y2 ← num p2.y
    let y1 ← num p1.y
    let x2 ← num p2.x
    let x1 ← num p1.x
    let i ← c.inverse (x2 - x1)
    let l ← pyMod ((y2 - y1) * i) c.p
    let x3 ← pyMod (l * l - x1 - x2) c.p
    let y3 ← pyMod (l * (x1 - x3) - y1) c.p
    c.point (some x3) (some y3)

/-- `negate`, `ecc/ecc.py` lines 63-65. -/
def negate (c : WCurve) (pt : WPoint) : Py WPoint := do
  let y ← num pt.y
  c.point pt.x (some (-y))

end WCurve

namespace WPoint

/-- `__add__`, `ecc/ellipticcurve.py` lines 67-68. -/
def add (s o : WPoint) : Py WPoint := s.curve.addPoints s o
/-- `__neg__`, `ecc/ellipticcurve.py` lines 70-71. -/
def neg (s : WPoint) : Py WPoint := s.curve.negate s
/-- `__sub__`, `ecc/ellipticcurve.py` lines 73-74. -/
def sub (s o : WPoint) : Py WPoint := do
  let m ← o.neg
  s.add m
/-- `double`, `ecc/ellipticcurve.py` lines 94-96. -/
def double (s : WPoint) : Py WPoint := s.curve.doublePoint s

end WPoint

/-- `while result <= x: result = 2 * result` in `leftmost_bit`, `ecc/ecc.py` line 83; the start value
is 1. -/
def leftmostLoop (result x : Nat) : Nat :=
  if _h : result ≤ x ∧ 0 < result then leftmostLoop (2 * result) x else result
termination_by x + 1 - result

/-- `leftmost_bit`, `ecc/ecc.py` lines 80-84, for `x > 0`. -/
def leftmostBit (x : Nat) : Nat := leftmostLoop 1 x / 2

/-- The body of the loop of `scalar_multiple`, `ecc/ecc.py` lines 99-103. -/
def scalarStep (e e3 : Nat) (point negative : WPoint) (i : Nat) (result : WPoint) : Py WPoint := do
  let doubled ← result.double
  let added ← (if e3 &&& i ≠ 0 ∧ e &&& i = 0 then doubled.add point else .ok doubled : Py WPoint)
  (if e3 &&& i = 0 ∧ e &&& i ≠ 0 then added.add negative else .ok added : Py WPoint)

/-- The loop of `scalar_multiple`, `ecc/ecc.py` lines 98-105. -/
def scalarLoop (e e3 : Nat) (point negative : WPoint) (i : Nat) (result : WPoint) : Py WPoint :=
  if _h : 1 < i then do
    let result ← scalarStep e e3 point negative i result
    scalarLoop e e3 point negative (i / 2) result
  else .ok result
termination_by i

namespace WCurve

/-- `scalar_multiple`, `ecc/ecc.py` lines 77-105. -/
def scalarMultiple (c : WCurve) (point : WPoint) (scalar : Int) : Py WPoint := do
  let e ← pyMod scalar point.curve.n
  if e = 0 then .ok c.identity
  else if point.eq c.identity then .ok c.identity
  else do
    Py.assert (e > 0)
    let e := e.toNat
    let e3 := 3 * e
    let y ← num point.y
    let negativeSelf ← c.point point.x (some (-y))
    scalarLoop e e3 point negativeSelf (leftmostBit e3 / 2) point

/-- `y_from_x`, `ecc/ecc.py` lines 114-123. -/
def yFromX (c : WCurve) (x : Int) : Py Int := do
  let ySquared ← pyMod ((x * x + c.a) * x + c.b) c.p
  squareRootModPrime ySquared c.p

end WCurve

/-- `Point.__mul__` and `__rmul__`, `ecc/ellipticcurve.py` lines 83-88. -/
def WPoint.mul (s : WPoint) (k : Int) : Py WPoint := s.curve.scalarMultiple s k

/-- The loop of `EllipticCurveFp.__init__`, `ecc/ellipticcurve.py` lines 43-47. -/
def coordLoop (size p : Nat) : Nat :=
  if _h : 0 < p then coordLoop (size + 1) (p / 256) else size
termination_by p

/-- `coord_size`, `ecc/ellipticcurve.py` lines 41-48. -/
def coordSize (p : Int) : Py Nat := do
  Py.assert (0 ≤ p)
  .ok (coordLoop 0 p.toNat)

/-- `new_private_key`, `ecc/ecc.py` lines 125-126; `urandom` is a parameter. -/
def newPrivateKey (urandom : Nat → Bytes) (coordSize : Nat) : Nat := stringToInt (urandom coordSize)

/-- The global names of `ecc/ellipticcurve.py`: its import, line 22, and its classes, lines 24, 26, 37
and 58. -/
def ellipticcurveNames : List String :=
  ["inverse_mod", "square_root_mod_prime", "EllipticCurveError", "EllipticCurve", "EllipticCurveFp", "Point"]

/-- The global names of `ecc/ecc.py`: its imports, lines 24-26, its classes, lines 29, 129, 136, 187 and
195, and its functions, lines 300, 307 and 324. -/
def eccNames : List String :=
  ["EllipticCurveFp", "square_root_mod_prime", "urandom", "SmallWeierstrassCurveFp", "KoblitzCurveFp",
    "TwistedEdwardsCurveFp", "EdwardsCurveFp", "MontgomeryCurveFp", "cswap", "int_to_string",
    "string_to_int"]

/-- Reading a global name that is not a builtin.  For example `ecc/ellipticcurve.py` lines 106-108. -/
def readGlobal (names : List String) (name : String) : Py Unit :=
  if name ∈ names then .ok () else .error .name

/-- `int_to_string(v, padto=...)` on a coordinate, with `int_to_string` of `ecc/ecc.py` if the name is
bound in the module. -/
def coordToString (names : List String) (v : Option Int) (padto : Option Int) : Py Bytes := do
  readGlobal names "int_to_string"
  let i ← num v
  eccIntToString i padto

/-- `Point.encode`, `ecc/ellipticcurve.py` lines 99-104, in a module with the global names `names`. -/
def WPoint.encode (names : List String) (s : WPoint) (encode : String) : Py Bytes :=
  if encode = "raw" then do
    let size ← coordSize s.curve.p
    let x ← coordToString names s.x (some size)
    let y ← coordToString names s.y (some size)
    .ok (x ++ y)
  else .error .exception

/-- `Point.toOctets`, `ecc/ellipticcurve.py` lines 106-108. -/
def WPoint.toOctets (names : List String) (s : WPoint) : Py Bytes := coordToString names s.x none

/-- `Point.to_octetstring`, `ecc/ellipticcurve.py` lines 110-113. -/
def WPoint.toOctetstring (names : List String) (s : WPoint) : Py Bytes := do
  let x ← coordToString names s.x none
  let y ← coordToString names s.y none
  .ok (x ++ y)

/-- `Point.from_octetstring`, `ecc/ellipticcurve.py` lines 115-118. -/
def WPoint.fromOctetstring (_s : WPoint) (_o : Bytes) : Py WPoint := .error .stringRaise

/-! ### Twisted Edwards and Montgomery curves -/

/-- The attributes of a `TwistedEdwardsCurveFp` (or `EdwardsCurveFp`, `a = 1`), `ecc/ecc.py` lines
136-193. -/
structure ECurve where
  p : Int
  a : Int
  d : Int

/-- The attributes of a `MontgomeryCurveFp`, `ecc/ecc.py` lines 195-298. -/
structure MCurve where
  p : Int
  a : Option Int

/-- A class attribute that may be missing.  The attributes read in `ecc/ecc.py` are set in `ecc/curves.py` lines 75-737. -/
def attr : Option Int → Py Int
  | some i => .ok i
  | none => .error .attribute

/-- `TwistedEdwardsCurveFp.on_curve`, `ecc/ecc.py` lines 140-146. -/
def ECurve.onCurve (c : ECurve) (x y : Int) : Py Bool := do
  let r ← pyMod (c.a * (x * x) - 1 + y * (1 - c.d * (x * x) * y)) c.p
  .ok (r == 0)

/-- `Point.__init__` for an Edwards curve: coordinates of the point, if validated.  `ecc/ellipticcurve.py` lines 60-65. -/
def ECurve.point (c : ECurve) (x y : Int) : Py (Int × Int) := do
  let ok ← c.onCurve x y
  if ok then .ok (x, y) else .error .assertion

/-- `TwistedEdwardsCurveFp.identity`, `ecc/ecc.py` lines 183-185. -/
def ECurve.identity (c : ECurve) : Py (Int × Int) := c.point 0 (-1)

/-- `TwistedEdwardsCurveFp.add_points`, `ecc/ecc.py` lines 148-156. -/
def ECurve.addPoints (c : ECurve) (p1 p2 : Int × Int) : Py (Int × Int) := do
  let (x1, y1) := p1
  let (x2, y2) := p2
  let i ← inverseMod (1 + c.d * x1 * x2 * y1 * y2) c.p
  let x3 ← pyMod ((x1 * y2 + x2 * y1) * i) c.p
  let j ← inverseMod (1 - c.d * x1 * x2 * y1 * y2) c.p
  let y3 ← pyMod ((y1 * y2 - c.a * x1 * x2) * j) c.p
  c.point x3 y3

/-- The methods of `TwistedEdwardsCurveFp`, `ecc/ecc.py` lines 136-185, and of its base classes,
`ecc/ellipticcurve.py` lines 26-55; its subclasses in `curves.py` add numbers only. -/
def edwardsMethods : List String :=
  ["on_curve", "add_points", "negate", "double_point", "scalar_multiple", "identity", "point", "generator",
    "__init__", "inverse"]

/-- `TwistedEdwardsCurveFp.scalar_multiple`, `ecc/ecc.py` lines 174-181, for a class with the given
methods; `identity` stands for `curve.IDENTITY`, and `curve.scalarmult` is taken to be this function
if the class has it. -/
def ECurve.scalarMultiple (methods : List String) (c : ECurve) (identity pt : Int × Int) (scalar : Nat) :
    Py (Int × Int) :=
  if _h : scalar = 0 then .ok identity
  else if "scalarmult" ∈ methods then do
    let q ← ECurve.scalarMultiple methods c identity pt (scalar / 2)
    let q ← c.addPoints q q
    if scalar % 2 = 1 then c.addPoints q pt else .ok q
  else .error .attribute
termination_by scalar

/-- Creating an instance: `EllipticCurveFp.__init__`, `ecc/ellipticcurve.py` lines 39-49, gives the
coordinate size and the identity. -/
def ECurve.init (c : ECurve) : Py (Nat × (Int × Int)) := do
  let s ← coordSize c.p
  let i ← c.identity
  .ok (s, i)

/-- `MontgomeryCurveFp.on_curve`, `ecc/ecc.py` lines 199-203. -/
def MCurve.onCurve (c : MCurve) (x y : Int) : Py Bool := do
  let a ← attr c.a
  let l ← pyMod (y * y) c.p
  let r ← pyMod (x * (x * x) + a * (x * x) + x) c.p
  .ok (l == r)

/-- `Point.__init__` for a Montgomery curve: coordinates of the point, if validated.  `ecc/ellipticcurve.py` lines 60-65. -/
def MCurve.point (c : MCurve) (x y : Int) : Py (Int × Int) := do
  let ok ← c.onCurve x y
  if ok then .ok (x, y) else .error .assertion

/-- `MontgomeryCurveFp.identity`, `ecc/ecc.py` lines 250-252. -/
def MCurve.identity (c : MCurve) : Py (Int × Int) := c.point 0 (-1)

/-- Creating an instance of a Montgomery curve.  `ecc/ellipticcurve.py` lines 39-49. -/
def MCurve.init (c : MCurve) : Py (Nat × (Int × Int)) := do
  let s ← coordSize c.p
  let i ← c.identity
  .ok (s, i)

/-- `MontgomeryCurveFp.negate`, `ecc/ecc.py` lines 226-228: `p` is read as a global name.  The modulus
is what `p` would be. -/
def MCurve.negate (names : List String) (c : MCurve) (pt : Int × Int) : Py (Int × Int) := do
  readGlobal names "p"
  let x ← pyMod (-pt.1) c.p
  c.point x pt.2

/-- `cswap`, `ecc/ecc.py` lines 300-305. -/
def cswap (x2 x3 bit : Int) : Int × Int :=
  let dummy := bit * (x2 - x3)
  (x2 - dummy, x3 + dummy)

/-- The body of the loop of `montgomery_ladder`, `ecc/ecc.py` lines 261-267, on `(x2, z2, x3, z3)`. -/
def ladderStep (x1 a scalar : Int) (s : Int × Int × Int × Int) (i : Nat) : Int × Int × Int × Int :=
  let (x2, z2, x3, z3) := s
  let bit := scalar.fdiv (2 ^ i) % 2
  let (x2, x3) := cswap x2 x3 bit
  let (z2, z3) := cswap z2 z3 bit
  let (x3, z3) := ((x2 * x3 - z2 * z3) ^ 2, x1 * (x2 * z3 - z2 * x3) ^ 2)
  let (x2, z2) := ((x2 ^ 2 - z2 ^ 2) ^ 2, 4 * x2 * z2 * (x2 ^ 2 + a * x2 * z2 + z2 ^ 2))
  let (x2, x3) := cswap x2 x3 bit
  let (z2, z3) := cswap z2 z3 bit
  (x2, z2, x3, z3)

/-- `montgomery_ladder`, `ecc/ecc.py` lines 254-268, for `p ≥ 2` (a smaller `p` makes the exponent
`p-2` negative, which gives a float).  The tuple assignments of lines 264-265 read the values before
them: line 264 leaves `x2` and `z2` as they are. -/
def MCurve.montgomeryLadder (c : MCurve) (scalar x1 : Int) : Py Int := do
  let a ← attr c.a
  let (x2, z2, _, _) := (List.range 255).reverse.foldl (ladderStep x1 a scalar) (1, 0, x1, 1)
  pyMod (x2 * z2 ^ (c.p - 2).toNat) c.p

/-- The body of the loop of `montgomery_ladder2`, `ecc/ecc.py` lines 280-297. -/
def ladder2Step (x1 a24 scalar : Int) (s : Int × Int × Int × Int) (t : Nat) : Int × Int × Int × Int :=
  let (x2, z2, x3, z3) := s
  let bit := scalar.fdiv (2 ^ t) % 2
  let (x2, x3) := cswap x2 x3 bit
  let (z2, z3) := cswap z2 z3 bit
  let aa := (x2 + z2) ^ 2
  let bb := (x2 - z2) ^ 2
  let e := aa - bb
  let da := (x3 - z3) * (x2 + z2)
  let cb := (x3 + z3) * (x2 - z2)
  let (x3, z3) := ((da + cb) ^ 2, x1 * (da - cb) ^ 2)
  let (x2, z2) := (aa * bb, e * (aa + a24 * e))
  let (x2, x3) := cswap x2 x3 bit
  let (z2, z3) := cswap z2 z3 bit
  (x2, z2, x3, z3)

/-- `montgomery_ladder2`, `ecc/ecc.py` lines 270-298, for `p ≥ 1`: line 278 reads `x_1` as a global
name; the x-coordinate is what it would be. -/
def MCurve.montgomeryLadder2 (names : List String) (c : MCurve) (scalar x1 : Int) : Py Int := do
  let a ← attr c.a
  let a24 := (a - 2).fdiv 4
  readGlobal names "x_1"
  let (x2, z2, _, _) := (List.range 255).reverse.foldl (ladder2Step x1 a24 scalar) (0, 1, x1, 1)
  pyMod (x2 * z2 ^ (c.p - 1).toNat) c.p

end Cryptopy.Model
