import Verif.Model.Ecc
import Verif.Model.Montgomery
import Verif.Model.Hmac

/-!
The functions of `/repo` that run into limits of the Python 2 interpreter on arguments that their own checks let through.
The other models leave these limits out.

`range(a, b)` makes a list.  If it has more than `sys.maxint` items, that is an `OverflowError`; if there is no room for it, a
`MemoryError`.  Calls nested too deeply are a `RuntimeError`, "maximum recursion depth exceeded".
-/

namespace Cryptopy.Model

/-- What the interpreter refuses to do: `OverflowError`, `MemoryError`, and `RuntimeError` for the recursion depth.
The interpreter's part in `ecc/numbertheory.py` lines 123-181 and `hash/pbkdf2.py` lines 16-35. -/
inductive Refusal where
  | overflow
  | memory
  | recursion
  deriving DecidableEq, Repr

/-- The limits: `sys.maxint`, the length of the longest list there is room for, and how deep calls of the functions below can
be nested; calls of other functions are not counted.
The functions are `ecc/numbertheory.py` lines 123-181, `scalar_multiple` of `ecc/ecc.py` and `hash/pbkdf2.py` lines 16-35. -/
structure Limits where
  maxint : Nat
  room : Nat
  depth : Nat

/-- `range(a, b)` of Python 2: whether the list can be made.  For example `ecc/numbertheory.py` line 175. -/
def Limits.range (L : Limits) (a b : Int) : Except Refusal Unit :=
  if b - a > L.maxint then .error .overflow
  else if b - a > L.room then .error .memory
  else .ok ()

/-- `jacobi`, `ecc/numbertheory.py` lines 123-144, with so many nested calls. -/
def jacobiWithin : Nat → Int → Int → Except Refusal (Py Int)
  | 0, _, _ => .error .recursion
  | depth + 1, a, n =>
    if ¬ n ≥ 3 then .ok (.error .assertion)
    else if n % 2 ≠ 1 then .ok (.error .assertion)
    else
      let a' := a.fmod n
      if a' = 0 then .ok (.ok 0)
      else if a' = 1 then .ok (.ok 1)
      else
        let a1 := (splitTwo a' 0).1
        let e := (splitTwo a' 0).2
        let s : Int := if e % 2 = 0 ∨ n % 8 = 1 ∨ n % 8 = 7 then 1 else -1
        if a1 = 1 then .ok (.ok s)
        else
          let s := if n % 4 = 3 ∧ a1 % 4 = 3 then -s else s
          match jacobiWithin depth (n.fmod a1) a1 with
          | .error r => .error r
          | .ok (.error err) => .ok (.error err)
          | .ok (.ok j) => .ok (.ok (s * j))

/-- `ecc/numbertheory.py` lines 175-181: the loop over `range(2, p)` from `b` on. -/
def sqrtSearchWithin (L : Limits) (a p : Int) (b : Int) : Except Refusal (Py Int) :=
  if _h : b < p then
    match jacobiWithin L.depth (b * b - 4 * a) p with
    | .error r => .error r
    | .ok (.error e) => .ok (.error e)
    | .ok (.ok j) =>
      if j = -1 then
        .ok (match polynomialExpMod [0, 1] ((p + 1) / 2) [a, -b, 1] p with
        | .error e => .error e
        | .ok [] => .error .index
        | .ok [_] => .error .index
        | .ok (c0 :: c1 :: _) => if c1 = 0 then .ok c0 else .error .assertion)
      else sqrtSearchWithin L a p (b + 1)
  else .ok (.error .runtime)
termination_by (p - b).toNat
decreasing_by omega

/-- `square_root_mod_prime`, `ecc/numbertheory.py` lines 147-181. -/
def squareRootModPrimeWithin (L : Limits) (a p : Int) : Except Refusal (Py Int) :=
  if ¬ (0 ≤ a ∧ a < p) then .ok (.error .assertion)
  else if ¬ 1 < p then .ok (.error .assertion)
  else if a = 0 then .ok (.ok 0)
  else if p = 2 then .ok (.ok a)
  else
    match jacobiWithin L.depth a p with
    | .error r => .error r
    | .ok (.error e) => .ok (.error e)
    | .ok (.ok jac) =>
      if jac = -1 then .ok (.error .squareRoot)
      else if p % 4 = 3 then .ok (modularExp a ((p + 1) / 4) p)
      else if p % 8 = 5 then
        .ok (do
          let d ← modularExp a ((p - 1) / 4) p
          if d = 1 then modularExp a ((p + 3) / 8) p
          else if d = p - 1 then do
            let y ← modularExp (4 * a) ((p - 5) / 8) p
            .ok ((2 * a * y).fmod p)
          else .error .runtime)
      else
        match L.range 2 p with
        | .error r => .error r
        | .ok () => sqrtSearchWithin L a p 2

/-- `y_from_x`, `ecc/ecc.py` lines 114-123. -/
def WCurve.yFromXWithin (L : Limits) (c : WCurve) (x : Int) : Except Refusal (Py Int) :=
  match pyMod ((x * x + c.a) * x + c.b) c.p with
  | .error e => .ok (.error e)
  | .ok ySquared => squareRootModPrimeWithin L ySquared c.p

/-- `MontgomeryCurveFp.scalar_multiple`, `ecc/ecc.py` lines 241-248, with so many nested calls. -/
def MCurve.scalarMultipleWithin (c : MCurve) (ident pt : MPt) : Nat → Int → Except Refusal (Py MPt)
  | 0, _ => .error .recursion
  | depth + 1, scalar =>
    if scalar = 0 then .ok (.ok ident)
    else
      match MCurve.scalarMultipleWithin c ident pt depth (scalar.fdiv 2) with
      | .error r => .error r
      | .ok q => .ok (do
        let q ← q
        let q ← c.addPoints ident q q
        if scalar % 2 = 1 then c.addPoints ident q pt else .ok q)

/-- The loop over blocks, `hash/pbkdf2.py` lines 27-34, with the `range(2, iterations + 1)` of line 31. -/
def pbkdf2OuterWithin (L : Limits) (prf : Bytes → Bytes) (salt : Bytes) (iterations : Int) :
    Nat → Nat → Bytes → Except Refusal (Py Bytes)
  | _, 0, key => .ok (.ok key)
  | block, k + 1, key =>
    let F := prf (salt ++ packBE32 block)
    let U := prf (salt ++ packBE32 block)
    match L.range 2 (iterations + 1) with
    | .error r => .error r
    | .ok () =>
      match pbkdf2Inner prf (iterations - 1).toNat U F with
      | .error e => .ok (.error e)
      | .ok F => pbkdf2OuterWithin L prf salt iterations (block + 1) k (key ++ F)

/-- `pbkdf2`, `hash/pbkdf2.py` lines 16-35. -/
def pbkdf2Within (L : Limits) (floatRange : Bool) (P : PrfLib) (password salt : Bytes) (iterations keySize : Int) :
    Except Refusal (Py Bytes) :=
  if password.length > 63 then .ok (.error .stringRaise)
  else if keySize > 10000 then .ok (.error .stringRaise)
  else if P.digestSize = 0 then .ok (.error .zeroDivision)
  else if !floatRange then .ok (.error .type)
  else
    let numBlocks : Int := -((-keySize) / (P.digestSize : Int))
    match pbkdf2OuterWithin L (P.prf password) salt iterations 1 numBlocks.toNat [] with
    | .error r => .error r
    | .ok (.error e) => .ok (.error e)
    | .ok (.ok key) => .ok (.ok (Py.sliceTo key keySize))

end Cryptopy.Model
