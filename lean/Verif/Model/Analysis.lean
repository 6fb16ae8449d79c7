import Mathlib.Algebra.Order.Ring.Rat
import Mathlib.Algebra.Order.Group.Unbundled.Abs
import Verif.Py

/-!
Model of `/repo/analysis/*.py`.

List entries are natural numbers.  The `float` results of the non-linearity functions are halves of
integers and are modelled as rational numbers.
-/

namespace Cryptopy.Model

/-! ### Orbits of a permutation -/

/-- The loop `for j in range(i, len(permutation))` of `map_orbits_of_permutation`,
`analysis/sbox_analysis.py` lines 91-96 (the same text is in `analysis/permutation.py` lines 20-25); the
first argument after `i` is the number of iterations left. -/
def orbitLoop (perm : List Nat) (i : Nat) : Nat → List Bool → List Nat → Nat → Py (List Bool × List Nat)
  | 0, touched, cycle, _ => .ok (touched, cycle)
  | k + 1, touched, cycle, element =>
    if element < touched.length then
      let touched := touched.set element true
      let cycle := cycle ++ [element]
      match perm[element]? with
      | none => .error .index
      | some e => if e = i then .ok (touched, cycle) else orbitLoop perm i k touched cycle e
    else .error .index

/-- `gdict[key] = value`: a dictionary is a list of its items in the order of insertion.
As in `analysis/permutation.py` line 26 and `analysis/sbox_analysis.py` line 97. -/
def dictSet (d : List (Nat × List Nat)) (k : Nat) (v : List Nat) : List (Nat × List Nat) :=
  if d.any (fun e => e.1 = k) then d.map (fun e => if e.1 = k then (k, v) else e) else d ++ [(k, v)]

/-- The body of the outer loop, `analysis/sbox_analysis.py` lines 88-99. -/
def orbitStep (perm : List Nat) (s : List Bool × List (Nat × List Nat)) (i : Nat) :
    Py (List Bool × List (Nat × List Nat)) :=
  match s.1[i]? with
  | none => .error .index
  | some true => .ok s
  | some false => do
    let r ← orbitLoop perm i (perm.length - i) s.1 [] i
    match r.2 with
    | [] => .error .index
    | c :: cs => .ok (r.1, dictSet s.2 c (c :: cs))

/-- `map_orbits_of_permutation`, `analysis/sbox_analysis.py` lines 81-100; `touched` has one entry per
element from line 84 and one more from lines 85-86. -/
def mapOrbits (perm : List Nat) : Py (List (Nat × List Nat)) := do
  let r ← (List.range perm.length).foldlM (orbitStep perm)
    (List.replicate perm.length false ++ List.replicate perm.length false, [])
  .ok r.2

/-- `orbit_start_and_length`, `analysis/sbox_analysis.py` lines 102-108; the order of `z.keys()` is the
parameter `keys`. -/
def orbitStartAndLength (keys : List (Nat × List Nat) → List Nat) (perm : List Nat) :
    Py (List (Nat × Nat)) := do
  let z ← mapOrbits perm
  .ok ((keys z).map fun i => (i, ((z.lookup i).getD []).length))

/-! ### Walsh transform -/

/-- The loop of `binaryInnerProduct`, `analysis/walshtransform.py` lines 27-29. -/
def bipLoop (ip ab : Nat) : Nat :=
  if _h : 0 < ab then bipLoop (ip ^^^ (ab &&& 1)) (ab >>> 1) else ip
termination_by ab
decreasing_by rw [Nat.shiftRight_one]; omega

/-- `binaryInnerProduct`, `analysis/walshtransform.py` lines 23-30, also `analysis/sbox_nonlinearity.py`
lines 39-46, on non-negative integers. -/
def binaryInnerProduct (a b : Nat) : Nat := bipLoop 0 (a &&& b)

/-- The loop of `log2n`, `analysis/walshtransform.py` lines 42-44. -/
def log2Loop (x n : Nat) : Nat :=
  if _h : 0 < x then log2Loop (x >>> 1) (n + 1) else n
termination_by x
decreasing_by rw [Nat.shiftRight_one]; omega

/-- `log2n`, `analysis/walshtransform.py` lines 38-47, also `analysis/sbox_nonlinearity.py` lines 55-64.
For `l <= 0` the loop does not run and `2**-1` is the float 0.5, which is not `l`. -/
def log2n (l : Int) : Py Nat :=
  if 0 < l then do
    let n := log2Loop l.toNat 0 - 1
    Py.assert ((2 : Int) ^ n = l)
    .ok n
  else .error .assertion

/-- `walshTransform`, `analysis/walshtransform.py` lines 14-21, also `analysis/sbox_nonlinearity.py`
lines 31-37. -/
def walshTransform (t : List Nat) : Py (List Int) := do
  let _ ← log2n t.length
  .ok ((List.range t.length).map fun w =>
    (List.range t.length).foldl (fun acc x => acc + (-1) ^ (t.getD x 0 ^^^ binaryInnerProduct w x)) 0)

/-- `nonLinearity`, `analysis/walshtransform.py` lines 32-36, also `analysis/sbox_nonlinearity.py` lines
48-53; `len(t)/2` is an integer division. -/
def nonLinearity (t : List Nat) : Py ℚ := do
  let wt ← walshTransform t
  .ok (((t.length / 2 : Nat) : ℚ) - (1 / 2) * (((wt.map Int.natAbs).foldl max 0 : Nat) : ℚ))

/-- `sboxNonlinearity`, `analysis/sbox_nonlinearity.py` lines 12-29; `min` of an empty list is a
`ValueError`. -/
def sboxNonlinearity (sbox : List Nat) : Py (ℚ × ℚ) := do
  let n ← log2n sbox.length
  let nlv ← (List.range (2 ^ n - 1)).mapM fun c => nonLinearity (sbox.map (binaryInnerProduct (c + 1)))
  match nlv.map abs with
  | [] => .error .value
  | v :: vs => .ok (vs.foldl min v, vs.foldl max v)

end Cryptopy.Model
