import Verif.Model.Analysis
import Verif.Model.Sboxes
import Verif.Model.Ecc

/-!
The class of `analysis/permutation.py` and the main programs of the four files in `analysis/`.  A program is the list of
the values that it prints; fixed texts are left out.
-/

namespace Cryptopy.Model

/-- The names that `analysis/permutation.py` has bound at module level when `main` runs: the class of line 8, the tables of
lines 42 and 76 and the function of line 110. -/
def permutationNames : List String := ["permutation", "aes_sbbytes", "sms4_sbbytes", "main"]

/-- `obj.map_orbits_of_permutation()`, `analysis/permutation.py` lines 10-29: the only parameter is the object itself.  The
content of an object is `none` for the class as it stands, whose objects have no length, and `some l` for an object of a
subclass that also is a sequence with the elements `l`. -/
def permutationOrbits (content : Option (List Nat)) : Py (List (Nat × List Nat)) :=
  match content with
  | none => .error .type
  | some l => mapOrbits l

/-- `obj.orbit_start_and_length()`, `analysis/permutation.py` lines 31-37: line 34 reads
`map_orbits_of_permutation` as a global name. -/
def permutationLengths (keys : List (Nat × List Nat) → List Nat) (content : Option (List Nat)) : Py (List (Nat × Nat)) := do
  readGlobal permutationNames "map_orbits_of_permutation"
  let z ← permutationOrbits content
  .ok ((keys z).map fun i => (i, ((z.lookup i).getD []).length))

/-- `permutation.orbit_start_and_length(table)`: a method that is read from the class takes only an object of the class as
its first argument.  The method of `analysis/permutation.py` lines 31-37. -/
def permutationUnbound (_table : List Nat) : Py (List (Nat × Nat)) := .error .type

/-- `main`, `analysis/sbox_analysis.py` lines 110-124: for each of two tables the number of tuples and the tuples. -/
def sboxAnalysisMain (keys : List (Nat × List Nat) → List Nat) : Py (List (Nat × List (Nat × Nat))) := do
  let a ← orbitStartAndLength keys aesSbox
  let s ← orbitStartAndLength keys sms4Sbox
  .ok [(a.length, a), (s.length, s)]

/-- `main`, `analysis/permutation.py` lines 110-124, which has the same text, in a module without the function. -/
def permutationMain (keys : List (Nat × List Nat) → List Nat) : Py (List (Nat × List (Nat × Nat))) := do
  readGlobal permutationNames "orbit_start_and_length"
  sboxAnalysisMain keys

/-- The main program of `analysis/walshtransform.py`, lines 50-63. -/
def walshMain : Py (List (List Nat × List Int × ℚ)) :=
  [[1, 1, 0, 0, 1, 1, 0, 0], [1, 1, 0, 1, 0, 1, 1, 1], [0, 0, 1, 1, 1, 0, 1, 1]].mapM fun t => do
    let w ← walshTransform t
    let n ← nonLinearity t
    .ok (t, w, n)

/-- The main program of `analysis/sbox_nonlinearity.py`, lines 67-202; `randomSbox` is the list after `shuffle`. -/
def nonlinearityMain (randomSbox : List Nat) : Py (List (ℚ × ℚ)) :=
  [aesSbox, sms4Sbox, streebogSbox, randomSbox].mapM sboxNonlinearity

end Cryptopy.Model
