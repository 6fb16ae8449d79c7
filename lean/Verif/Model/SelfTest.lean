import Verif.Model.Arith

/-!
Model of the self-test of `/repo/ecc/numbertheory.py`, lines 587-699 (`if __name__ == '__main__'`).

The printed text is left out except for the two final numbers.  The random numbers are parameters: `ms i` is the `i`-th
modulus and `as i j` the `j`-th number drawn for it.
-/

namespace Cryptopy.Model

/-- `range(lo, hi)` of integers.  `ecc/numbertheory.py` lines 636-673. -/
def intRange (lo hi : Int) : List Int := (List.range (hi - lo).toNat).map fun i : Nat => lo + (i : Int)

/-- `ecc/numbertheory.py` lines 637-643: one root; the state is `error_tally` and `squares`. -/
def sqrtRoot (p : Int) (s : Nat × List Int) (root : Int) : Py (Nat × List Int) :=
  let sq := (root * root).fmod p
  match squareRootModPrime sq p with
  | .error e => .error e
  | .ok calculated => .ok (if (calculated * calculated).fmod p ≠ sq then s.1 + 1 else s.1, s.2 ++ [sq])

/-- `ecc/numbertheory.py` lines 646-654: one number which may be a non-square. -/
def sqrtNonsquare (p : Int) (squares : List Int) (tally : Nat) (nonsquare : Int) : Py Nat :=
  if nonsquare ∉ squares then
    match squareRootModPrime nonsquare p with
    | .error .squareRoot => .ok tally
    | .error e => .error e
    | .ok _ => .ok (tally + 1)
  else .ok tally

/-- `ecc/numbertheory.py` lines 634-654: the test of `square_root_mod_prime` for one modulus. -/
def sqrtTest (tally : Nat) (p : Int) : Py Nat :=
  match (intRange 0 (1 + p / 2)).foldlM (sqrtRoot p) (tally, []) with
  | .error e => .error e
  | .ok (tally, squares) => (intRange 0 p).foldlM (sqrtNonsquare p squares) tally

/-- `ecc/numbertheory.py` lines 662-665: one root of the test of `jacobi` for a prime modulus. -/
def jacobiRoot (m : Int) (s : Nat × List Int) (root : Int) : Py (Nat × List Int) :=
  match jacobi (root * root) m with
  | .error e => .error e
  | .ok j => .ok (if j ≠ 1 then s.1 + 1 else s.1, s.2 ++ [(root * root).fmod m])

/-- `ecc/numbertheory.py` lines 667-670: one number which may be a non-square. -/
def jacobiNonsquare (m : Int) (squares : List Int) (tally : Nat) (i : Int) : Py Nat :=
  if i ∉ squares then
    match jacobi i m with
    | .error e => .error e
    | .ok j => .ok (if j ≠ -1 then tally + 1 else tally)
  else .ok tally

/-- `ecc/numbertheory.py` line 676: one factor. -/
def jacobiFactor (a c : Int) (i : Int × Nat) : Py Int :=
  match jacobi a i.1 with
  | .error e => .error e
  | .ok j => .ok (c * j ^ i.2)

/-- `ecc/numbertheory.py` lines 674-676: the product of the values for the factors. -/
def jacobiProduct (a : Int) (f : List (Int × Nat)) : Py Int := f.foldlM (jacobiFactor a) 1

/-- `ecc/numbertheory.py` lines 674-679: one number for a modulus which is not prime. -/
def jacobiComposite (m : Int) (f : List (Int × Nat)) (tally : Nat) (a : Int) : Py Nat :=
  match jacobiProduct a f with
  | .error e => .error e
  | .ok c =>
    match jacobi a m with
    | .error e => .error e
    | .ok j => .ok (if c ≠ j then tally + 1 else tally)

/-- `ecc/numbertheory.py` lines 659-679: the test of `jacobi` for one modulus. -/
def jacobiTest (log2 : Int → Int) (tally : Nat) (m : Int) : Option (Py Nat) :=
  if isPrime log2 m then
    some (match (intRange 1 m).foldlM (jacobiRoot m) (tally, []) with
      | .error e => .error e
      | .ok (tally, squares) => (intRange 1 m).foldlM (jacobiNonsquare m squares) tally)
  else
    match factorization log2 m with
    | none => none
    | some f => some ((intRange 1 m).foldlM (jacobiComposite m f) tally)

/-- `ecc/numbertheory.py` lines 657-679: all moduli; a raised exception ends the script. -/
def jacobiTests (log2 : Int → Int) : List Int → Nat → Option (Py Nat)
  | [], tally => some (.ok tally)
  | m :: ms, tally =>
    match jacobiTest log2 tally m with
    | none => none
    | some (.error e) => some (.error e)
    | some (.ok tally) => jacobiTests log2 ms tally

/-- `ecc/numbertheory.py` lines 690-695: one number; the state is `n_tests` and `error_tally`. -/
def inverseTest (m : Int) (s : Nat × Nat) (a : Int) : Py (Nat × Nat) :=
  match gcdArgs [a, m] with
  | .error e => .error e
  | .ok g =>
    if g = 1 then
      match inverseMod a m with
      | .error e => .error e
      | .ok inv => .ok (s.1 + 1, if inv ≤ 0 ∨ inv ≥ m ∨ (a * inv).fmod m ≠ 1 then s.2 + 1 else s.2)
    else .ok s

/-- `ecc/numbertheory.py` lines 686-695: 100 moduli and 100 numbers for each. -/
def inverseTests (ms : Nat → Int) (as : Nat → Nat → Int) (s : Nat × Nat) : Py (Nat × Nat) :=
  (List.range 100).foldlM (fun s i => (List.range 100).foldlM (fun s j => inverseTest (ms i) s (as i j)) s) s

/-- `ecc/numbertheory.py` lines 604-623. -/
def bigprimes : List Int :=
  [999671, 999683, 999721, 999727, 999749, 999763, 999769, 999773, 999809, 999853, 999863, 999883, 999907, 999917, 999931,
   999953, 999959, 999961, 999979, 999983]

/-- `ecc/numbertheory.py` lines 625-626: the pairs of neighbours are compared one after the other. -/
def nextPrimeTests (log2 : Int → Int) : List (Int × Int) → Option (Py Unit)
  | [] => some (.ok ())
  | (a, b) :: rest =>
    match nextPrime log2 a with
    | none => none
    | some q => if q = b then nextPrimeTests log2 rest else some (.error .assertion)

/-- `ecc/numbertheory.py` lines 593-601: the assertions about `gcd` and `lcm`. -/
def gcdTests : Py Unit := do
  Py.assert ((← gcdArgs [3 * 5 * 7, 3 * 5 * 11, 3 * 5 * 13]) = 3 * 5)
  Py.assert ((← gcdList [3 * 5 * 7, 3 * 5 * 11, 3 * 5 * 13]) = 3 * 5)
  Py.assert ((← gcdArgs [3]) = 3)
  Py.assert ((← lcmArgs [3, 5 * 3, 7 * 3]) = 3 * 5 * 7)
  Py.assert ((← lcmList [3, 5 * 3, 7 * 3]) = 3 * 5 * 7)
  Py.assert ((← lcmArgs [3]) = 3)

/-- One part of the script after another: a part that does not end or raises is the last one.
`ecc/numbertheory.py` lines 587-699. -/
def andThen {α β : Type} (x : Option (Py α)) (f : α → Option (Py β)) : Option (Py β) :=
  match x with
  | none => none
  | some (.error e) => some (.error e)
  | some (.ok a) => f a

/-- `ecc/numbertheory.py` lines 587-699: the script; the result is the two numbers printed last, `n_tests` and `error_tally`. -/
def selfTest (log2 : Int → Int) (ms : Nat → Int) (as : Nat → Nat → Int) : Option (Py (Nat × Nat)) :=
  andThen (some gcdTests) fun () =>
  andThen (nextPrimeTests log2 (bigprimes.zip bigprimes.tail)) fun () =>
  andThen (some (smallprimes.foldlM sqrtTest 0)) fun tally =>
  andThen (jacobiTests log2 ((List.range 199).map fun i : Nat => 3 + 2 * (i : Int)) tally) fun tally =>
  andThen (some (inverseTests ms as (0, tally))) fun s =>
  some (if s.1 > 1000 then .ok s else .error .assertion)

end Cryptopy.Model
