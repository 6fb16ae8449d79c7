import Verif.Model.Arith

/-!
The test script `fmath/prime_test.py`.  The file `primes_1st_50k.txt` that it reads is not in the repository; its contents
are a parameter.
-/

namespace Cryptopy.Model

/-- The bases of `testKnowPrimes` and `testKnowComposites`, `fmath/prime_test.py` lines 18 and 24. -/
def testBases : List Int := [2, 3, 5, 7, 9, 13, 17, 19, 21, 27, 33, 101, 205]

/-- `knownPrimes`, `fmath/prime_test.py` lines 52-55. -/
def knownPrimes : List Int :=
  [611693, 611707, 611729, 611753, 611791,
   611801, 611803, 611827, 611833, 611837,
   611839, 611873, 611879, 611887, 611903,
   611921, 611927, 611939, 611951, 611953]

/-- `knownComposites`, `fmath/prime_test.py` lines 57-60. -/
def knownComposites : List Int :=
  [611695, 611709, 611723, 611757, 611793,
   611805, 611807, 611829, 611835, 611800,
   611841, 611875, 611881, 611889, 611905,
   611923, 611925, 611941, 611947, 611937]

/-- `testKnowPrimes`, `fmath/prime_test.py` lines 15-19: the test succeeds if this is `.ok ()`. -/
def testKnowPrimes (known : List Int) : Py Unit :=
  known.forM fun prime => testBases.forM fun testNum => do
    let r ← rabinMiller prime testNum
    if r = 0 then .error .assertion else .ok ()

/-- `fmath/prime_test.py` lines 23-26: `witness` after the loop over the bases. -/
def witnessAfter (nonPrime : Int) : Py Int :=
  testBases.foldlM (fun witness testNum => do
    let r ← rabinMiller nonPrime testNum
    .ok (if r = 0 then 0 else witness)) 1

/-- `testKnowComposites`, `fmath/prime_test.py` lines 20-28. -/
def testKnowComposites (known : List Int) : Py Unit :=
  known.forM fun nonPrime => do
    let witness ← witnessAfter nonPrime
    if witness ≠ 0 then .error .assertion else .ok ()

/-- `fmath/prime_test.py` lines 41-47 of `test50K`: the loop over the witnesses for one composite number.  The state is
`maxWitness` and the
lines printed so far.  The assignment `lastPrime = prime` (line 46) is repeated by line 49 before `lastPrime` is read. -/
def witnessLoop (composite : Int) (st : Int × List (Int × Int)) : List Int → Py (Int × List (Int × Int))
  | [] => .ok st
  | witness :: rest => do
    let r ← rabinMiller composite witness
    if r = 0 then .ok (if st.1 < witness then (witness, st.2 ++ [(composite, witness)]) else st)
    else witnessLoop composite st rest

/-- `fmath/prime_test.py` lines 40-48: `for composite in range(lastPrime+2, prime, 2)`. -/
def compositeLoop (primes : List Int) (lastPrime prime : Int) (st : Int × List (Int × Int)) : Py (Int × List (Int × Int)) :=
  ((List.range ((prime - lastPrime - 1) / 2).toNat).map fun i : Nat => lastPrime + 2 + 2 * i).foldlM
    (fun st composite => witnessLoop composite st primes) st

/-- `fmath/prime_test.py` lines 39-49: the loop over the primes, the state being extended by `lastPrime`. -/
def primeLoop (primes : List Int) : Int → Int × List (Int × Int) → List Int → Py (Int × List (Int × Int))
  | _, st, [] => .ok st
  | lastPrime, st, prime :: rest => do
    let st ← compositeLoop primes lastPrime prime st
    primeLoop primes prime st rest

/-- `test50K`, `fmath/prime_test.py` lines 29-50, for the numbers in the file: the printed pairs `composite, maxWitness` and
the number printed
as last tested.  With fewer than two numbers the name `prime` is unbound in line 50. -/
def test50K (primes : List Int) : Py (List (Int × Int) × Int) := do
  let st ← primeLoop primes 2 (2, []) (primes.drop 1)
  match (primes.drop 1).getLast? with
  | none => .error .name
  | some prime => .ok (st.2, prime)

end Cryptopy.Model
