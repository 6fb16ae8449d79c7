import Verif.Py
import Mathlib.Data.Int.GCD
import Mathlib.Tactic.Linarith

/-!
Model of `/repo/ecc/numbertheory.py`, and of `/repo/fmath/prime.py`.

Python's `%` and `/` on integers are `Int.fmod` and `Int.fdiv`; where the divisor is a positive
literal they are written `%` and `/`, which agree with them.
`Option` marks loops which might not terminate: `none` is divergence.
-/

namespace Cryptopy.Model

/-- `pow(base, exponent, modulus)` of Python 2: `TypeError` for a negative exponent, `ValueError` for
a zero modulus.  Called in `ecc/numbertheory.py` line 33 and in lines 210-276. -/
def pyPow (base exponent modulus : Int) : Py Int :=
  if exponent < 0 then .error .type
  else if modulus = 0 then .error .value
  else .ok ((base ^ exponent.toNat).fmod modulus)

/-- `modular_exp`, `ecc/numbertheory.py` lines 28-33. -/
def modularExp (base exponent modulus : Int) : Py Int :=
  if exponent < 0 then .error .negativeExponent
  else pyPow base exponent modulus

theorem natAbs_fmod_lt (a : Int) {b : Int} (h : b ≠ 0) : (a.fmod b).natAbs < b.natAbs := by
  rcases Int.lt_or_gt_of_ne h with h | h
  · have h2 := Int.fmod_lt_of_pos (-a) (b := -b) (by omega)
    have h3 := Int.fmod_nonneg_of_pos (-a) (b := -b) (by omega)
    rw [Int.neg_fmod_neg] at h2 h3
    omega
  · have h2 : a.fmod b < b := Int.fmod_lt_of_pos a h
    have h3 : 0 ≤ a.fmod b := Int.fmod_nonneg_of_pos a h
    omega

/-! ### Polynomials, lines 44-119

Coefficient lists in increasing powers.  `p = 0` (`ZeroDivisionError` inside the loops) is outside the
model.  The assignments to the caller's list in `polynomial_reduce_mod` are in `Model/PolyHeap.lean`;
here it returns the result only. -/

/-- `ecc/numbertheory.py` lines 60-61: the body of `if poly[-1] != 0`. -/
def polyReduceStep (poly polymod : List Int) (p : Int) : List Int :=
  (List.range' 2 (polymod.length - 1)).foldl
    (fun poly i =>
      poly.set (poly.length - i)
        ((poly.getD (poly.length - i) 0
          - poly.getD (poly.length - 1) 0 * polymod.getD (polymod.length - i) 0).fmod p))
    poly

theorem polyReduceStep_length (poly polymod : List Int) (p : Int) :
    (polyReduceStep poly polymod p).length = poly.length := by
  unfold polyReduceStep
  generalize List.range' 2 (polymod.length - 1) = l
  induction l generalizing poly with
  | nil => rfl
  | cons a l ih => rw [List.foldl_cons, ih, List.length_set]

/-- `ecc/numbertheory.py` lines 58-62: `while len(poly) >= len(polymod)`. -/
def polyReduceLoop (poly polymod : List Int) (p : Int) : List Int :=
  if _h : polymod.length ≤ poly.length ∧ 0 < polymod.length then
    polyReduceLoop
      (if poly.getD (poly.length - 1) 0 ≠ 0 then (polyReduceStep poly polymod p).dropLast
       else poly.dropLast) polymod p
  else poly
termination_by poly.length
decreasing_by
  split
  · rw [List.length_dropLast, polyReduceStep_length]; omega
  · rw [List.length_dropLast]; omega

/-- `polynomial_reduce_mod`, `ecc/numbertheory.py` lines 44-64. -/
def polynomialReduceMod (poly polymod : List Int) (p : Int) : Py (List Int) :=
  if polymod = [] then .error .index
  else if polymod.getD (polymod.length - 1) 0 ≠ 1 then .error .assertion
  else if ¬ polymod.length > 1 then .error .assertion
  else .ok (polyReduceLoop poly polymod p)

/-- `ecc/numbertheory.py` lines 81-87 of `polynomial_multiply_mod`: the cross terms. -/
def polyCross (m1 m2 : List Int) (p : Int) : List Int :=
  (List.range m1.length).foldl
    (fun prod i =>
      (List.range m2.length).foldl
        (fun prod j =>
          prod.set (i + j) ((prod.getD (i + j) 0 + m1.getD i 0 * m2.getD j 0).fmod p))
        prod)
    (List.replicate (m1.length + m2.length - 1) 0)

/-- `polynomial_multiply_mod`, `ecc/numbertheory.py` lines 68-89. -/
def polynomialMultiplyMod (m1 m2 polymod : List Int) (p : Int) : Py (List Int) :=
  polynomialReduceMod (polyCross m1 m2 p) polymod p

/-- `ecc/numbertheory.py` lines 114-117: `while k > 1`. -/
def polyExpLoop (k : Nat) (G s polymod : List Int) (p : Int) : Py (List Int) :=
  if _h : k > 1 then do
    let k' := k / 2
    let G ← polynomialMultiplyMod G G polymod p
    if k' % 2 = 1 then
      let s ← polynomialMultiplyMod G s polymod p
      polyExpLoop k' G s polymod p
    else polyExpLoop k' G s polymod p
  else .ok s
termination_by k
decreasing_by all_goals omega

/-- `polynomial_exp_mod`, `ecc/numbertheory.py` lines 94-119.  For a negative exponent the loop is not entered. -/
def polynomialExpMod (base : List Int) (exponent : Int) (polymod : List Int) (p : Int) :
    Py (List Int) :=
  if ¬ exponent < p then .error .assertion
  else if exponent = 0 then .ok [1]
  else polyExpLoop exponent.toNat base (if exponent % 2 = 1 then base else [1]) polymod p

/-! ### Jacobi symbol and square roots, lines 123-277 -/

/-- `while a1%2 == 0: a1, e = a1/2, e+1` (lines 138-139, 217-219, 534-536, and `fmath/prime.py` lines
27-29).  At `a1 = 0`, where the Python loop would not end, the model stops; no caller passes 0 (each
theorem that depends on it shows this). -/
def splitTwo (a1 : Int) (e : Nat) : Int × Nat :=
  if _h : a1 ≠ 0 ∧ a1 % 2 = 0 then splitTwo (a1 / 2) (e + 1) else (a1, e)
termination_by a1.natAbs
decreasing_by omega

theorem splitTwo_bounds (a1 : Int) (e : Nat) (h : 0 < a1) :
    0 < (splitTwo a1 e).1 ∧ (splitTwo a1 e).1 ≤ a1 := by
  induction a1, e using splitTwo.induct with
  | case1 a1 e hc ih =>
    rw [splitTwo, dif_pos hc]
    obtain ⟨h1, h2⟩ := ih (by omega)
    omega
  | case2 a1 e hc => rw [splitTwo, dif_neg hc]; exact ⟨h, le_refl _⟩

/-- `jacobi`, `ecc/numbertheory.py` lines 123-144. -/
def jacobi (a n : Int) : Py Int :=
  if _hn : ¬ n ≥ 3 then .error .assertion
  else if n % 2 ≠ 1 then .error .assertion
  else
    let a' := a.fmod n
    if _h0 : a' = 0 then .ok 0
    else if a' = 1 then .ok 1
    else
      let a1 := (splitTwo a' 0).1
      let e := (splitTwo a' 0).2
      let s : Int := if e % 2 = 0 ∨ n % 8 = 1 ∨ n % 8 = 7 then 1 else -1
      if a1 = 1 then .ok s
      else
        let s := if n % 4 = 3 ∧ a1 % 4 = 3 then -s else s
        match jacobi (n.fmod a1) a1 with
        | .ok j => .ok (s * j)
        | .error err => .error err
termination_by n.toNat
decreasing_by
  have h1 := Int.fmod_lt_of_pos a (b := n) (by omega)
  have h2 := Int.fmod_nonneg_of_pos a (b := n) (by omega)
  have h0 : a.fmod n ≠ 0 := _h0
  have h3 := splitTwo_bounds (a.fmod n) 0 (by omega)
  have h4 : a1 = (splitTwo (a.fmod n) 0).1 := rfl
  omega

/-- `ecc/numbertheory.py` lines 175-181: `for b in range(2, p)` from `b` on. -/
def sqrtSearch (a p : Int) (b : Int) : Py Int :=
  if _h : b < p then
    match jacobi (b * b - 4 * a) p with
    | .error e => .error e
    | .ok j =>
      if j = -1 then
        match polynomialExpMod [0, 1] ((p + 1) / 2) [a, -b, 1] p with
        | .error e => .error e
        | .ok [] => .error .index
        | .ok [_] => .error .index
        | .ok (c0 :: c1 :: _) => if c1 = 0 then .ok c0 else .error .assertion
      else sqrtSearch a p (b + 1)
  else .error .runtime
termination_by (p - b).toNat
decreasing_by omega

/-- `square_root_mod_prime`, `ecc/numbertheory.py` lines 147-181. -/
def squareRootModPrime (a p : Int) : Py Int := do
  Py.assert (0 ≤ a ∧ a < p)
  Py.assert (1 < p)
  if a = 0 then .ok 0
  else if p = 2 then .ok a
  else do
    let jac ← jacobi a p
    if jac = -1 then .error .squareRoot
    else if p % 4 = 3 then modularExp a ((p + 1) / 4) p
    else if p % 8 = 5 then do
      let d ← modularExp a ((p - 1) / 4) p
      if d = 1 then modularExp a ((p + 3) / 8) p
      else if d = p - 1 then do
        let y ← modularExp (4 * a) ((p - 5) / 8) p
        .ok ((2 * a * y).fmod p)
      else .error .runtime
    else sqrtSearch a p 2

/-- `legendre_symbol`, `ecc/numbertheory.py` lines 266-277. -/
def legendreSymbol (a p : Int) : Py Int := do
  let ls ← pyPow a ((p - 1) / 2) p
  .ok (if ls = p - 1 then -1 else ls)

/-- `ecc/numbertheory.py` lines 224-226 of `modular_sqrt`: `while legendre_symbol(n, p) != -1: n += 1`. -/
def findNonResidue (p n : Int) : Option (Py Int) :=
  match legendreSymbol n p with
  | .error e => some (.error e)
  | .ok l => if l ≠ -1 then findNonResidue p (n + 1) else some (.ok n)
partial_fixpoint

/-- `ecc/numbertheory.py` lines 249-254: the value of `m` after `for m in xrange(r)`; `k` rounds remain, `next` is the next
value of the loop variable and `last` its current one.  `p ≠ 0` here, as `legendre_symbol` has already
computed modulo `p`. -/
def tonelliInner (p : Int) : Nat → Nat → Nat → Int → Nat
  | 0, _, last, _ => last
  | k + 1, next, _, t =>
    if t = 1 then next else tonelliInner p k (next + 1) next ((t ^ 2).fmod p)

theorem tonelliInner_lt (p : Int) : ∀ (k next last : Nat) (t : Int), last ≤ next →
    tonelliInner p k next last t < next + k ∨ tonelliInner p k next last t = last
  | 0, _, _, _, _ => .inr rfl
  | k + 1, next, last, t, h => by
    unfold tonelliInner
    split
    · left; omega
    · rcases tonelliInner_lt p k (next + 1) next ((t ^ 2).fmod p) (by omega) with h | h
      · left; omega
      · left; omega

/-- `ecc/numbertheory.py` lines 248-263: the main loop of `modular_sqrt`. -/
def tonelliLoop (p x b g : Int) (r : Nat) : Int :=
  let m := tonelliInner p r 0 0 b
  if _h : m = 0 then x
  else
    let gs := (g ^ (2 ^ (r - m - 1))).fmod p
    let g := (gs * gs).fmod p
    tonelliLoop p ((x * gs).fmod p) ((b * g).fmod p) g m
termination_by r
decreasing_by
  have := tonelliInner_lt p r 0 0 b (le_refl _)
  omega

/-- `modular_sqrt`, `ecc/numbertheory.py` lines 183-263. -/
def modularSqrt (a p : Int) : Option (Py Int) :=
  match legendreSymbol a p with
  | .error e => some (.error e)
  | .ok l =>
    if l ≠ 1 then some (.ok 0)
    else if a = 0 then some (.ok 0)
    else if p = 2 then some (.ok p)
    else if p % 4 = 3 then some (pyPow a ((p + 1) / 4) p)
    else
      let s := (splitTwo (p - 1) 0).1
      let e := (splitTwo (p - 1) 0).2
      match findNonResidue p 2 with
      | none => none
      | some (.error err) => some (.error err)
      | some (.ok n) =>
        some (do
          let x ← pyPow a ((s + 1) / 2) p
          let b ← pyPow a s p
          let g ← pyPow n s p
          .ok (tonelliLoop p x b g e))

/-! ### Inverse, gcd, lcm, lines 280-333 -/

/-- `ecc/numbertheory.py` lines 287-289: the loop of `inverse_mod`; the result is `(d, ud)`. -/
def inverseModLoop (c d uc vc ud vd : Int) : Int × Int :=
  if _h : c ≠ 0 then
    let q := d.fdiv c
    inverseModLoop (d.fmod c) c (ud - q * uc) (vd - q * vc) uc vc
  else (d, ud)
termination_by c.natAbs
decreasing_by exact natAbs_fmod_lt d _h

/-- `ecc/numbertheory.py` lines 285-296 of `inverse_mod`, after the reduction of `a`. -/
def inverseModCore (a m : Int) : Py Int :=
  let r := inverseModLoop a m 1 0 0 1
  if r.1 ≠ 1 then .error .assertion
  else if r.2 > 0 then .ok r.2
  else .ok (r.2 + m)

/-- `inverse_mod`, `ecc/numbertheory.py` lines 280-296. -/
def inverseMod (a m : Int) : Py Int :=
  if a < 0 ∨ m ≤ a then
    if m = 0 then .error .zeroDivision else inverseModCore (a.fmod m) m
  else inverseModCore a m

/-- `gcd2`, `ecc/numbertheory.py` lines 299-303. -/
def gcd2 (a b : Int) : Int :=
  if _h : a ≠ 0 then gcd2 (b.fmod a) a else b
termination_by a.natAbs
decreasing_by exact natAbs_fmod_lt b _h

/-- `gcd(x, y, ...)`, `ecc/numbertheory.py` lines 313-315, called with integers. -/
def gcdArgs : List Int → Py Int
  | [] => .error .index
  | x :: xs => .ok (xs.foldl gcd2 x)

/-- `gcd([x, y, ...])`, `ecc/numbertheory.py` line 314, called with one list: `reduce` of an empty list is a `TypeError`. -/
def gcdList : List Int → Py Int
  | [] => .error .type
  | x :: xs => .ok (xs.foldl gcd2 x)

/-- `lcm2`, `ecc/numbertheory.py` lines 318-321. -/
def lcm2 (a b : Int) : Py Int :=
  let g := gcd2 a b
  if g = 0 then .error .zeroDivision else .ok ((a * b).fdiv g)

/-- `lcm(x, y, ...)`, `ecc/numbertheory.py` lines 331-333, called with integers. -/
def lcmArgs : List Int → Py Int
  | [] => .error .index
  | x :: xs => xs.foldlM lcm2 x

/-- `lcm([x, y, ...])`, `ecc/numbertheory.py` line 332, called with one list. -/
def lcmList : List Int → Py Int
  | [] => .error .type
  | x :: xs => xs.foldlM lcm2 x

/-! ### Orders, lines 438-478 -/

/-- `ecc/numbertheory.py` lines 451-453: `while z != 1`. -/
def orderModLoop (x m z result : Int) : Option Int :=
  if z ≠ 1 then orderModLoop x m ((z * x).fmod m) (result + 1) else some result
partial_fixpoint

/-- `order_mod`, `ecc/numbertheory.py` lines 438-454. -/
def orderMod (x m : Int) : Option (Py Int) :=
  if m ≤ 1 then some (.ok 0)
  else if gcd2 x m ≠ 1 then some (.error .assertion)
  else (orderModLoop x m x 1).map .ok

/-- `ecc/numbertheory.py` lines 465-469: divide `a` by `d` while the remainder is not positive (`d ≥ 2`). -/
def divideOut (a d : Int) : Option Int :=
  if a.fmod d > 0 then some a else divideOut (a.fdiv d) d
partial_fixpoint

/-- `largest_factor_relatively_prime`, `ecc/numbertheory.py` lines 457-470. -/
def largestFactor (a b : Int) : Option Int :=
  let d := gcd2 a b
  if d ≤ 1 then some a
  else
    match divideOut a d with
    | none => none
    | some a => largestFactor a d
partial_fixpoint

/-- `kinda_order_mod`, `ecc/numbertheory.py` lines 473-478. -/
def kindaOrderMod (x m : Int) : Option (Py Int) :=
  match largestFactor m x with
  | none => none
  | some m' => orderMod x m'

/-! ### Primes, lines 481-582 -/

/-- `smallprimes`, `ecc/numbertheory.py` lines 563-582. -/
def smallprimes : List Int :=
  [2, 3, 5, 7, 11, 13, 17, 19, 23, 29, 31, 37, 41,
   43, 47, 53, 59, 61, 67, 71, 73, 79, 83, 89, 97,
   101, 103, 107, 109, 113, 127, 131, 137, 139, 149,
   151, 157, 163, 167, 173, 179, 181, 191, 193, 197,
   199, 211, 223, 227, 229, 233, 239, 241, 251, 257,
   263, 269, 271, 277, 281, 283, 293, 307, 311, 313,
   317, 331, 337, 347, 349, 353, 359, 367, 373, 379,
   383, 389, 397, 401, 409, 419, 421, 431, 433, 439,
   443, 449, 457, 461, 463, 467, 479, 487, 491, 499,
   503, 509, 521, 523, 541, 547, 557, 563, 569, 571,
   577, 587, 593, 599, 601, 607, 613, 617, 619, 631,
   641, 643, 647, 653, 659, 661, 673, 677, 683, 691,
   701, 709, 719, 727, 733, 739, 743, 751, 757, 761,
   769, 773, 787, 797, 809, 811, 821, 823, 827, 829,
   839, 853, 857, 859, 863, 877, 881, 883, 887, 907,
   911, 919, 929, 937, 941, 947, 953, 967, 971, 977,
   983, 991, 997, 1009, 1013, 1019, 1021, 1031, 1033,
   1039, 1049, 1051, 1061, 1063, 1069, 1087, 1091, 1093,
   1097, 1103, 1109, 1117, 1123, 1129, 1151, 1153, 1163,
   1171, 1181, 1187, 1193, 1201, 1213, 1217, 1223, 1229]

/-- `smallprimes[-1]`.  `ecc/numbertheory.py` lines 363, 367 and 502. -/
def lastSmallprime : Int := 1229

/-- `ecc/numbertheory.py` lines 514-526: the table of round counts. -/
def roundTable : List (Int × Nat) :=
  [(100, 27), (150, 18), (200, 15), (250, 12), (300, 9), (350, 8), (400, 7), (450, 6), (550, 5),
   (650, 4), (850, 3), (1300, 2)]

/-- `ecc/numbertheory.py` lines 512-528: `t = 40; for k, tt in ...: if n_bits < k: break; t = tt`. -/
def roundsFrom (nBits : Int) : List (Int × Nat) → Nat → Nat
  | [], t => t
  | (k, tt) :: rest, t => if nBits < k then t else roundsFrom nBits rest tt

/-- Lines 541-547 (`fmath/prime.py` lines 32-37): `while j <= s-1 and y != n-1`, `k` being the number
of values of `j` left.  `none` is the early `return False`, otherwise the final `y`. -/
def squareLoop (n : Int) : Nat → Int → Option Int
  | 0, y => some y
  | k + 1, y =>
    if y ≠ n - 1 then
      let y := (y ^ 2).fmod n
      if y = 1 then none else squareLoop n k y
    else some y

/-- `ecc/numbertheory.py` lines 539-550: one round of the Miller-Rabin test with base `a`, `n - 1 = 2^s * r`. -/
def millerRabinRound (n r : Int) (s : Nat) (a : Int) : Bool :=
  let y := (a ^ r.toNat).fmod n
  if y ≠ 1 ∧ y ≠ n - 1 then
    match squareLoop n (s - 1) y with
    | none => false
    | some y => y = n - 1
  else true

/-- `is_prime`, `ecc/numbertheory.py` lines 481-551.  `log2 n` stands for `int(math.log(n, 2))`, a floating point
computation whose result is left arbitrary.  For `miller_rabin_test_count` see `isPrimeCounted`. -/
def isPrime (log2 : Int → Int) (n : Int) : Bool :=
  if n ≤ lastSmallprime then n ∈ smallprimes
  else if gcd2 n (2 * 3 * 5 * 7 * 11) ≠ 1 then false
  else
    let t := roundsFrom (1 + log2 n) roundTable 40
    let r := (splitTwo (n - 1) 0).1
    let s := (splitTwo (n - 1) 0).2
    (List.range t).all fun i => millerRabinRound n r s (smallprimes.getD i 0)

/-- `ecc/numbertheory.py` lines 537-551: the loop over the bases from number `i` on, `k` of them left; the answer and the
final value of
`miller_rabin_test_count`, which is 0 before. -/
def testLoop (n r : Int) (s : Nat) : Nat → Nat → Bool × Nat
  | 0, _ => (true, 0)
  | k + 1, i => if millerRabinRound n r s (smallprimes.getD i 0) then testLoop n r s k (i + 1) else (false, i + 1)

/-- `is_prime`, `ecc/numbertheory.py` lines 481-551, with the value of the global `miller_rabin_test_count` after the call. -/
def isPrimeCounted (log2 : Int → Int) (n : Int) : Bool × Nat :=
  if n ≤ lastSmallprime then (n ∈ smallprimes, 0)
  else if gcd2 n (2 * 3 * 5 * 7 * 11) ≠ 1 then (false, 0)
  else testLoop n (splitTwo (n - 1) 0).1 (splitTwo (n - 1) 0).2 (roundsFrom (1 + log2 n) roundTable 40) 0

/-- `ecc/numbertheory.py` line 559: `while not is_prime(result): result = result + 2`. -/
def nextPrimeLoop (log2 : Int → Int) (result : Int) : Option Int :=
  if isPrime log2 result then some result else nextPrimeLoop log2 (result + 2)
partial_fixpoint

/-- `next_prime`, `ecc/numbertheory.py` lines 554-560.  `x | 1` is `x + 1` for even and `x` for odd `x`. -/
def nextPrime (log2 : Int → Int) (start : Int) : Option Int :=
  if start < 2 then some 2
  else nextPrimeLoop log2 (if (start + 1) % 2 = 0 then start + 1 + 1 else start + 1)

/-! ### Factorization, totient, Carmichael function, lines 336-434 -/

/-- `ecc/numbertheory.py` lines 352-357: `count` and `n` after dividing by the small prime `d`, entered with `q = n / d`.
`d ≥ 2` and `n ≥ 1` at every call; the guard `2 ≤ d ∧ 0 < n` only serves termination. -/
def smallDivide (d n q : Int) (count : Nat) : Int × Nat :=
  if _h : d ≤ n ∧ 2 ≤ d ∧ 0 ≤ q ∧ q < n then
    if q.fmod d ≠ 0 then (q, count) else smallDivide d q (q.fdiv d) (count + 1)
  else (n, count)
termination_by n.toNat

/-- `ecc/numbertheory.py` lines 348-358: the loop over `smallprimes`. -/
def factorSmall : List Int → Int → List (Int × Nat) → Int × List (Int × Nat)
  | [], n, result => (n, result)
  | d :: ds, n, result =>
    if d > n then (n, result)
    else if n.fmod d = 0 then
      let r := smallDivide d n (n.fdiv d) 1
      factorSmall ds r.1 (result ++ [(d, r.2)])
    else factorSmall ds n result

/-- `ecc/numbertheory.py` lines 375-379: `while d <= n`. -/
def searchDivide (d n : Int) (count : Nat) : Int × Nat :=
  if _h : d ≤ n ∧ 2 ≤ d then
    if n.fmod d ≠ 0 then (n, count) else searchDivide d (n.fdiv d) (count + 1)
  else (n, count)
termination_by n.toNat
decreasing_by
  rw [Int.fdiv_eq_ediv_of_nonneg _ (by omega)]
  have := Int.ediv_lt_self_of_pos_of_ne_one (x := n) (y := d) (by omega) (by omega)
  omega

/-- `ecc/numbertheory.py` lines 368-380: `while 1`, entered with `d` not yet increased. -/
def factorSearch (d n : Int) (result : List (Int × Nat)) : Option (Int × List (Int × Nat)) :=
  let d := d + 2
  let q := n.fdiv d
  if q < d then some (n, result)
  else if n.fmod d = 0 then
    let r := searchDivide d q 1
    factorSearch d r.1 (result ++ [(d, r.2)])
  else factorSearch d n result
partial_fixpoint

/-- `factorization`, `ecc/numbertheory.py` lines 336-383, for an integer argument. -/
def factorization (log2 : Int → Int) (n : Int) : Option (List (Int × Nat)) :=
  if n < 2 then some []
  else
    let r := factorSmall smallprimes n []
    if r.1 > lastSmallprime then
      if isPrime log2 r.1 then some (r.2 ++ [(r.1, 1)])
      else
        match factorSearch lastSmallprime r.1 r.2 with
        | none => none
        | some (n, result) => some (if n > 1 then result ++ [(n, 1)] else result)
    else some r.2

/-- `ecc/numbertheory.py` lines 394-401: the loop of `phi`. -/
def phiOfFactors (ff : List (Int × Nat)) : Int :=
  ff.foldl (fun result f =>
    if f.2 > 1 then result * f.1 ^ (f.2 - 1) * (f.1 - 1) else result * (f.1 - 1)) 1

/-- `phi`, `ecc/numbertheory.py` lines 387-402. -/
def phi (log2 : Int → Int) (n : Int) : Option Int :=
  if n < 3 then some 1 else (factorization log2 n).map phiOfFactors

/-- `carmichael_of_ppower`, `ecc/numbertheory.py` lines 428-434 (exponents are at least 1). -/
def carmichaelOfPpower (pp : Int × Nat) : Int :=
  if pp.1 = 2 ∧ pp.2 > 2 then 2 ^ (pp.2 - 2) else (pp.1 - 1) * pp.1 ^ (pp.2 - 1)

/-- `carmichael_of_factorized`, `ecc/numbertheory.py` lines 415-426. -/
def carmichaelOfFactorized : List (Int × Nat) → Py Int
  | [] => .ok 1
  | f :: fs => fs.foldlM (fun result g => lcmArgs [result, carmichaelOfPpower g])
      (carmichaelOfPpower f)

/-- `carmichael`, `ecc/numbertheory.py` lines 405-412. -/
def carmichael (log2 : Int → Int) (n : Int) : Option (Py Int) :=
  (factorization log2 n).map carmichaelOfFactorized

/-! ### `fmath/prime.py` -/

/-- `fermat_little_test`, `fmath/prime.py` lines 9-16. -/
def fermatLittleTest (p a : Int) : Py Int := do
  let y ← pyPow a (p - 1) p
  .ok (if y = 1 then 1 else 0)

/-- `rabin_miller`, `fmath/prime.py` lines 18-40.  After the assertion `possiblePrime ≥ 2`, so no
`pow` can raise. -/
def rabinMiller (possiblePrime a : Int) : Py Int :=
  if ¬ (1 ≤ a ∧ a ≤ possiblePrime - 1) then .error .assertion
  else
    let r := (splitTwo (possiblePrime - 1) 0).1
    let s := (splitTwo (possiblePrime - 1) 0).2
    .ok (if millerRabinRound possiblePrime r s a then 1 else 0)

end Cryptopy.Model
