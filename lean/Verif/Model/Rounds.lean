import Verif.Model.Arith

/-!
The loops of `/repo/ecc/numbertheory.py` with the number of their rounds.

Each function below is the one of `Model/Arith.lean` without the suffix `Rounds`, and also returns how often the loop ran.
-/

namespace Cryptopy.Model

/-- `gcd2`, `ecc/numbertheory.py` lines 299-303: the result and the number of rounds of the loop. -/
def gcd2Rounds (a b : Int) : Int × Nat :=
  if _h : a ≠ 0 then
    let r := gcd2Rounds (b.fmod a) a
    (r.1, r.2 + 1)
  else (b, 0)
termination_by a.natAbs
decreasing_by exact natAbs_fmod_lt b _h

/-- `ecc/numbertheory.py` lines 287-289: the loop of `inverse_mod`; `d`, `ud` and the number of rounds. -/
def inverseModLoopRounds (c d uc vc ud vd : Int) : (Int × Int) × Nat :=
  if _h : c ≠ 0 then
    let q := d.fdiv c
    let r := inverseModLoopRounds (d.fmod c) c (ud - q * uc) (vd - q * vc) uc vc
    (r.1, r.2 + 1)
  else ((d, ud), 0)
termination_by c.natAbs
decreasing_by exact natAbs_fmod_lt d _h

/-- `inverse_mod`, `ecc/numbertheory.py` lines 280-296, after the reduction of `a`. -/
def inverseModCoreRounds (a m : Int) : Py Int × Nat :=
  let r := inverseModLoopRounds a m 1 0 0 1
  (if r.1.1 ≠ 1 then .error .assertion
   else if r.1.2 > 0 then .ok r.1.2
   else .ok (r.1.2 + m), r.2)

/-- `inverse_mod`, `ecc/numbertheory.py` lines 280-296: the result and the number of rounds of the loop. -/
def inverseModRounds (a m : Int) : Py Int × Nat :=
  if a < 0 ∨ m ≤ a then
    if m = 0 then (.error .zeroDivision, 0) else inverseModCoreRounds (a.fmod m) m
  else inverseModCoreRounds a m

/-- `ecc/numbertheory.py` lines 224-226 of `modular_sqrt`, with the number of calls of `legendre_symbol`; `calls` were made
before. -/
def findNonResidueRounds (p n : Int) (calls : Nat) : Option (Py Int × Nat) :=
  match legendreSymbol n p with
  | .error e => some (.error e, calls + 1)
  | .ok l => if l ≠ -1 then findNonResidueRounds p (n + 1) (calls + 1) else some (.ok n, calls + 1)
partial_fixpoint

/-- `ecc/numbertheory.py` lines 249-254: the value of `m` after `for m in xrange(r)`, and how often line 253, `t = pow(t, 2,
p)`, was executed. -/
def tonelliInnerRounds (p : Int) : Nat → Nat → Nat → Int → Nat × Nat
  | 0, _, last, _ => (last, 0)
  | k + 1, next, _, t =>
    if t = 1 then (next, 0)
    else
      let r := tonelliInnerRounds p k (next + 1) next ((t ^ 2).fmod p)
      (r.1, r.2 + 1)

theorem tonelliInnerRounds_fst (p : Int) : ∀ (k next last : Nat) (t : Int),
    (tonelliInnerRounds p k next last t).1 = tonelliInner p k next last t
  | 0, _, _, _ => rfl
  | k + 1, next, last, t => by
    unfold tonelliInnerRounds tonelliInner
    split
    · rfl
    · exact tonelliInnerRounds_fst p k _ _ _

/-- `ecc/numbertheory.py` lines 248-263: the main loop of `modular_sqrt`, with the number of executions of line 253. -/
def tonelliLoopRounds (p x b g : Int) (r : Nat) : Int × Nat :=
  let m := tonelliInnerRounds p r 0 0 b
  if _h : m.1 = 0 then (x, m.2)
  else
    let gs := (g ^ (2 ^ (r - m.1 - 1))).fmod p
    let g := (gs * gs).fmod p
    let rest := tonelliLoopRounds p ((x * gs).fmod p) ((b * g).fmod p) g m.1
    (rest.1, m.2 + rest.2)
termination_by r
decreasing_by
  have := tonelliInner_lt p r 0 0 b (le_refl _)
  rw [← tonelliInnerRounds_fst] at this
  have hm : m.1 = (tonelliInnerRounds p r 0 0 b).1 := rfl
  omega

/-- `modular_sqrt`, `ecc/numbertheory.py` lines 183-263: the result, the number of calls of `legendre_symbol` in the search
for a non-residue, and the
number of executions of line 253. -/
def modularSqrtRounds (a p : Int) : Option (Py Int × Nat × Nat) :=
  match legendreSymbol a p with
  | .error e => some (.error e, 0, 0)
  | .ok l =>
    if l ≠ 1 then some (.ok 0, 0, 0)
    else if a = 0 then some (.ok 0, 0, 0)
    else if p = 2 then some (.ok p, 0, 0)
    else if p % 4 = 3 then some (pyPow a ((p + 1) / 4) p, 0, 0)
    else
      let s := (splitTwo (p - 1) 0).1
      let e := (splitTwo (p - 1) 0).2
      match findNonResidueRounds p 2 0 with
      | none => none
      | some (.error err, calls) => some (.error err, calls, 0)
      | some (.ok n, calls) =>
        match (do
          let x ← pyPow a ((s + 1) / 2) p
          let b ← pyPow a s p
          let g ← pyPow n s p
          .ok (x, b, g) : Py (Int × Int × Int)) with
        | .error err => some (.error err, calls, 0)
        | .ok (x, b, g) =>
          let r := tonelliLoopRounds p x b g e
          some (.ok r.1, calls, r.2)

/-- `ecc/numbertheory.py` lines 368-380 of `factorization`: `while 1`, entered with `d` not yet increased; `rounds` were
made before, and the round
that leaves the loop counts. -/
def factorSearchRounds (d n : Int) (result : List (Int × Nat)) (rounds : Nat) :
    Option ((Int × List (Int × Nat)) × Nat) :=
  let d := d + 2
  let q := n.fdiv d
  if q < d then some ((n, result), rounds + 1)
  else if n.fmod d = 0 then
    let r := searchDivide d q 1
    factorSearchRounds d r.1 (result ++ [(d, r.2)]) (rounds + 1)
  else factorSearchRounds d n result (rounds + 1)
partial_fixpoint

/-- `factorization`, `ecc/numbertheory.py` lines 336-383: the result and the number of rounds of the loop at line 368. -/
def factorizationRounds (log2 : Int → Int) (n : Int) : Option (List (Int × Nat) × Nat) :=
  if n < 2 then some ([], 0)
  else
    let r := factorSmall smallprimes n []
    if r.1 > lastSmallprime then
      if isPrime log2 r.1 then some (r.2 ++ [(r.1, 1)], 0)
      else
        match factorSearchRounds lastSmallprime r.1 r.2 0 with
        | none => none
        | some ((n, result), rounds) => some (if n > 1 then result ++ [(n, 1)] else result, rounds)
    else some (r.2, 0)

end Cryptopy.Model
