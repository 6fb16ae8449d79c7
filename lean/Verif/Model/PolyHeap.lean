import Verif.Model.Arith

/-!
The polynomial functions of `ecc/numbertheory.py`, lines 44-119, on list objects: which lists they
change and which object they return.  `Model/Arith.lean` has the same functions on values.  `p = 0`
is outside the model, as there.
-/

namespace Cryptopy.Model

/-- The list objects of a program: the object with number `i < next` has the value `obj i`.
The lists of `ecc/numbertheory.py` lines 44-119. -/
structure Heap where
  next : Nat
  obj : Nat → List Int

/-- Item assignment leaves an object with another value.  `ecc/numbertheory.py` line 61. -/
def Heap.put (h : Heap) (i : Nat) (l : List Int) : Heap :=
  ⟨h.next, fun j => if j = i then l else h.obj j⟩

/-- A new list object.  For example `ecc/numbertheory.py` line 62. -/
def Heap.alloc (h : Heap) (l : List Int) : Heap × Nat :=
  (⟨h.next + 1, fun j => if j = h.next then l else h.obj j⟩, h.next)

/-- `ecc/numbertheory.py` lines 60-61: `for i in range(2, len(polymod)+1): poly[-i] = (poly[-i] - poly[-1]*polymod[-i]) % p`.
Both lists are read anew in every pass, so that they may be one object. -/
def Heap.reduceStep (h : Heap) (poly polymod : Nat) (p : Int) : Heap :=
  (List.range' 2 ((h.obj polymod).length - 1)).foldl
    (fun h i =>
      h.put poly ((h.obj poly).set ((h.obj poly).length - i)
        (((h.obj poly).getD ((h.obj poly).length - i) 0
          - (h.obj poly).getD ((h.obj poly).length - 1) 0
            * (h.obj polymod).getD ((h.obj polymod).length - i) 0).fmod p))) h

theorem Heap.reduceStep_length (h : Heap) (poly polymod : Nat) (p : Int) :
    ((h.reduceStep poly polymod p).obj poly).length = (h.obj poly).length := by
  unfold Heap.reduceStep
  generalize List.range' 2 ((h.obj polymod).length - 1) = l
  induction l generalizing h with
  | nil => rfl
  | cons a l ih => rw [List.foldl_cons, ih, Heap.put]; simp

/-- `ecc/numbertheory.py` lines 58-64: `while len(poly) >= len(polymod)`, with `poly = poly[0:-1]` making a new object.  The
condition that `polymod` is not empty is that of line 54 and serves the termination proof. -/
def Heap.reduceLoop (h : Heap) (poly polymod : Nat) (p : Int) : Heap × Nat :=
  if _h : (h.obj polymod).length ≤ (h.obj poly).length ∧ 0 < (h.obj polymod).length then
    let h' := if (h.obj poly).getD ((h.obj poly).length - 1) 0 ≠ 0 then h.reduceStep poly polymod p else h
    let a := h'.alloc (h'.obj poly).dropLast
    a.1.reduceLoop a.2 polymod p
  else (h, poly)
termination_by (h.obj poly).length
decreasing_by
  simp only [Heap.alloc, if_true, List.length_dropLast]
  split
  · rw [Heap.reduceStep_length]; omega
  · omega

/-- `polynomial_reduce_mod`, `ecc/numbertheory.py` lines 44-64. -/
def Heap.reduceMod (h : Heap) (poly polymod : Nat) (p : Int) : Py (Heap × Nat) :=
  if h.obj polymod = [] then .error .index
  else if (h.obj polymod).getD ((h.obj polymod).length - 1) 0 ≠ 1 then .error .assertion
  else if ¬ (h.obj polymod).length > 1 then .error .assertion
  else .ok (h.reduceLoop poly polymod p)

/-- `polynomial_multiply_mod`, `ecc/numbertheory.py` lines 68-89: the product is a new list. -/
def Heap.multiplyMod (h : Heap) (m1 m2 polymod : Nat) (p : Int) : Py (Heap × Nat) :=
  let a := h.alloc (polyCross (h.obj m1) (h.obj m2) p)
  a.1.reduceMod a.2 polymod p

/-- `ecc/numbertheory.py` lines 114-117: `while k > 1`. -/
def Heap.expLoop (h : Heap) (k : Nat) (G s polymod : Nat) (p : Int) : Py (Heap × Nat) :=
  if _h : k > 1 then do
    let k' := k / 2
    let a ← h.multiplyMod G G polymod p
    if k' % 2 = 1 then
      let b ← a.1.multiplyMod a.2 s polymod p
      b.1.expLoop k' a.2 b.2 polymod p
    else a.1.expLoop k' a.2 s polymod p
  else .ok (h, s)
termination_by k
decreasing_by all_goals omega

/-- `polynomial_exp_mod`, `ecc/numbertheory.py` lines 94-119: lines 107 and 112 make the new list `[1]`, line 111 none. -/
def Heap.expMod (h : Heap) (base : Nat) (exponent : Int) (polymod : Nat) (p : Int) : Py (Heap × Nat) :=
  if ¬ exponent < p then .error .assertion
  else if exponent = 0 then .ok (h.alloc [1])
  else if exponent % 2 = 1 then h.expLoop exponent.toNat base base polymod p
  else
    let a := h.alloc [1]
    a.1.expLoop exponent.toNat base a.2 polymod p

end Cryptopy.Model
