import Verif.Model.PolyHeap
import Verif.Lemmas.PolyMod

/-!
C140: which lists the polynomial functions change and which objects they return.
-/

namespace Cryptopy
open Model

/-- The value of the list passed as `poly` after the call: nothing changes if it is shorter than the
modulus or ends with 0; otherwise one step of the division is left in it, with the leading
coefficient in place. -/
def LeftBehind (l pm : List Int) (p : Int) (l' : List Int) : Prop :=
  l'.length = l.length ∧ ∀ j < l.length, l'.getD j 0 =
    if pm.length ≤ l.length ∧ l.getD (l.length - 1) 0 ≠ 0 ∧ l.length - pm.length ≤ j ∧ j < l.length - 1 then
      (l.getD j 0 - l.getD (l.length - 1) 0 * pm.getD (j - (l.length - pm.length)) 0).fmod p
    else l.getD j 0

private theorem getD_set (l : List Int) (i j : Nat) (v : Int) (hi : i < l.length) :
    (l.set i v).getD j 0 = if i = j then v else l.getD j 0 := by
  rw [List.getD_eq_getElem?_getD, List.getElem?_set, List.getD_eq_getElem?_getD]
  split
  · next h => subst h; rfl
  · rfl

private theorem getD_get (l : List Int) {j : Nat} (hj : j < l.length) : l.getD j 0 = l[j] := by
  rw [List.getD_eq_getElem?_getD, List.getElem?_eq_getElem hj]; rfl

/-- The passes of the inner loop, on values. -/
private theorem fold_spec (l pm : List Int) (p : Int) (hl : pm.length ≤ l.length) (k : Nat)
    (hk : k + 1 ≤ pm.length) :
    let r := (List.range' 2 k).foldl
      (fun poly i =>
        poly.set (poly.length - i)
          ((poly.getD (poly.length - i) 0
            - poly.getD (poly.length - 1) 0 * pm.getD (pm.length - i) 0).fmod p)) l
    r.length = l.length ∧ ∀ j < l.length, r.getD j 0 =
      if l.length - (k + 1) ≤ j ∧ j < l.length - 1 then
        (l.getD j 0 - l.getD (l.length - 1) 0 * pm.getD (j - (l.length - pm.length)) 0).fmod p
      else l.getD j 0 := by
  induction k with
  | zero =>
    refine ⟨rfl, fun j _ => ?_⟩
    rw [if_neg (by omega)]
    rfl
  | succ k ih =>
    obtain ⟨h1, h2⟩ := ih (by omega)
    rw [List.range'_concat, List.foldl_append]
    simp only [List.foldl_cons, List.foldl_nil, Nat.one_mul]
    generalize (List.range' 2 k).foldl _ l = r at h1 h2 ⊢
    refine ⟨by rw [List.length_set, h1], fun j hj => ?_⟩
    rw [getD_set _ _ _ _ (by omega), h1, h2 (l.length - 1) (by omega), h2 (l.length - (2 + k)) (by omega),
      h2 j hj]
    rw [if_neg (by omega : ¬ (l.length - (k + 1) ≤ l.length - 1 ∧ l.length - 1 < l.length - 1)),
      if_neg (by omega : ¬ (l.length - (k + 1) ≤ l.length - (2 + k) ∧ l.length - (2 + k) < l.length - 1))]
    by_cases e : l.length - (2 + k) = j
    · rw [if_pos e, if_pos (by omega), e,
        show pm.length - (2 + k) = j - (l.length - pm.length) by omega]
    · rw [if_neg e]
      by_cases c : l.length - (k + 1) ≤ j ∧ j < l.length - 1
      · rw [if_pos c, if_pos (by omega)]
      · rw [if_neg c, if_neg (by omega)]

/-- The passes of the inner loop, on objects: the same, also if both are one object. -/
private theorem heap_fold (h : Heap) (a m : Nat) (p : Int) (hl : (h.obj m).length ≤ (h.obj a).length)
    (k : Nat) (hk : k + 1 ≤ (h.obj m).length) :
    (List.range' 2 k).foldl
      (fun h i =>
        h.put a ((h.obj a).set ((h.obj a).length - i)
          (((h.obj a).getD ((h.obj a).length - i) 0
            - (h.obj a).getD ((h.obj a).length - 1) 0
              * (h.obj m).getD ((h.obj m).length - i) 0).fmod p))) h =
    h.put a ((List.range' 2 k).foldl
      (fun poly i =>
        poly.set (poly.length - i)
          ((poly.getD (poly.length - i) 0
            - poly.getD (poly.length - 1) 0 * (h.obj m).getD ((h.obj m).length - i) 0).fmod p)) (h.obj a)) := by
  induction k with
  | zero =>
    simp only [List.range'_zero, List.foldl_nil]
    obtain ⟨n, o⟩ := h
    simp only [Heap.put, Heap.mk.injEq, true_and]
    funext j
    split
    · next e => rw [e]
    · rfl
  | succ k ih =>
    have sp := fold_spec (h.obj a) (h.obj m) p hl k (by omega)
    rw [List.range'_concat, List.foldl_append, List.foldl_append, ih (by omega)]
    simp only [List.foldl_cons, List.foldl_nil, Nat.one_mul] at sp ⊢
    generalize (List.range' 2 k).foldl _ (h.obj a) = r at sp ⊢
    obtain ⟨s1, s2⟩ := sp
    have hm : ((h.put a r).obj m).length = (h.obj m).length ∧
        ((h.put a r).obj m).getD ((h.obj m).length - (2 + k)) 0 = (h.obj m).getD ((h.obj m).length - (2 + k)) 0 := by
      simp only [Heap.put]
      split
      · next e =>
        subst e
        refine ⟨s1, ?_⟩
        rw [s2 _ (by omega), if_neg (by omega)]
      · exact ⟨rfl, rfl⟩
    rw [hm.1, hm.2]
    simp only [Heap.put, if_true, Heap.mk.injEq, true_and]
    funext j
    split <;> rfl

private theorem reduceStep_eq (h : Heap) (a m : Nat) (p : Int) (hl : (h.obj m).length ≤ (h.obj a).length)
    (h0 : 0 < (h.obj m).length) :
    h.reduceStep a m p = h.put a (polyReduceStep (h.obj a) (h.obj m) p) :=
  heap_fold h a m p hl ((h.obj m).length - 1) (by omega)

private theorem left_step (l pm : List Int) (p : Int) (hl : pm.length ≤ l.length) (h0 : 0 < pm.length) :
    (l.getD (l.length - 1) 0 ≠ 0 → LeftBehind l pm p (polyReduceStep l pm p)) ∧
    (¬ l.getD (l.length - 1) 0 ≠ 0 → LeftBehind l pm p l) := by
  refine ⟨fun hne => ?_, fun he => ⟨rfl, fun j _ => ?_⟩⟩
  · obtain ⟨h1, h2⟩ := fold_spec l pm p hl (pm.length - 1) (by omega)
    refine ⟨h1, fun j hj => ?_⟩
    refine (h2 j hj).trans ?_
    rw [show pm.length - 1 + 1 = pm.length by omega]
    by_cases c : l.length - pm.length ≤ j ∧ j < l.length - 1
    · rw [if_pos c, if_pos ⟨hl, hne, c⟩]
    · rw [if_neg c, if_neg (fun x => c x.2.2)]
  · rw [if_neg (fun x => he x.2.1)]

/-- What the loop does to the objects. -/
private theorem loop_spec (p : Int) (n : Nat) : ∀ (h : Heap) (a m : Nat), (h.obj a).length ≤ n →
    a < h.next → m < h.next → 0 < (h.obj m).length →
    let r := h.reduceLoop a m p
    r.1.obj r.2 = polyReduceLoop (h.obj a) (h.obj m) p ∧ h.next ≤ r.1.next ∧ r.2 < r.1.next ∧
    (∀ i < h.next, i ≠ a → r.1.obj i = h.obj i) ∧ LeftBehind (h.obj a) (h.obj m) p (r.1.obj a) ∧
    (if (h.obj a).length < (h.obj m).length then r = (h, a) else h.next ≤ r.2) := by
  induction n with
  | zero =>
    intro h a m hn ha hm h0
    rw [Heap.reduceLoop, dif_neg (by omega), polyReduceLoop, dif_neg (by omega)]
    refine ⟨rfl, le_refl _, ha, fun _ _ _ => rfl, ⟨rfl, fun j hj => ?_⟩, ?_⟩
    · omega
    · rw [if_pos (by omega)]
  | succ n ih =>
    intro h a m hn ha hm h0
    by_cases c : (h.obj m).length ≤ (h.obj a).length
    · rw [Heap.reduceLoop, dif_pos ⟨c, h0⟩, polyReduceLoop, dif_pos ⟨c, h0⟩]
      simp only
      -- the objects after the inner loop
      obtain ⟨h', he, v, hv1, hv2⟩ : ∃ h' : Heap, h' = (if (h.obj a).getD ((h.obj a).length - 1) 0 ≠ 0 then
          h.reduceStep a m p else h) ∧ ∃ v, v = (if (h.obj a).getD ((h.obj a).length - 1) 0 ≠ 0 then
          polyReduceStep (h.obj a) (h.obj m) p else h.obj a) ∧ h' = h.put a v := by
        refine ⟨_, rfl, _, rfl, ?_⟩
        split
        · exact reduceStep_eq h a m p c h0
        · obtain ⟨nx, o⟩ := h
          simp only [Heap.put, Heap.mk.injEq, true_and]
          funext j
          split
          · next e => rw [e]
          · rfl
      have hvl : v.length = (h.obj a).length := by
        rw [hv1]; split
        · exact polyReduceStep_length _ _ _
        · rfl
      have hleft : LeftBehind (h.obj a) (h.obj m) p v := by
        rw [hv1]
        split
        · next x => exact (left_step _ _ p c h0).1 x
        · next x => exact (left_step _ _ p c h0).2 x
      rw [← he, hv2]
      have hsel : (if (h.obj a).getD ((h.obj a).length - 1) 0 ≠ 0 then
          (polyReduceStep (h.obj a) (h.obj m) p).dropLast else (h.obj a).dropLast) = v.dropLast := by
        rw [hv1]; split <;> rfl
      rw [hsel]
      have va : (h.put a v).obj a = v := by simp [Heap.put]
      rw [va]
      set g := ((h.put a v).alloc v.dropLast).1 with hg
      have gnext : g.next = h.next + 1 := rfl
      have gid : ((h.put a v).alloc v.dropLast).2 = h.next := rfl
      have gnew : g.obj h.next = v.dropLast := by simp [hg, Heap.alloc, Heap.put]
      have gold : ∀ i < h.next, g.obj i = if i = a then v else h.obj i := by
        intro i hi
        exact if_neg (show ¬ i = h.next by omega)
      have gm : (g.obj m).length = (h.obj m).length := by
        rw [gold m hm]; split
        · next e => rw [hvl, ← e]
        · rfl
      rw [gid]
      obtain ⟨r1, r2, r3, r4, r5, r6⟩ := ih g h.next m (by rw [gnew, List.length_dropLast]; omega)
        (by omega) (by omega) (by omega)
      generalize g.reduceLoop h.next m p = r at r1 r2 r3 r4 r5 r6 ⊢
      refine ⟨?_, by omega, r3, ?_, ?_, ?_⟩
      · rw [r1, gnew]
        by_cases e : m = a
        · -- one object: the next pass ends the loop
          subst e
          have : v.dropLast.length < (g.obj m).length := by rw [gm, List.length_dropLast]; omega
          rw [polyReduceLoop, dif_neg (by omega), polyReduceLoop, dif_neg (by rw [gm] at this; omega)]
        · rw [gold m hm, if_neg e]
      · intro i hi hia
        rw [r4 i (by omega) (by omega), gold i hi, if_neg hia]
      · rw [r4 a (by omega) (by omega), gold a ha, if_pos rfl]
        exact hleft
      · rw [if_neg (by omega)]
        split at r6
        · rw [r6]
        · omega
    · rw [Heap.reduceLoop, dif_neg (by omega), polyReduceLoop, dif_neg (by omega)]
      refine ⟨rfl, le_refl _, ha, fun _ _ _ => rfl, ⟨rfl, fun j hj => ?_⟩, ?_⟩
      · rw [if_neg (by omega)]
      · rw [if_pos (by omega)]

/-- C140: `polynomial_reduce_mod` returns a list with the value of C68, whether or not both arguments
are one object.  It overwrites the list it was given as `LeftBehind` says, and no other list.  It
returns this very object if it is shorter than the modulus, and a new one otherwise. -/
theorem C140_reduce (h : Heap) (a m : Nat) (p : Int) (ha : a < h.next) (hm : m < h.next) :
    match polynomialReduceMod (h.obj a) (h.obj m) p, h.reduceMod a m p with
    | .error e, .error e' => e = e'
    | .ok v, .ok (h', r) => h'.obj r = v ∧ (∀ i < h.next, i ≠ a → h'.obj i = h.obj i) ∧
        LeftBehind (h.obj a) (h.obj m) p (h'.obj a) ∧
        (if (h.obj a).length < (h.obj m).length then h' = h ∧ r = a else h.next ≤ r)
    | _, _ => False := by
  rw [polynomialReduceMod, Heap.reduceMod]
  by_cases c1 : h.obj m = []
  · rw [if_pos c1, if_pos c1]
  · rw [if_neg c1, if_neg c1]
    by_cases c2 : (h.obj m).getD ((h.obj m).length - 1) 0 ≠ 1
    · rw [if_pos c2, if_pos c2]
    · rw [if_neg c2, if_neg c2]
      by_cases c3 : ¬ (h.obj m).length > 1
      · rw [if_pos c3, if_pos c3]
      · rw [if_neg c3, if_neg c3]
        obtain ⟨r1, -, -, r4, r5, r6⟩ := loop_spec p _ h a m (le_refl _) ha hm (by omega)
        refine ⟨r1, r4, r5, ?_⟩
        split
        · next c => rw [if_pos c] at r6; rw [r6]; exact ⟨rfl, rfl⟩
        · next c => rw [if_neg c] at r6; exact r6
example := C140_reduce ⟨3, fun i => if i = 0 then [4, 0, 0, 1] else if i = 1 then [1, 0, 1] else [2, 1]⟩ 0 1 7 (by decide) (by decide)

/-- C140: what is left in the list stands for another residue class than before: the leading term has
been added to it once more. -/
theorem C140_left_behind {p : Nat} (hp : 0 < p) (l pm l' : List Int) (hpm : 1 < pm.length)
    (hmonic : pm.getD (pm.length - 1) 0 = 1) (hl : pm.length ≤ l.length)
    (h0 : l.getD (l.length - 1) 0 ≠ 0) (hleft : LeftBehind l pm p l') :
    Spec.poly p pm ∣ Spec.poly p l' -
      (Spec.poly p l + Polynomial.C ((l.getD (l.length - 1) 0 : Int) : ZMod p) * Polynomial.X ^ (l.length - 1)) := by
  have e : l' = polyReduceStep l pm p := by
    have h1 := (left_step l pm p hl (by omega)).1 h0
    apply List.ext_getElem (hleft.1.trans h1.1.symm)
    intro j hj hj'
    have a := hleft.2 j (by rw [← hleft.1]; exact hj)
    have b := h1.2 j (by rw [← hleft.1]; exact hj)
    have c := a.trans b.symm
    rwa [getD_get _ hj, getD_get _ hj'] at c
  obtain ⟨s1, -⟩ := polyReduceStep_spec hp l pm hpm hmonic hl
  have hlast : (polyReduceStep l pm p).getD (l.length - 1) 0 = l.getD (l.length - 1) 0 := by
    have h1 := (left_step l pm p hl (by omega)).1 h0
    rw [h1.2 _ (by omega), if_neg (by omega)]
  have hd := poly_dropLast (p := p) (polyReduceStep l pm p) (by rw [polyReduceStep_length]; omega)
  rw [polyReduceStep_length, hlast, s1] at hd
  rw [e]
  refine ⟨-(Polynomial.C ((l.getD (l.length - 1) 0 : Int) : ZMod p) * Polynomial.X ^ (l.length - pm.length)), ?_⟩
  linear_combination -hd
/-- The hypotheses hold for `x^3 + 4`, `x^2 + 1` and the modulus 7. -/
example := C140_left_behind (p := 7) (by decide) [4, 0, 0, 1] [1, 0, 1] [4, 6, 0, 1] (by decide) (by decide) (by decide) (by decide)
  ⟨by decide, by decide⟩

private theorem shape (l l' : List Int) (p : Int) (hlen : 1 < l.length) (hmonic : l.getD (l.length - 1) 0 = 1)
    (hl : LeftBehind l l p l') : l'.dropLast = List.replicate (l.length - 1) 0 ∧
    l' = List.replicate (l.length - 1) 0 ++ [1] := by
  have h2 : l' = List.replicate (l.length - 1) 0 ++ [1] := by
    apply List.ext_getElem (by rw [hl.1]; simp; omega)
    intro j hj hj'
    have hv := hl.2 j (by rw [← hl.1]; exact hj)
    rw [getD_get _ hj] at hv
    rw [hv]
    by_cases c : j < l.length - 1
    · rw [if_pos ⟨le_refl _, by rw [hmonic]; decide, by omega, c⟩, List.getElem_append_left (by simpa using c), hmonic]
      simp
    · have : j = l.length - 1 := by rw [hl.1] at hj; omega
      subst this
      rw [if_neg (by omega), hmonic]
      simp
  refine ⟨?_, h2⟩
  rw [h2, List.dropLast_concat]

/-- C140: a monic polynomial reduced by itself, as one object, is overwritten by the power of `x`. -/
theorem C140_alias (h : Heap) (m : Nat) (p : Int) (hm : m < h.next) (hlen : 1 < (h.obj m).length)
    (hmonic : (h.obj m).getD ((h.obj m).length - 1) 0 = 1) :
    ∃ h' r, h.reduceMod m m p = .ok (h', r) ∧ h'.obj r = List.replicate ((h.obj m).length - 1) 0 ∧
      h'.obj m = List.replicate ((h.obj m).length - 1) 0 ++ [1] := by
  have key := C140_reduce h m m p hm hm
  have hok : h.reduceMod m m p = .ok (h.reduceLoop m m p) := by
    rw [Heap.reduceMod, if_neg (by intro c; rw [c] at hlen; simp at hlen), if_neg (by simpa using hmonic),
      if_neg (by omega)]
  have hval : polynomialReduceMod (h.obj m) (h.obj m) p = .ok (polyReduceLoop (h.obj m) (h.obj m) p) := by
    rw [polynomialReduceMod, if_neg (by intro c; rw [c] at hlen; simp at hlen), if_neg (by simpa using hmonic),
      if_neg (by omega)]
  rw [hok, hval] at key
  obtain ⟨k1, -, k3, -⟩ := key
  refine ⟨_, _, hok, ?_, ?_⟩
  · rw [k1]
    have hl := (left_step (h.obj m) (h.obj m) p (le_refl _) (by omega)).1 (by rw [hmonic]; decide)
    have e : polyReduceLoop (h.obj m) (h.obj m) p = (polyReduceStep (h.obj m) (h.obj m) p).dropLast := by
      rw [polyReduceLoop, dif_pos ⟨le_refl _, by omega⟩, if_pos (by rw [hmonic]; decide), polyReduceLoop,
        dif_neg (by rw [List.length_dropLast, polyReduceStep_length]; omega)]
    rw [e]
    exact (shape _ _ p hlen hmonic hl).1
  · exact (shape _ _ p hlen hmonic k3).2
example := C140_alias ⟨3, fun i => if i = 0 then [4, 0, 0, 1] else if i = 1 then [1, 0, 1] else [2, 1]⟩ 1 7 (by decide) (by decide) (by decide)

/-- The outcome of a function on objects against the same function on values: the same error or a list
with the same value, and no list that existed before is changed. -/
def Pure (h : Heap) (v : Py (List Int)) (r : Py (Heap × Nat)) : Prop :=
  match v, r with
  | .error e, .error e' => e = e'
  | .ok v, .ok (h', i) => h'.obj i = v ∧ h.next ≤ h'.next ∧ i < h'.next ∧ ∀ j < h.next, h'.obj j = h.obj j
  | _, _ => False

private theorem multiply_spec (h : Heap) (m1 m2 m : Nat) (p : Int) (hm : m < h.next) :
    Pure h (polynomialMultiplyMod (h.obj m1) (h.obj m2) (h.obj m) p) (h.multiplyMod m1 m2 m p) ∧
    ∀ h' r, h.multiplyMod m1 m2 m p = .ok (h', r) → h.next ≤ r := by
  rw [polynomialMultiplyMod, Heap.multiplyMod]
  set g := (h.alloc (polyCross (h.obj m1) (h.obj m2) p)).1 with hg
  have gid : (h.alloc (polyCross (h.obj m1) (h.obj m2) p)).2 = h.next := rfl
  have gnext : g.next = h.next + 1 := rfl
  have gnew : g.obj h.next = polyCross (h.obj m1) (h.obj m2) p := if_pos rfl
  have gold : ∀ i < h.next, g.obj i = h.obj i := fun i hi => if_neg (show ¬ i = h.next by omega)
  simp only [gid]
  rw [polynomialReduceMod, Heap.reduceMod, gold m hm]
  by_cases c1 : h.obj m = []
  · rw [if_pos c1, if_pos c1]
    exact ⟨rfl, by simp⟩
  · rw [if_neg c1, if_neg c1]
    by_cases c2 : (h.obj m).getD ((h.obj m).length - 1) 0 ≠ 1
    · rw [if_pos c2, if_pos c2]
      exact ⟨rfl, by simp⟩
    · rw [if_neg c2, if_neg c2]
      by_cases c3 : ¬ (h.obj m).length > 1
      · rw [if_pos c3, if_pos c3]
        exact ⟨rfl, by simp⟩
      · rw [if_neg c3, if_neg c3]
        obtain ⟨r1, r2, r3, r4, -, r6⟩ := loop_spec p _ g h.next m (le_refl _) (by omega) (by omega)
          (by rw [gold m hm]; omega)
        rw [gnew, gold m hm] at r1
        constructor
        · refine ⟨r1, by omega, r3, fun j hj => ?_⟩
          rw [r4 j (by omega) (by omega), gold j hj]
        · intro h' r e
          have e := Except.ok.inj e
          rw [e] at r6
          split at r6
          · have := congrArg Prod.snd r6
            simp only at this
            omega
          · simp only at r6; omega

/-- C140: `polynomial_multiply_mod` changes no list it is given, and returns a new one. -/
theorem C140_multiply (h : Heap) (m1 m2 m : Nat) (p : Int) (hm : m < h.next) :
    Pure h (polynomialMultiplyMod (h.obj m1) (h.obj m2) (h.obj m) p) (h.multiplyMod m1 m2 m p) ∧
    ∀ h' r, h.multiplyMod m1 m2 m p = .ok (h', r) → h.next ≤ r := multiply_spec h m1 m2 m p hm
example := C140_multiply ⟨3, fun i => if i = 0 then [4, 0, 0, 1] else if i = 1 then [1, 0, 1] else [2, 1]⟩ 0 2 1 7 (by decide)

private theorem Pure.mono {h f : Heap} {V : Py (List Int)} {R : Py (Heap × Nat)} (hp : Pure f V R)
    (hn : h.next ≤ f.next) (ho : ∀ j < h.next, f.obj j = h.obj j) : Pure h V R := by
  match V, R, hp with
  | .error e, .error e', q => exact q
  | .ok v, .ok (g, i), ⟨a1, a2, a3, a4⟩ =>
    exact ⟨a1, by omega, a3, fun j hj => by rw [a4 j (by omega), ho j hj]⟩

private theorem exp_spec (p : Int) (n : Nat) : ∀ (h : Heap) (k G s m : Nat), k ≤ n → G < h.next → s < h.next →
    m < h.next →
    Pure h (polyExpLoop k (h.obj G) (h.obj s) (h.obj m) p) (h.expLoop k G s m p) ∧
    (∀ h' r, h.expLoop k G s m p = .ok (h', r) → 1 < k → h.next ≤ r) := by
  induction n with
  | zero =>
    intro h k G s m hk hG hs hm
    rw [polyExpLoop, dif_neg (by omega), Heap.expLoop, dif_neg (by omega)]
    exact ⟨⟨rfl, le_refl _, hs, fun _ _ => rfl⟩, fun _ _ _ hk' => absurd hk' (by omega)⟩
  | succ n ih =>
    intro h k G s m hk hG hs hm
    by_cases c : k > 1
    · rw [polyExpLoop, dif_pos c, Heap.expLoop, dif_pos c]
      obtain ⟨q1, q2⟩ := multiply_spec h G G m p hm
      revert q1 q2
      generalize h.multiplyMod G G m p = R
      generalize polynomialMultiplyMod (h.obj G) (h.obj G) (h.obj m) p = V
      intro q1 q2
      match V, R, q1 with
      | .error e, .error e', q => exact ⟨q, by intro h' r x; cases x⟩
      | .ok v, .ok (g, i), ⟨a1, a2, a3, a4⟩ =>
        have a5 := q2 g i rfl
        simp only [bind, Except.bind]
        by_cases d : k / 2 % 2 = 1
        · rw [if_pos d, if_pos d]
          obtain ⟨q1, q2⟩ := multiply_spec g i s m p (by omega)
          rw [a1, a4 s hs, a4 m hm] at q1
          revert q1 q2
          generalize g.multiplyMod i s m p = R
          generalize polynomialMultiplyMod v (h.obj s) (h.obj m) p = V
          intro q1 q2
          match V, R, q1 with
          | .error e, .error e', q => exact ⟨q, by intro h' r x; cases x⟩
          | .ok w, .ok (f, j), ⟨b1, b2, b3, b4⟩ =>
            have b5 := q2 f j rfl
            simp only
            obtain ⟨t1, t2⟩ := ih f (k / 2) i j m (by omega) (by omega) (by omega) (by omega)
            rw [b1, b4 i a3, a1, b4 m (by omega), a4 m hm] at t1
            refine ⟨t1.mono (by omega) (fun l hl => by rw [b4 l (by omega), a4 l hl]), fun h' r x _ => ?_⟩
            by_cases k1 : 1 < k / 2
            · have := t2 h' r x k1
              omega
            · rw [Heap.expLoop, dif_neg (by omega)] at x
              have := congrArg Prod.snd (Except.ok.inj x)
              simp only at this
              omega
        · rw [if_neg d, if_neg d]
          obtain ⟨t1, t2⟩ := ih g (k / 2) i s m (by omega) (by omega) (by omega) (by omega)
          rw [a1, a4 s hs, a4 m hm] at t1
          refine ⟨t1.mono (by omega) a4, fun h' r x _ => ?_⟩
          have := t2 h' r x (by omega)
          omega
    · rw [polyExpLoop, dif_neg c, Heap.expLoop, dif_neg c]
      exact ⟨⟨rfl, le_refl _, hs, fun _ _ => rfl⟩, fun _ _ _ hk' => absurd hk' c⟩

/-- C140: `polynomial_exp_mod` changes no list it is given.  It returns the base itself, not a copy,
for the exponent 1 (and odd negative exponents), and a new list for every other exponent. -/
theorem C140_exp (h : Heap) (b : Nat) (e : Int) (m : Nat) (p : Int) (hb : b < h.next) (hm : m < h.next) :
    Pure h (polynomialExpMod (h.obj b) e (h.obj m) p) (h.expMod b e m p) ∧
    ∀ h' r, h.expMod b e m p = .ok (h', r) →
      if e ≤ 1 ∧ e % 2 = 1 then h' = h ∧ r = b else h.next ≤ r := by
  rw [polynomialExpMod, Heap.expMod]
  by_cases c1 : ¬ e < p
  · rw [if_pos c1, if_pos c1]
    exact ⟨rfl, by simp⟩
  · rw [if_neg c1, if_neg c1]
    have aold : ∀ i < h.next, (h.alloc [1]).1.obj i = h.obj i := fun i hi => if_neg (show ¬ i = h.next by omega)
    have anew : (h.alloc [1]).1.obj h.next = [1] := if_pos rfl
    have anext : (h.alloc [1]).1.next = h.next + 1 := rfl
    have aid : (h.alloc [1]).2 = h.next := rfl
    by_cases c2 : e = 0
    · rw [if_pos c2, if_pos c2]
      refine ⟨⟨anew, Nat.le_succ _, Nat.lt_succ_self _, aold⟩, fun h' r x => ?_⟩
      rw [if_neg (by omega)]
      have := congrArg Prod.snd (Except.ok.inj x)
      rw [aid] at this
      simp only at this
      omega
    · rw [if_neg c2, if_neg c2]
      by_cases c3 : e % 2 = 1
      · rw [if_pos c3, if_pos c3]
        obtain ⟨t1, t2⟩ := exp_spec p _ h e.toNat b b m (le_refl _) hb hb hm
        refine ⟨t1, fun h' r x => ?_⟩
        by_cases c4 : e ≤ 1
        · rw [if_pos ⟨c4, c3⟩]
          rw [Heap.expLoop, dif_neg (by omega)] at x
          have := Except.ok.inj x
          exact ⟨(congrArg Prod.fst this).symm, (congrArg Prod.snd this).symm⟩
        · rw [if_neg (fun y => c4 y.1)]
          exact t2 h' r x (by omega)
      · rw [if_neg c3, if_neg c3]
        obtain ⟨t1, t2⟩ := exp_spec p _ (h.alloc [1]).1 e.toNat b (h.alloc [1]).2 m (le_refl _) (by omega)
          (by omega) (by omega)
        rw [aid, anew, aold b hb, aold m hm] at t1
        rw [aid] at t2
        refine ⟨t1.mono (by omega) aold, fun h' r x => ?_⟩
        rw [if_neg (fun y => c3 y.2)]
        simp only [aid] at x
        by_cases c4 : 1 < e.toNat
        · have := t2 h' r x c4
          omega
        · rw [Heap.expLoop, dif_neg c4] at x
          have := congrArg Prod.snd (Except.ok.inj x)
          simp only at this
          omega
example := C140_exp ⟨3, fun i => if i = 0 then [4, 0, 0, 1] else if i = 1 then [1, 0, 1] else [2, 1]⟩ 2 5 1 7 (by decide) (by decide)

/-- `x^3 + 4`, `x^2 + 1` and `x + 2`. -/
def exampleHeap : Heap := ⟨3, fun i => if i = 0 then [4, 0, 0, 1] else if i = 1 then [1, 0, 1] else [2, 1]⟩

/-- The value returned, whether it is a new object, and the value of an object afterwards. -/
private def seen (r : Py (Heap × Nat)) (i : Nat) : Option (List Int × Bool × List Int) :=
  match r with
  | .ok (h, j) => some (h.obj j, decide (exampleHeap.next ≤ j), h.obj i)
  | .error _ => none

/-- Reducing `x^3 + 4` by `x^2 + 1` modulo 7 turns the caller's list into `x^3 + 6 x + 4`. -/
example : seen (exampleHeap.reduceMod 0 1 7) 0 = some ([4, 6], true, [4, 6, 0, 1]) := by decide +kernel

example : seen (exampleHeap.reduceMod 1 1 7) 1 = some ([0, 0], true, [0, 0, 1]) := by decide +kernel

/-- A list that is short already is returned itself. -/
example : seen (exampleHeap.reduceMod 2 1 7) 2 = some ([2, 1], false, [2, 1]) := by decide +kernel

example : seen (exampleHeap.multiplyMod 2 2 1 7) 2 = some ([3, 4], true, [2, 1]) := by decide +kernel

example : seen (exampleHeap.expMod 2 1 1 7) 2 = some ([2, 1], false, [2, 1]) := by decide +kernel

example : seen (exampleHeap.expMod 2 3 1 7) 2 = some ([2, 4], true, [2, 1]) := by decide +kernel

end Cryptopy
