import Mathlib.Order.Bounds.Basic
import Mathlib.Analysis.Real.Sqrt
import Verif.Lemmas.Walsh

/-!
Properties of the Walsh transform and of the non-linearity functions (C88-C91, C94).
-/

namespace Cryptopy.Props
open Model Spec

/-! ### C90, C91 -/

/-- C90: `log2n(l)` is `n` when `l = 2^n`, and an `AssertionError` for every other integer. -/
theorem C90_log2n (l : Int) (n : Nat) :
    (log2n l = .ok n ↔ l = 2 ^ n) ∧ ((¬ ∃ k : Nat, l = 2 ^ k) → log2n l = .error .assertion) := by
  refine ⟨⟨fun h => ?_, fun h => ?_⟩, log2n_not l⟩
  · by_cases hk : ∃ k : Nat, l = 2 ^ k
    · obtain ⟨k, hk⟩ := hk
      have h2 := log2n_two_pow k
      have : ((2 ^ k : Nat) : Int) = l := by rw [hk]; push_cast; rfl
      rw [this, h] at h2
      injection h2 with h2
      rw [hk, h2]
    · rw [log2n_not l hk] at h; cases h
  · have h2 := log2n_two_pow n
    have : ((2 ^ n : Nat) : Int) = l := by rw [h]; push_cast; rfl
    rwa [this] at h2

example : log2n 256 = .ok 8 := ((C90_log2n 256 8).1).mpr (by norm_num)

/-- C91: the inner product is the parity of the number of the common one bits. -/
theorem C91_parity (a b : Nat) :
    binaryInnerProduct a b = ((Finset.range (a + b)).filter fun i => a.testBit i = true ∧ b.testBit i = true).card % 2 := by
  have h : a &&& b < 2 ^ (a + b) := lt_of_le_of_lt (le_trans Nat.and_le_left (Nat.le_add_right a b)) Nat.lt_two_pow_self
  rw [bip_eq, par_card _ _ h]
  simp only [Nat.testBit_and, Bool.and_eq_true]

/-- C91: the inner product is symmetric. -/
theorem C91_symm (a b : Nat) : binaryInnerProduct a b = binaryInnerProduct b a := by
  rw [bip_eq, bip_eq, Nat.and_comm]

/-- C91: the inner product is bilinear over exclusive or. -/
theorem C91_bilinear (a b c : Nat) :
    binaryInnerProduct a (b ^^^ c) = (binaryInnerProduct a b + binaryInnerProduct a c) % 2 ∧
      binaryInnerProduct (a ^^^ b) c = (binaryInnerProduct a c + binaryInnerProduct b c) % 2 := by
  have key : ∀ u v : Nat, u < 2 → v < 2 → u ^^^ v = (u + v) % 2 := by
    intro u v hu hv
    have : u = 0 ∨ u = 1 := by omega
    have : v = 0 ∨ v = 1 := by omega
    rcases ‹u = 0 ∨ u = 1› with rfl | rfl <;> rcases ‹v = 0 ∨ v = 1› with rfl | rfl <;> rfl
  have h1 : ∀ a b c, binaryInnerProduct a (b ^^^ c) = (binaryInnerProduct a b + binaryInnerProduct a c) % 2 := by
    intro a b c
    rw [← key _ _ (bip_lt _ _) (bip_lt _ _), bip_eq, bip_eq, bip_eq, and_xor_left, par_xor]
  refine ⟨h1 a b c, ?_⟩
  rw [C91_symm, h1, C91_symm c a, C91_symm c b]

example : binaryInnerProduct 0b1101 0b0111 = 0 := by rw [C91_parity]; decide

/-! ### The transform as a distance -/

/-- The Boolean function with a table. -/
def ofTable (t : List Nat) (x : Nat) : Bool := decide (t.getD x 0 = 1)

theorem sum_sign (n : Nat) (f g : Nat → Bool) :
    (∑ x ∈ Finset.range (2 ^ n), if f x = g x then (1 : Int) else -1) = 2 ^ n - 2 * distance n f g := by
  have h : ∀ x, (if f x = g x then (1 : Int) else -1) = 1 - 2 * (if f x ≠ g x then 1 else 0) := by
    intro x; by_cases h : f x = g x <;> simp [h]
  simp only [h, Finset.sum_sub_distrib, ← Finset.mul_sum, Finset.sum_const, Finset.card_range, distance,
    Finset.card_filter]
  push_cast
  simp

theorem wht_term {n : Nat} {t : List Nat} (ht : ∀ v ∈ t, v < 2) {w x : Nat} (hx : x < 2 ^ n) :
    signs t x * chr w x = if ofTable t x = linear (bits n w) x then 1 else -1 := by
  have hb := bip_linear n w x (lt_of_le_of_lt Nat.and_le_right hx)
  have hbl := bip_lt w x
  have hc : chr w x = (-1) ^ binaryInnerProduct w x := by rw [chr, bip_eq]
  have htb := getD_binary ht x
  rw [hc, signs, ofTable]
  have h1 : t.getD x 0 = 0 ∨ t.getD x 0 = 1 := by omega
  have h2 : binaryInnerProduct w x = 0 ∨ binaryInnerProduct w x = 1 := by omega
  rcases h2 with h2 | h2
  · have hl : linear (bits n w) x = false := by
      rw [← Bool.not_eq_true, ← hb, h2]; omega
    rcases h1 with h1 | h1 <;> rw [h1, h2, hl] <;> decide
  · have hl : linear (bits n w) x = true := hb.mp h2
    rcases h1 with h1 | h1 <;> rw [h1, h2, hl] <;> decide

theorem wht_distance {n : Nat} {t : List Nat} (ht : ∀ v ∈ t, v < 2) (w : Nat) :
    wht n (signs t) w = 2 ^ n - 2 * distance n (ofTable t) (linear (bits n w)) := by
  rw [wht, ← sum_sign]
  exact Finset.sum_congr rfl fun x hx => wht_term ht (Finset.mem_range.mp hx)

theorem distance_affine (n : Nat) (f : Nat → Bool) (S : Finset Nat) :
    distance n f (affine S false) = distance n f (linear S) ∧
      distance n f (affine S true) + distance n f (linear S) = 2 ^ n := by
  constructor
  · simp only [distance, affine, Bool.false_xor]
  · simp only [distance, affine, Bool.true_xor]
    have : ∀ x, (f x ≠ !linear S x) ↔ ¬ (f x ≠ linear S x) := by
      intro x; cases f x <;> cases linear S x <;> simp
    simp only [this]
    rw [add_comm, Finset.card_filter_add_card_filter_not, Finset.card_range]

theorem distance_congr {n : Nat} {f g g' : Nat → Bool} (h : ∀ x < 2 ^ n, g x = g' x) :
    distance n f g = distance n f g' := by
  rw [distance, distance]
  congr 1
  exact Finset.filter_congr fun x hx => by rw [h x (Finset.mem_range.mp hx)]

theorem distance_le (n : Nat) (f g : Nat → Bool) : distance n f g ≤ 2 ^ n := by
  rw [distance]
  refine le_trans (Finset.card_filter_le _ _) (by rw [Finset.card_range])

/-! ### C88 -/

section C88
variable (n : Nat) (t : List Nat) (hl : t.length = 2 ^ n) (ht : ∀ v ∈ t, v < 2)
include hl ht

/-- C88: entry `w` of the transform is the number of inputs where the list agrees with the exclusive or of
the input bits in the mask `w`, less the number where it does not. -/
theorem C88_sum : ∃ ws, walshTransform t = .ok ws ∧ ws.length = 2 ^ n ∧
    ∀ w < 2 ^ n, ws.getD w 0 = ∑ x ∈ Finset.range (2 ^ n),
      if ofTable t x = linear ((Finset.range n).filter fun i => w.testBit i = true) x then 1 else -1 := by
  refine ⟨_, walshTransform_eq n t hl ht, by simp, fun w hw => ?_⟩
  rw [List.getD_eq_getElem _ _ (by simpa using hw), List.getElem_map, List.getElem_range, wht]
  exact Finset.sum_congr rfl fun x hx => wht_term ht (Finset.mem_range.mp hx)

/-- C88: Parseval's identity. -/
theorem C88_parseval : ∃ ws, walshTransform t = .ok ws ∧ (ws.map (· ^ 2)).sum = 4 ^ n := by
  refine ⟨_, walshTransform_eq n t hl ht, ?_⟩
  rw [List.map_map, ← wht_parseval n (signs t) fun x _ => signs_sq t x]
  rfl

/-- C88: the transform determines the list: `(-1)^t(x)` is the sum of `W(w)·(-1)^(w·x)` over `2^n`. -/
theorem C88_inversion : ∃ ws, walshTransform t = .ok ws ∧
    ∀ x < 2 ^ n, (∑ w ∈ Finset.range (2 ^ n),
      if linear ((Finset.range n).filter fun i => w.testBit i = true) x then - ws.getD w 0 else ws.getD w 0) =
        2 ^ n * (-1) ^ t.getD x 0 := by
  refine ⟨_, walshTransform_eq n t hl ht, fun x hx => ?_⟩
  rw [← signs, ← wht_inverse n (signs t) x hx]
  refine Finset.sum_congr rfl fun w hw => ?_
  have hw' := Finset.mem_range.mp hw
  rw [List.getD_eq_getElem _ _ (by simpa using hw'), List.getElem_map, List.getElem_range]
  have hb := bip_linear n w x (lt_of_le_of_lt Nat.and_le_right hx)
  have hbl := bip_lt w x
  have hc : chr w x = (-1) ^ binaryInnerProduct w x := by rw [chr, bip_eq]
  rw [hc]
  have h2 : binaryInnerProduct w x = 0 ∨ binaryInnerProduct w x = 1 := by omega
  rcases h2 with h2 | h2
  · rw [if_neg (by rw [bits] at hb; rw [← hb, h2]; omega), h2]; simp
  · rw [if_pos (by rw [bits] at hb; rw [← hb, h2]), h2]; simp

end C88

/-- C88: two binary lists with the same transform are equal. -/
theorem C88_injective (n : Nat) (t u : List Nat) (hl : t.length = 2 ^ n) (hl' : u.length = 2 ^ n)
    (ht : ∀ v ∈ t, v < 2) (hu : ∀ v ∈ u, v < 2) (h : walshTransform t = walshTransform u) : t = u := by
  obtain ⟨ws, h1, h2⟩ := C88_inversion n t hl ht
  obtain ⟨ws', h1', h2'⟩ := C88_inversion n u hl' hu
  rw [h, h1'] at h1
  injection h1 with h1
  subst h1
  refine List.ext_getElem (by rw [hl, hl']) fun x hx hx' => ?_
  have h3 := (h2 x (by omega)).symm.trans (h2' x (by omega))
  rw [List.getD_eq_getElem _ _ hx, List.getD_eq_getElem _ _ hx'] at h3
  have h4 : (-1 : Int) ^ t[x] = (-1) ^ u[x] := mul_left_cancel₀ (by positivity) h3
  have a1 := ht _ (List.getElem_mem hx)
  have a2 := hu _ (List.getElem_mem hx')
  generalize t[x] = a at *
  generalize u[x] = b at *
  have : a = 0 ∨ a = 1 := by omega
  have : b = 0 ∨ b = 1 := by omega
  rcases ‹a = 0 ∨ a = 1› with rfl | rfl <;> rcases ‹b = 0 ∨ b = 1› with rfl | rfl <;>
    first | rfl | (exact absurd h4 (by decide))

/-- The list `(1,1,0,1,0,1,1,1)` of the file. -/
example : [1, 1, 0, 1, 0, 1, 1, 1].length = 2 ^ 3 ∧ ∀ v ∈ [1, 1, 0, 1, 0, 1, 1, 1], v < 2 := by decide

/-! ### C89 -/

section C89
variable (n : Nat) (t : List Nat) (hl : t.length = 2 ^ n) (ht : ∀ v ∈ t, v < 2)

theorem natAbs_bound (n d : Nat) (hd : d ≤ 2 ^ n) :
    2 ^ n ≤ 2 * d + ((2 : Int) ^ n - 2 * d).natAbs ∧ 2 ^ n ≤ 2 * (2 ^ n - d) + ((2 : Int) ^ n - 2 * d).natAbs := by
  have : ((2 : Int) ^ n) = ((2 ^ n : Nat) : Int) := by push_cast; rfl
  rw [this]
  generalize 2 ^ n = N at *
  omega

include ht in
/-- The non-linearity from the maximum of the transform. -/
theorem nonlin_of_max (M : Nat) (h1 : ∀ w < 2 ^ n, (wht n (signs t) w).natAbs ≤ M)
    (h2 : ∃ w < 2 ^ n, (wht n (signs t) w).natAbs = M) : 2 * nonlin n (ofTable t) + M = 2 ^ n := by
  set T := {d | ∃ S c, d = distance n (ofTable t) (affine S c)} with hT
  have hne : T.Nonempty := ⟨_, ∅, false, rfl⟩
  apply le_antisymm
  · obtain ⟨w, hw, hM⟩ := h2
    have hd := wht_distance ht (n := n) w
    rw [hd] at hM
    have hle := distance_le n (ofTable t) (linear (bits n w))
    obtain ⟨a1, a2⟩ := distance_affine n (ofTable t) (bits n w)
    have b1 : nonlin n (ofTable t) ≤ distance n (ofTable t) (affine (bits n w) false) := Nat.sInf_le ⟨_, _, rfl⟩
    have b2 : nonlin n (ofTable t) ≤ distance n (ofTable t) (affine (bits n w) true) := Nat.sInf_le ⟨_, _, rfl⟩
    have : ((2 : Int) ^ n) = ((2 ^ n : Nat) : Int) := by push_cast; rfl
    rw [this] at hM
    omega
  · obtain ⟨S, c, hS⟩ := Nat.sInf_mem hne
    have hS : nonlin n (ofTable t) = distance n (ofTable t) (affine S c) := hS
    rw [hS]
    obtain ⟨w, hw, he⟩ := exists_mask n S
    have hd := wht_distance ht (n := n) w
    have hM := h1 w hw
    rw [hd] at hM
    obtain ⟨a1, a2⟩ := distance_affine n (ofTable t) S
    rw [← distance_congr (f := ofTable t) he] at hM
    have := natAbs_bound n _ (distance_le n (ofTable t) (linear S))
    cases c <;> omega

include hl ht in
theorem nonLinearity_eq : ∃ M : Nat, nonLinearity t = .ok ((((2 ^ n) / 2 : Nat) : ℚ) - 1 / 2 * (M : ℚ)) ∧
    2 * nonlin n (ofTable t) + M = 2 ^ n ∧ (∀ w < 2 ^ n, (wht n (signs t) w).natAbs ≤ M) := by
  set l := ((List.range (2 ^ n)).map (wht n (signs t))).map Int.natAbs with hL
  obtain ⟨h1, h2, h3⟩ := foldl_max_spec l 0
  have hle : ∀ w < 2 ^ n, (wht n (signs t) w).natAbs ≤ l.foldl max 0 := by
    intro w hw
    refine h1 _ ?_
    rw [hL, List.map_map]
    exact List.mem_map.mpr ⟨w, List.mem_range.mpr hw, rfl⟩
  refine ⟨l.foldl max 0, ?_, nonlin_of_max n t ht _ hle ?_, hle⟩
  · rw [nonLinearity, walshTransform_eq n t hl ht, hl]; rfl
  · rcases h3 with h3 | h3
    · refine ⟨0, by positivity, ?_⟩
      have := hle 0 (by positivity)
      omega
    · rw [hL, List.map_map] at h3
      obtain ⟨w, hw, he⟩ := List.mem_map.mp h3
      exact ⟨w, List.mem_range.mp hw, by rw [hL, List.map_map]; exact he⟩

include hl ht in
/-- C89: for `n ≥ 1` the result is the least Hamming distance of the list to an affine Boolean function. -/
theorem C89_nonlinearity (hn : 1 ≤ n) : nonLinearity t = .ok (nonlin n (ofTable t) : ℚ) := by
  obtain ⟨M, h1, h2, -⟩ := nonLinearity_eq n t hl ht
  rw [h1]
  congr 1
  obtain ⟨m, rfl⟩ : ∃ m, n = m + 1 := ⟨n - 1, by omega⟩
  have h3 : (2 * (nonlin (m + 1) (ofTable t) : ℚ) + M) = 2 ^ m * 2 := by
    rw [← pow_succ]; exact_mod_cast h2
  rw [pow_succ, Nat.mul_div_cancel _ (by norm_num)]
  push_cast
  linarith
example := C89_nonlinearity 3 [1, 1, 0, 1, 0, 1, 1, 1] rfl (by decide) (by decide)

include hl ht in
/-- C89: the covering radius bound. -/
theorem C89_bound : (nonlin n (ofTable t) : ℝ) ≤ 2 ^ n / 2 - Real.sqrt (2 ^ n) / 2 := by
  obtain ⟨M, -, h2, h3⟩ := nonLinearity_eq n t hl ht
  have hp := wht_parseval n (signs t) fun x _ => signs_sq t x
  have hle : (∑ w ∈ Finset.range (2 ^ n), wht n (signs t) w ^ 2) ≤ ∑ w ∈ Finset.range (2 ^ n), (M : Int) ^ 2 := by
    refine Finset.sum_le_sum fun w hw => ?_
    have := h3 w (Finset.mem_range.mp hw)
    rw [← Int.natAbs_sq (wht n (signs t) w)]
    exact pow_le_pow_left₀ (by positivity) (by exact_mod_cast this) 2
  rw [hp, Finset.sum_const, Finset.card_range, nsmul_eq_mul] at hle
  have h4 : (2 : Int) ^ n ≤ (M : Int) ^ 2 := by
    have e : (4 : Int) ^ n = 2 ^ n * 2 ^ n := by rw [← mul_pow]; norm_num
    rw [e] at hle
    push_cast at hle
    exact le_of_mul_le_mul_left hle (by positivity)
  have h5 : (2 : ℝ) ^ n ≤ (M : ℝ) ^ 2 := by exact_mod_cast h4
  have h6 : Real.sqrt (2 ^ n) ≤ M := Real.sqrt_le_iff.mpr ⟨by positivity, h5⟩
  have h7 : 2 * (nonlin n (ofTable t) : ℝ) + M = 2 ^ n := by exact_mod_cast h2
  linarith

/-- C89: a list of one entry gives -1/2: there the distance is 0 and `len(t)/2` rounds. -/
theorem C89_one (v : Nat) (hv : v < 2) : nonLinearity [v] = .ok (-(1 / 2) : ℚ) ∧ nonlin 0 (ofTable [v]) = 0 := by
  obtain ⟨M, h1, h2, h3⟩ := nonLinearity_eq 0 [v] rfl (by simpa using hv)
  have h4 := h3 0 (by norm_num)
  have h5 : (wht 0 (signs [v]) 0).natAbs = 1 := by
    rw [wht_distance (by simpa using hv)]
    have := distance_le 0 (ofTable [v]) (linear (bits 0 0))
    simp only [pow_zero] at this ⊢
    omega
  have hM : M = 1 := by rw [h5] at h4; simp only [pow_zero] at h2; omega
  subst hM
  refine ⟨?_, by simp only [pow_zero] at h2; omega⟩
  rw [h1]
  norm_num
example := C89_one 1 (by decide)

end C89

end Cryptopy.Props
