import Mathlib.Data.Finset.SymmDiff
import Verif.Props.Sbox

/-!
C120: what leaves the non-linearity unchanged.
-/

namespace Cryptopy.Props
open Model Spec

/-! ### Linear functions -/

private theorem par_bool (m k : Nat) : decide ((m + k) % 2 = 1) = xor (decide (m % 2 = 1)) (decide (k % 2 = 1)) := by
  have hm : m % 2 = 0 ∨ m % 2 = 1 := by omega
  have hk : k % 2 = 0 ∨ k % 2 = 1 := by omega
  rcases hm with hm | hm <;> rcases hk with hk | hk <;> rw [Nat.add_mod, hm, hk] <;> rfl

private theorem linear_symmDiff (S T : Finset Nat) (x : Nat) :
    linear (symmDiff S T) x = xor (linear S x) (linear T x) := by
  rw [linear, linear, linear, ← par_bool]
  have e : (symmDiff S T).filter (fun i => x.testBit i = true) =
      symmDiff (S.filter fun i => x.testBit i = true) (T.filter fun i => x.testBit i = true) := by
    ext i
    simp only [Finset.mem_filter, Finset.mem_symmDiff]
    tauto
  rw [e]
  generalize S.filter (fun i => x.testBit i = true) = A
  generalize T.filter (fun i => x.testBit i = true) = B
  have h1 : (symmDiff A B).card = (A \ B).card + (B \ A).card := by
    rw [symmDiff_def, Finset.sup_eq_union, Finset.card_union_of_disjoint disjoint_sdiff_sdiff]
  have h2 := Finset.card_sdiff_add_card_inter A B
  have h3 := Finset.card_sdiff_add_card_inter B A
  rw [Finset.inter_comm] at h3
  have : (symmDiff A B).card % 2 = (A.card + B.card) % 2 := by omega
  rw [this]

private theorem affine_add (S T : Finset Nat) (c d : Bool) (x : Nat) :
    xor (affine S c x) (affine T d x) = affine (symmDiff S T) (xor c d) x := by
  rw [affine, affine, affine, linear_symmDiff]
  cases c <;> cases d <;> cases linear S x <;> cases linear T x <;> rfl

private theorem linear_testBit (S : Finset Nat) (x y : Nat) : linear S (x ^^^ y) = xor (linear S x) (linear S y) := by
  rw [linear, linear, linear, ← par_bool]
  have e : S.filter (fun i => (x ^^^ y).testBit i = true) =
      symmDiff (S.filter fun i => x.testBit i = true) (S.filter fun i => y.testBit i = true) := by
    ext i
    simp only [Finset.mem_filter, Finset.mem_symmDiff, Nat.testBit_xor]
    cases x.testBit i <;> cases y.testBit i <;> simp
  rw [e]
  generalize S.filter (fun i => x.testBit i = true) = A
  generalize S.filter (fun i => y.testBit i = true) = B
  have h1 : (symmDiff A B).card = (A \ B).card + (B \ A).card := by
    rw [symmDiff_def, Finset.sup_eq_union, Finset.card_union_of_disjoint disjoint_sdiff_sdiff]
  have h2 := Finset.card_sdiff_add_card_inter A B
  have h3 := Finset.card_sdiff_add_card_inter B A
  rw [Finset.inter_comm] at h3
  have : (symmDiff A B).card % 2 = (A.card + B.card) % 2 := by omega
  rw [this]

/-- A function on numbers below `2^n` that respects exclusive or is linear. -/
private theorem additive_linear (n : Nat) (g : Nat → Bool)
    (hg : ∀ x < 2 ^ n, ∀ y < 2 ^ n, g (x ^^^ y) = xor (g x) (g y)) :
    ∀ x < 2 ^ n, g x = linear ((Finset.range n).filter fun i => g (2 ^ i) = true) x := by
  have g0 : g 0 = false := by
    have := hg 0 (by positivity) 0 (by positivity)
    rw [Nat.xor_zero] at this
    cases h : g 0 <;> simp_all
  have key : ∀ m ≤ n, ∀ x < 2 ^ m, g x = linear ((Finset.range n).filter fun i => g (2 ^ i) = true) x := by
    intro m
    induction m with
    | zero =>
      intro _ x hx
      have : x = 0 := by simpa using hx
      subst this
      rw [g0, linear]
      simp
    | succ m ih =>
      intro hm x hx
      by_cases hb : x.testBit m = true
      · have hle : 2 ^ m ≤ x := Nat.ge_two_pow_of_testBit hb
        have hs : x = (x - 2 ^ m) ^^^ 2 ^ m := by
          have : x - 2 ^ m < 2 ^ m := by rw [pow_succ] at hx; omega
          refine Nat.eq_of_testBit_eq fun i => ?_
          obtain ⟨y, rfl⟩ : ∃ y, x = 2 ^ m + y := ⟨x - 2 ^ m, by omega⟩
          rw [show 2 ^ m + y - 2 ^ m = y by omega] at this ⊢
          rw [Nat.testBit_xor, Nat.testBit_two_pow]
          rcases lt_trichotomy i m with h | rfl | h
          · rw [Nat.testBit_two_pow_add_gt h, decide_eq_false (by omega), Bool.xor_false]
          · rw [Nat.testBit_two_pow_add_eq, decide_eq_true rfl, Bool.xor_true]
          · have hp : 2 ^ (m + 1) ≤ 2 ^ i := Nat.pow_le_pow_right (by norm_num) h
            rw [pow_succ] at hp
            rw [Nat.testBit_lt_two_pow (by omega), Nat.testBit_lt_two_pow (by omega), decide_eq_false (by omega)]
            rfl
        have hlt : x - 2 ^ m < 2 ^ m := by rw [pow_succ] at hx; omega
        have hmn : 2 ^ m < 2 ^ n := Nat.pow_lt_pow_right (by norm_num) (by omega)
        rw [hs, hg _ (by omega) _ hmn, linear_testBit, ih (by omega) _ hlt]
        congr 1
        rw [linear]
        have e : ((Finset.range n).filter fun i => g (2 ^ i) = true).filter (fun i => (2 ^ m).testBit i = true) =
            if g (2 ^ m) = true then {m} else ∅ := by
          ext i
          rw [Finset.mem_filter, Finset.mem_filter, Finset.mem_range, Nat.testBit_two_pow]
          split
          · next h =>
            simp only [decide_eq_true_eq, Finset.mem_singleton]
            constructor
            · rintro ⟨-, h⟩; exact h.symm
            · rintro rfl; exact ⟨⟨by omega, h⟩, rfl⟩
          · next h =>
            simp only [decide_eq_true_eq, Finset.notMem_empty, iff_false]
            rintro ⟨⟨-, h1⟩, rfl⟩
            exact h h1
        rw [e]
        cases g (2 ^ m) <;> simp
      · have hlt : x < 2 ^ m := by
          by_contra hge
          refine hb ?_
          rw [Nat.testBit_eq_decide_div_mod_eq]
          have : x / 2 ^ m = 1 := Nat.div_eq_of_lt_le (by omega) (by rw [pow_succ] at hx; omega)
          rw [this]; rfl
        exact ih (by omega) x hlt
  exact key n le_rfl

/-! ### Distances -/

private theorem nonlin_le_of {n : Nat} {f g : Nat → Bool}
    (h : ∀ S c, ∃ S' c', distance n f (affine S' c') ≤ distance n g (affine S c)) : nonlin n f ≤ nonlin n g := by
  have hne : {d | ∃ S c, d = distance n g (affine S c)}.Nonempty := ⟨_, ∅, false, rfl⟩
  obtain ⟨S, c, hS⟩ := Nat.sInf_mem hne
  obtain ⟨S', c', h'⟩ := h S c
  have hS : nonlin n g = distance n g (affine S c) := hS
  rw [hS]
  exact le_trans (Nat.sInf_le ⟨S', c', rfl⟩) h'

private theorem distance_congr_left {n : Nat} {f f' g g' : Nat → Bool} (h : ∀ x < 2 ^ n, f x ≠ g x ↔ f' x ≠ g' x) :
    distance n f g = distance n f' g' := by
  rw [distance, distance]
  congr 1
  exact Finset.filter_congr fun x hx => h x (Finset.mem_range.mp hx)

private theorem distance_triangle (n : Nat) (f g h : Nat → Bool) :
    distance n f h ≤ distance n f g + distance n g h := by
  rw [distance, distance, distance]
  refine le_trans (Finset.card_le_card ?_) (Finset.card_union_le _ _)
  intro x
  simp only [Finset.mem_filter, Finset.mem_union]
  rintro ⟨h1, h2⟩
  by_cases h3 : f x = g x
  · exact .inr ⟨h1, by rw [← h3]; exact h2⟩
  · exact .inl ⟨h1, h3⟩

section
variable (n : Nat) (hn : 1 ≤ n) (t u : List Nat) (hl : t.length = 2 ^ n) (ht : ∀ v ∈ t, v < 2)
  (hl' : u.length = 2 ^ n) (hu : ∀ v ∈ u, v < 2)
include hn hl ht

/-- C120: the non-linearity is 0 exactly for the affine functions. -/
theorem C120_zero_iff :
    nonLinearity t = .ok 0 ↔ ∃ S c, ∀ x < 2 ^ n, ofTable t x = affine S c x := by
  rw [C89_nonlinearity n t hl ht hn]
  have e : (Except.ok ((nonlin n (ofTable t) : Nat) : ℚ) : Py ℚ) = .ok 0 ↔ nonlin n (ofTable t) = 0 := by
    rw [Except.ok.injEq]; exact_mod_cast Iff.rfl
  rw [e]
  have hne : {d | ∃ S c, d = distance n (ofTable t) (affine S c)}.Nonempty := ⟨_, ∅, false, rfl⟩
  have z : ∀ S c, distance n (ofTable t) (affine S c) = 0 ↔ ∀ x < 2 ^ n, ofTable t x = affine S c x := by
    intro S c
    rw [distance, Finset.card_eq_zero, Finset.filter_eq_empty_iff]
    simp
  constructor
  · intro h
    obtain ⟨S, c, hS⟩ := Nat.sInf_mem hne
    have hS : nonlin n (ofTable t) = distance n (ofTable t) (affine S c) := hS
    exact ⟨S, c, (z S c).mp (by omega)⟩
  · rintro ⟨S, c, h⟩
    have : nonlin n (ofTable t) ≤ distance n (ofTable t) (affine S c) := Nat.sInf_le ⟨S, c, rfl⟩
    rw [(z S c).mpr h] at this
    omega

include hl' hu

/-- C120: adding an affine function, in particular complementing the list, leaves the result as it is. -/
theorem C120_affine (S : Finset Nat) (c : Bool) (h : ∀ x < 2 ^ n, ofTable u x = xor (ofTable t x) (affine S c x)) :
    nonLinearity u = nonLinearity t := by
  rw [C89_nonlinearity n t hl ht hn, C89_nonlinearity n u hl' hu hn]
  have key : ∀ {f g : Nat → Bool}, (∀ x < 2 ^ n, f x = xor (g x) (affine S c x)) → nonlin n f ≤ nonlin n g := by
    intro f g h
    refine nonlin_le_of fun S' c' => ⟨symmDiff S' S, xor c' c, le_of_eq (distance_congr_left fun x hx => ?_)⟩
    rw [h x hx, ← affine_add]
    cases g x <;> cases affine S c x <;> cases affine S' c' x <;> simp
  rw [le_antisymm (key h) (key fun x hx => by rw [h x hx, Bool.xor_assoc, Bool.xor_self, Bool.xor_false])]

/-- C120: an invertible affine change of the input bits, `x ↦ π x ⊕ a`, leaves the result as it is. -/
theorem C120_input (π ρ : Nat → Nat) (a : Nat) (ha : a < 2 ^ n) (h1 : ∀ x < 2 ^ n, π x < 2 ^ n ∧ ρ (π x) = x)
    (h2 : ∀ x < 2 ^ n, ρ x < 2 ^ n ∧ π (ρ x) = x)
    (hx : ∀ x < 2 ^ n, ∀ y < 2 ^ n, π (x ^^^ y) = π x ^^^ π y)
    (h : ∀ x < 2 ^ n, ofTable u x = ofTable t (π x ^^^ a)) : nonLinearity u = nonLinearity t := by
  rw [C89_nonlinearity n t hl ht hn, C89_nonlinearity n u hl' hu hn]
  have hρ : ∀ x < 2 ^ n, ∀ y < 2 ^ n, ρ (x ^^^ y) = ρ x ^^^ ρ y := by
    intro x hx' y hy'
    have hxy := Nat.xor_lt_two_pow (h2 x hx').1 (h2 y hy').1
    rw [← (h1 _ hxy).2, hx _ (h2 x hx').1 _ (h2 y hy').1, (h2 x hx').2, (h2 y hy').2]
  have key : ∀ (π ρ : Nat → Nat) (a : Nat), a < 2 ^ n → (∀ x < 2 ^ n, π x < 2 ^ n ∧ ρ (π x) = x) →
      (∀ x < 2 ^ n, ρ x < 2 ^ n ∧ π (ρ x) = x) → (∀ x < 2 ^ n, ∀ y < 2 ^ n, π (x ^^^ y) = π x ^^^ π y) →
      ∀ f g : Nat → Bool, (∀ x < 2 ^ n, f x = g (π x ^^^ a)) → nonlin n f ≤ nonlin n g := by
    intro π ρ a ha h1 h2 hx f g h
    refine nonlin_le_of fun S c => ?_
    refine ⟨(Finset.range n).filter fun i => linear S (π (2 ^ i)) = true, xor c (linear S a), le_of_eq ?_⟩
    have hlin : ∀ x < 2 ^ n, affine ((Finset.range n).filter fun i => linear S (π (2 ^ i)) = true) (xor c (linear S a)) x =
        affine S c (π x ^^^ a) := by
      intro x hx'
      rw [affine, ← additive_linear n (fun x => linear S (π x)) (fun x hx1 y hy1 => by
        rw [hx x hx1 y hy1, linear_testBit]) x hx', affine, linear_testBit]
      cases c <;> cases linear S a <;> cases linear S (π x) <;> rfl
    rw [distance, distance]
    refine Finset.card_bij' (fun x _ => π x ^^^ a) (fun y _ => ρ (y ^^^ a)) ?_ ?_ ?_ ?_
    · intro x hx'
      rw [Finset.mem_filter, Finset.mem_range] at hx' ⊢
      refine ⟨Nat.xor_lt_two_pow (h1 x hx'.1).1 ha, ?_⟩
      rw [← h x hx'.1, ← hlin x hx'.1]
      exact hx'.2
    · intro y hy
      rw [Finset.mem_filter, Finset.mem_range] at hy ⊢
      have hya := Nat.xor_lt_two_pow hy.1 ha
      refine ⟨(h2 _ hya).1, ?_⟩
      rw [h _ (h2 _ hya).1, hlin _ (h2 _ hya).1, (h2 _ hya).2, Nat.xor_assoc, Nat.xor_self, Nat.xor_zero]
      exact hy.2
    · intro x hx'
      rw [Finset.mem_filter, Finset.mem_range] at hx'
      rw [Nat.xor_assoc, Nat.xor_self, Nat.xor_zero, (h1 x hx'.1).2]
    · intro y hy
      rw [Finset.mem_filter, Finset.mem_range] at hy
      rw [(h2 _ (Nat.xor_lt_two_pow hy.1 ha)).2, Nat.xor_assoc, Nat.xor_self, Nat.xor_zero]
  have e1 := key π ρ a ha h1 h2 hx _ _ h
  have e2 := key ρ π (ρ a) (h2 a ha).1 h2 h1 hρ (ofTable t) (ofTable u) (fun x hx' => by
    have hxa := Nat.xor_lt_two_pow (h2 x hx').1 (h2 a ha).1
    rw [h _ hxa, hx _ (h2 x hx').1 _ (h2 a ha).1, (h2 x hx').2, (h2 a ha).2, Nat.xor_assoc, Nat.xor_self, Nat.xor_zero])
  rw [le_antisymm e1 e2]

/-- C120: changing `k` entries of the list changes the result by at most `k`. -/
theorem C120_lipschitz (k : Nat) (h : ((Finset.range (2 ^ n)).filter fun x => t.getD x 0 ≠ u.getD x 0).card ≤ k) :
    ∃ a b : ℚ, nonLinearity t = .ok a ∧ nonLinearity u = .ok b ∧ |a - b| ≤ k := by
  refine ⟨_, _, C89_nonlinearity n t hl ht hn, C89_nonlinearity n u hl' hu hn, ?_⟩
  have hd : distance n (ofTable t) (ofTable u) ≤ k := by
    refine le_trans (Finset.card_le_card fun x hx => ?_) h
    rw [Finset.mem_filter] at hx ⊢
    obtain ⟨h1, h2⟩ := hx
    rw [ofTable, ofTable] at h2
    exact ⟨h1, fun h3 => h2 (by rw [h3])⟩
  have hd' : distance n (ofTable u) (ofTable t) ≤ k := by
    rw [distance_congr_left (f' := ofTable t) (g' := ofTable u) fun x _ => ne_comm]; exact hd
  have step : ∀ {f g : Nat → Bool}, distance n f g ≤ k → nonlin n f ≤ nonlin n g + k := by
    intro f g hfg
    have hne : {d | ∃ S c, d = distance n g (affine S c)}.Nonempty := ⟨_, ∅, false, rfl⟩
    obtain ⟨S, c, hS⟩ := Nat.sInf_mem hne
    have hS : nonlin n g = distance n g (affine S c) := hS
    have h1 : nonlin n f ≤ distance n f (affine S c) := Nat.sInf_le ⟨S, c, rfl⟩
    have := distance_triangle n f g (affine S c)
    omega
  have a1 := step hd
  have a2 := step hd'
  rw [abs_le]
  constructor
  · have : ((nonlin n (ofTable u) : Nat) : ℚ) ≤ (nonlin n (ofTable t) : Nat) + k := by exact_mod_cast a2
    linarith
  · have : ((nonlin n (ofTable t) : Nat) : ℚ) ≤ (nonlin n (ofTable u) : Nat) + k := by exact_mod_cast a1
    linarith
example := C120_lipschitz 2 (by decide) [0, 1, 1, 0] [0, 1, 1, 1] rfl (by decide) rfl (by decide) 1 (by decide)

end

/-! ### Inverse tables -/

theorem linear_balanced (n : Nat) (S : Finset Nat) (hS : S ⊆ Finset.range n) (hne : S.Nonempty) (c : Bool) :
    2 * ((Finset.range (2 ^ n)).filter fun x => linear S x ≠ c).card = 2 ^ n := by
  obtain ⟨i, hi⟩ := hne
  have hin := Finset.mem_range.mp (hS hi)
  have hlt : 2 ^ i < 2 ^ n := Nat.pow_lt_pow_right (by norm_num) hin
  have hone : linear S (2 ^ i) = true := by
    rw [linear]
    have : S.filter (fun j => (2 ^ i).testBit j = true) = {i} := by
      ext j
      rw [Finset.mem_filter, Nat.testBit_two_pow, decide_eq_true_eq, Finset.mem_singleton]
      constructor
      · rintro ⟨-, h⟩; exact h.symm
      · rintro rfl; exact ⟨hi, rfl⟩
    rw [this]; rfl
  have hbij : ((Finset.range (2 ^ n)).filter fun x => linear S x ≠ c).card =
      ((Finset.range (2 ^ n)).filter fun x => ¬ linear S x ≠ c).card := by
    refine Finset.card_bij' (fun x _ => x ^^^ 2 ^ i) (fun x _ => x ^^^ 2 ^ i) ?_ ?_ ?_ ?_
    · intro x hx
      rw [Finset.mem_filter, Finset.mem_range] at hx ⊢
      refine ⟨Nat.xor_lt_two_pow hx.1 hlt, ?_⟩
      rw [linear_testBit, hone]
      have := hx.2
      cases h : linear S x <;> cases c <;> simp_all
    · intro x hx
      rw [Finset.mem_filter, Finset.mem_range] at hx ⊢
      refine ⟨Nat.xor_lt_two_pow hx.1 hlt, ?_⟩
      rw [linear_testBit, hone]
      have := hx.2
      cases h : linear S x <;> cases c <;> simp_all
    · intro x _
      rw [Nat.xor_assoc, Nat.xor_self, Nat.xor_zero]
    · intro x _
      rw [Nat.xor_assoc, Nat.xor_self, Nat.xor_zero]
  have := Finset.card_filter_add_card_filter_not (s := Finset.range (2 ^ n)) (fun x => linear S x ≠ c)
  rw [Finset.card_range] at this
  omega

/-- Two lists are tables of mutually inverse permutations of the numbers below `2^n`. -/
def InverseTables (n : Nat) (s r : List Nat) : Prop :=
  s.length = 2 ^ n ∧ r.length = 2 ^ n ∧ (∀ x < 2 ^ n, s.getD x 0 < 2 ^ n ∧ r.getD (s.getD x 0) 0 = x) ∧
    ∀ y < 2 ^ n, r.getD y 0 < 2 ^ n ∧ s.getD (r.getD y 0) 0 = y

theorem InverseTables.symm {n : Nat} {s r : List Nat} (h : InverseTables n s r) : InverseTables n r s :=
  ⟨h.2.1, h.1, h.2.2.2, h.2.2.1⟩

theorem distance_inverse {n : Nat} {s r : List Nat} (h : InverseTables n s r) (f g : Nat → Bool) :
    distance n (fun x => f (s.getD x 0)) g = distance n (fun y => g (r.getD y 0)) f := by
  obtain ⟨-, -, h1, h2⟩ := h
  rw [distance, distance]
  refine Finset.card_bij' (fun x _ => s.getD x 0) (fun y _ => r.getD y 0) ?_ ?_ ?_ ?_
  · intro x hx
    rw [Finset.mem_filter, Finset.mem_range] at hx ⊢
    exact ⟨(h1 x hx.1).1, by rw [(h1 x hx.1).2]; exact hx.2.symm⟩
  · intro y hy
    rw [Finset.mem_filter, Finset.mem_range] at hy ⊢
    exact ⟨(h2 y hy.1).1, by rw [(h2 y hy.1).2]; exact hy.2.symm⟩
  · intro x hx
    rw [Finset.mem_filter, Finset.mem_range] at hx
    exact (h1 x hx.1).2
  · intro y hy
    rw [Finset.mem_filter, Finset.mem_range] at hy
    exact (h2 y hy.1).2

private theorem component_inverse {n : Nat} {s r : List Nat} (h : InverseTables n s r) (lo : Nat)
    (hlo : ∀ S ⊆ Finset.range n, S.Nonempty → lo ≤ component n s S) (T : Finset Nat) (hT : T ⊆ Finset.range n)
    (hne : T.Nonempty) : lo ≤ component n r T := by
  have hbal : ∀ c : Bool, 2 * distance n (fun y => linear T (r.getD y 0)) (fun _ => c) = 2 ^ n := by
    intro c
    rw [distance_inverse h.symm, distance]
    refine Eq.trans ?_ (linear_balanced n T hT hne c)
    congr 2
    exact Finset.filter_congr fun x _ => ne_comm
  have hbal' : ∀ c : Bool, 2 * distance n (fun y => linear T (s.getD y 0)) (fun _ => c) = 2 ^ n := by
    intro c
    rw [distance_inverse h, distance]
    refine Eq.trans ?_ (linear_balanced n T hT hne c)
    congr 2
    exact Finset.filter_congr fun x _ => ne_comm
  have hany : ∀ S ⊆ Finset.range n, S.Nonempty → ∀ U c, lo ≤ distance n (fun x => linear S (s.getD x 0)) (affine U c) :=
    fun S h1 h2 U c => le_trans (hlo S h1 h2) (Nat.sInf_le ⟨U, c, rfl⟩)
  have hconst : ∀ c : Bool, ∀ x, affine ∅ c x = c := by
    intro c x; rw [affine, linear]; simp
  have hmem : {d | ∃ U c, d = distance n (fun y => linear T (r.getD y 0)) (affine U c)}.Nonempty := ⟨_, ∅, false, rfl⟩
  obtain ⟨U, c, hU⟩ := Nat.sInf_mem hmem
  have hU : component n r T = distance n (fun y => linear T (r.getD y 0)) (affine U c) := hU
  rw [hU]
  obtain ⟨w, hw, hwU⟩ := exists_mask n U
  have e : distance n (fun y => linear T (r.getD y 0)) (affine U c) =
      distance n (fun y => linear T (r.getD y 0)) (affine (bits n w) c) :=
    distance_congr fun x hx => by rw [affine, affine, hwU x hx]
  rw [e]
  by_cases hw0 : w = 0
  · have hb : bits n w = ∅ := by rw [hw0, bits]; simp
    rw [hb]
    have e1 := hbal c
    have e2 := hbal' false
    have e3 := hany T hT hne ∅ false
    rw [show affine ∅ false = fun _ => false from funext (hconst false)] at e3
    rw [show affine ∅ c = fun _ => c from funext (hconst c)]
    omega
  · obtain ⟨b1, b2⟩ := (masks n (bits n w)).mpr ⟨w, by omega, hw, rfl⟩
    have e1 : distance n (fun y => linear T (r.getD y 0)) (affine (bits n w) c) =
        distance n (fun x => linear (bits n w) (s.getD x 0)) (affine T c) := by
      rw [distance_inverse h.symm]
      refine distance_congr_left fun x _ => ?_
      rw [affine, affine]
      cases c <;> cases linear (bits n w) (s.getD x 0) <;> cases linear T x <;> simp
    rw [e1]
    exact hany _ b1 b2 _ _

/-- C120: for an invertible table the least non-linearity is that of the inverse table. -/
theorem C120_inverse (n : Nat) (hn : 1 ≤ n) (s r : List Nat) (h : InverseTables n s r) :
    ∃ lo hi hi' : ℚ, sboxNonlinearity s = .ok (lo, hi) ∧ sboxNonlinearity r = .ok (lo, hi') := by
  obtain ⟨lo, hi, e, ⟨⟨S, s1, s2, s3⟩, l2⟩, -⟩ := C94_sbox n hn s h.1
  obtain ⟨lo', hi', e', ⟨⟨S', s1', s2', s3'⟩, l2'⟩, -⟩ := C94_sbox n hn r h.2.1
  have a := component_inverse h lo (fun T t1 t2 => l2 ⟨T, t1, t2, rfl⟩) S' s1' s2'
  have b := component_inverse h.symm lo' (fun T t1 t2 => l2' ⟨T, t1, t2, rfl⟩) S s1 s2
  have : lo = lo' := by omega
  subst this
  exact ⟨lo, hi, hi', e, e'⟩

example : InverseTables 8 aesSbox ((List.range 256).map fun y => aesSbox.idxOf y) := by
  refine ⟨by decide +kernel, by decide +kernel, ?_, ?_⟩ <;> decide +kernel

/-- The inverse AES table has the least non-linearity 112 as well. -/
example : ∃ hi', sboxNonlinearity ((List.range 256).map fun y => aesSbox.idxOf y) = .ok (112, hi') := by
  obtain ⟨a, b, c, e1, e2⟩ := C120_inverse 8 (by norm_num) aesSbox ((List.range 256).map fun y => aesSbox.idxOf y)
    ⟨by decide +kernel, by decide +kernel, by decide +kernel, by decide +kernel⟩
  rw [C94_aes] at e1
  cases e1
  exact ⟨c, e2⟩

/-- The bent function `x₀x₁ ⊕ x₂x₃` and its complement, and the same function of the bits in reversed order. -/
example : nonLinearity [1,1,1,0,1,1,1,0,1,1,1,0,0,0,0,1] = nonLinearity [0,0,0,1,0,0,0,1,0,0,0,1,1,1,1,0] :=
  C120_affine 4 (by norm_num) _ _ rfl (by decide) rfl (by decide) ∅ true (by decide)

/-- The same function after `x ↦ (x₀, x₁ ⊕ x₀, x₂, x₃) ⊕ 5`. -/
example : nonLinearity ((List.range 16).map fun x =>
      [0,0,0,1,0,0,0,1,0,0,0,1,1,1,1,0].getD (x ^^^ (2 * (x % 2)) ^^^ 5) 0) =
    nonLinearity [0,0,0,1,0,0,0,1,0,0,0,1,1,1,1,0] :=
  C120_input 4 (by norm_num) _ _ rfl (by decide) rfl (by decide) (fun x => x ^^^ (2 * (x % 2)))
    (fun x => x ^^^ (2 * (x % 2))) 5 (by norm_num) (by decide +kernel) (by decide +kernel) (by decide +kernel)
    (by decide +kernel)

/-- An affine list has non-linearity 0. -/
example : nonLinearity [0,1,1,0] = .ok 0 :=
  (C120_zero_iff 2 (by norm_num) _ rfl (by decide)).mpr ⟨{0, 1}, false, by decide⟩

end Cryptopy.Props
