import Mathlib.Combinatorics.Additive.CauchyDavenport
import Mathlib.Data.ZMod.Basic
import Mathlib.Tactic.LinearCombination
import Mathlib.Algebra.Field.ZMod
import Mathlib.Tactic.Ring
import Mathlib.Tactic.Linarith
import Mathlib.Tactic.Push
import Mathlib.Algebra.Order.BigOperators.Group.Finset

/-!
Sums of two coordinates: if each of 96 terms adds `a` times a given vector of a plane over the field of `q` elements, `a` from a set of
about `q / 4` elements, and consecutive vectors are independent, then every vector of the plane is such a sum.  Used for C184.
-/

namespace Cryptopy.TwoSums

open scoped Pointwise

variable {q : Nat} [Fact q.Prime]

/-- The second coordinates of the points of `S` with first coordinate `x`. -/
def col (S : Finset (ZMod q × ZMod q)) (x : ZMod q) : Finset (ZMod q) := Finset.univ.filter fun y => (x, y) ∈ S

theorem mem_col {S : Finset (ZMod q × ZMod q)} {x y : ZMod q} : y ∈ col S x ↔ (x, y) ∈ S := by simp [col]

theorem card_eq_sum_col (S : Finset (ZMod q × ZMod q)) : S.card = ∑ x, (col S x).card := by
  classical
  rw [Finset.card_eq_sum_card_fiberwise (f := Prod.fst) (t := Finset.univ) fun _ _ => Finset.mem_univ _]
  refine Finset.sum_congr rfl fun x _ => ?_
  refine Finset.card_bij' (fun p _ => p.2) (fun y _ => (x, y)) ?_ ?_ ?_ ?_
  · rintro ⟨a, b⟩ h
    simp only [Finset.mem_filter] at h
    obtain ⟨h, rfl⟩ := h
    exact mem_col.mpr h
  · intro y hy
    simp only [Finset.mem_filter, and_true]
    exact mem_col.mp hy
  · rintro ⟨a, b⟩ h
    simp only [Finset.mem_filter] at h
    simp [h.2]
  · intro y _; rfl

/-- `B` added to the second coordinates. -/
def up (S : Finset (ZMod q × ZMod q)) (B : Finset (ZMod q)) : Finset (ZMod q × ZMod q) :=
  Finset.image₂ (fun s b => (s.1, s.2 + b)) S B

theorem col_up (S : Finset (ZMod q × ZMod q)) (B : Finset (ZMod q)) (x : ZMod q) : col (up S B) x = col S x + B := by
  ext y
  rw [mem_col, up, Finset.mem_image₂, Finset.mem_add]
  constructor
  · rintro ⟨⟨a, b⟩, hs, c, hc, e⟩
    obtain ⟨rfl, rfl⟩ := Prod.mk.inj e
    exact ⟨b, mem_col.mpr hs, c, hc, rfl⟩
  · rintro ⟨b, hb, c, hc, rfl⟩
    exact ⟨(x, b), mem_col.mp hb, c, hc, rfl⟩

/-- The points with coordinates exchanged. -/
def flip (S : Finset (ZMod q × ZMod q)) : Finset (ZMod q × ZMod q) := S.map (Equiv.prodComm _ _).toEmbedding

omit [Fact q.Prime] in
theorem card_flip (S : Finset (ZMod q × ZMod q)) : (flip S).card = S.card := Finset.card_map _

omit [Fact q.Prime] in
theorem mem_flip {S : Finset (ZMod q × ZMod q)} {x y : ZMod q} : (x, y) ∈ flip S ↔ (y, x) ∈ S := by
  simp [flip]

/-- The first coordinates that occur. -/
def used (S : Finset (ZMod q × ZMod q)) : Finset (ZMod q) := Finset.univ.filter fun x => (col S x).Nonempty

theorem col_subset_used (S : Finset (ZMod q × ZMod q)) (x : ZMod q) : col S x ⊆ used (flip S) := by
  intro y hy
  simp only [used, Finset.mem_filter, Finset.mem_univ, true_and]
  exact ⟨x, mem_col.mpr (mem_flip.mpr (mem_col.mp hy))⟩

theorem used_up (S : Finset (ZMod q × ZMod q)) (B : Finset (ZMod q)) (hB : B.Nonempty) : used (up S B) = used S := by
  ext x
  simp only [used, Finset.mem_filter, Finset.mem_univ, true_and, col_up, Finset.add_nonempty]
  exact ⟨fun h => h.1, fun h => ⟨h, hB⟩⟩

/-- Each used column with room for `N - 1` more elements gets that many. -/
theorem card_up (S : Finset (ZMod q × ZMod q)) (B : Finset (ZMod q)) (N : Nat) (hN : 1 ≤ N) (hB : B.card = N)
    (L : Finset (ZMod q)) (hL : L ⊆ used S) (hs : ∀ x ∈ L, (col S x).card + (N - 1) ≤ q) :
    S.card + L.card * (N - 1) ≤ (up S B).card := by
  classical
  have hp : q.Prime := Fact.out
  have hBn : B.Nonempty := by rw [← Finset.card_pos]; omega
  rw [card_eq_sum_col S, card_eq_sum_col (up S B), ← smul_eq_mul, ← Finset.sum_const,
    ← Finset.sum_subset (Finset.subset_univ L) (f := fun x => if x ∈ L then N - 1 else 0)
      (fun x _ hx => if_neg hx) |>.symm.trans (Finset.sum_congr rfl fun x hx => if_pos hx) |>.symm.symm,
    ← Finset.sum_add_distrib]
  refine Finset.sum_le_sum fun x _ => ?_
  rw [col_up]
  by_cases hx : x ∈ L
  · rw [if_pos hx]
    have hne : (col S x).Nonempty := (Finset.mem_filter.mp (hL hx)).2
    have := ZMod.cauchy_davenport hp hne hBn
    have := hs x hx
    omega
  · rw [if_neg hx, Nat.add_zero]
    exact Finset.card_le_card_add_right hBn

theorem card_le_up (S : Finset (ZMod q × ZMod q)) (B : Finset (ZMod q)) (hB : B.Nonempty) : S.card ≤ (up S B).card := by
  have := card_up S B B.card (Finset.card_pos.mpr hB) rfl ∅ (Finset.empty_subset _) (by simp)
  simpa using this

/-- One step upwards and one sideways add a fixed part of the plane, until half of it is reached. -/
theorem grid (S : Finset (ZMod q × ZMod q)) (hS : S.Nonempty) (A B : Finset (ZMod q)) (N : Nat) (hN : 2 ≤ N) (hq : q + 5 = 4 * N)
    (hA : A.card = N) (hB : B.card = N) :
    q ^ 2 < 2 * (up (flip (up S B)) A).card ∨ 12 * S.card + q * (N - 1) ≤ 12 * (up (flip (up S B)) A).card := by
  classical
  have hAn : A.Nonempty := by rw [← Finset.card_pos]; omega
  have hBn : B.Nonempty := by rw [← Finset.card_pos]; omega
  have h1 : S.card ≤ (up S B).card := card_le_up S B hBn
  have h2 : (up S B).card ≤ (up (flip (up S B)) A).card := by
    have := card_le_up (flip (up S B)) A hAn
    rwa [card_flip] at this
  obtain ⟨n, rfl⟩ : ∃ n, N = n + 2 := ⟨N - 2, by omega⟩
  obtain rfl : q = 4 * n + 3 := by omega
  simp only [show n + 2 - 1 = n + 1 by omega]
  by_cases hd : ∀ x ∈ used S, (col S x).card + (n + 1) ≤ 4 * n + 3
  · -- all columns have room
    right
    have hT := card_up S B (n + 2) (by omega) hB (used S) (Finset.Subset.refl _) hd
    simp only [show n + 2 - 1 = n + 1 by omega] at hT
    by_cases hr : ∀ y ∈ used (flip (up S B)), (col (flip (up S B)) y).card + (n + 1) ≤ 4 * n + 3
    · have hU := card_up (flip (up S B)) A (n + 2) (by omega) hA _ (Finset.Subset.refl _) hr
      simp only [show n + 2 - 1 = n + 1 by omega] at hU
      rw [card_flip] at hU
      obtain ⟨⟨x, y⟩, hs⟩ := hS
      have hx : (col (up S B) x).Nonempty := by rw [col_up]; exact Finset.Nonempty.add ⟨y, mem_col.mpr hs⟩ hBn
      have hl : n + 2 ≤ (used (flip (up S B))).card := by
        refine le_trans ?_ (Finset.card_le_card (col_subset_used (up S B) x))
        rw [col_up, ← hB]
        exact Finset.card_le_card_add_left ⟨y, mem_col.mpr hs⟩
      nlinarith
    · push Not at hr
      obtain ⟨y, hy, hr⟩ := hr
      have hl := Finset.card_le_card (col_subset_used (flip (up S B)) y)
      have hff : flip (flip (up S B)) = up S B := by
        ext ⟨a, b⟩; rw [mem_flip, mem_flip]
      rw [hff, used_up S B hBn] at hl
      nlinarith
  · push Not at hd
    obtain ⟨x, hx, hd⟩ := hd
    by_cases hh : (4 * n + 3) ^ 2 < 2 * (up (flip (up S B)) A).card
    · exact .inl hh
    right
    -- the rows with room
    have hl : 3 * n + 3 ≤ (used (flip (up S B))).card := by
      refine le_trans ?_ (Finset.card_le_card (col_subset_used (up S B) x))
      rw [col_up]
      exact le_trans (by omega) (Finset.card_le_card_add_right hBn)
    obtain ⟨L, hL⟩ : ∃ L, L = (used (flip (up S B))).filter fun y => (col (flip (up S B)) y).card + (n + 1) ≤ 4 * n + 3 := ⟨_, rfl⟩
    have hU := card_up (flip (up S B)) A (n + 2) (by omega) hA L (by rw [hL]; exact Finset.filter_subset _ _)
      (by intro y hy; rw [hL] at hy; exact (Finset.mem_filter.mp hy).2)
    simp only [show n + 2 - 1 = n + 1 by omega] at hU
    rw [card_flip] at hU
    -- the rows without
    obtain ⟨D, hD⟩ : ∃ D, D = (used (flip (up S B))).filter fun y => ¬ (col (flip (up S B)) y).card + (n + 1) ≤ 4 * n + 3 := ⟨_, rfl⟩
    have hLD : L.card + D.card = (used (flip (up S B))).card := by
      rw [hL, hD]; exact Finset.card_filter_add_card_filter_not _
    have hDs : D.card * (3 * n + 3) ≤ (up S B).card := by
      rw [← card_flip (up S B), card_eq_sum_col, ← smul_eq_mul, ← Finset.sum_const]
      refine le_trans (Finset.sum_le_sum fun y hy => ?_) (Finset.sum_le_sum_of_subset (Finset.subset_univ D))
      rw [hD] at hy
      have := (Finset.mem_filter.mp hy).2
      omega
    have hsum : 2 * (D.card * (3 * n + 3)) ≤ (4 * n + 3) ^ 2 := by omega
    have hm : 4 * n + 3 ≤ 12 * L.card := by
      by_contra hc
      have h3 : 3 * n + 3 - L.card ≤ D.card := by omega
      have h4 : 12 * L.card ≤ 4 * n + 2 := by omega
      have h5 : 32 * n + 34 ≤ 12 * D.card := by omega
      nlinarith
    nlinarith

/-- The sums of `a i` times the vectors `(c i, d i)`, `i < n`, with all `a i` in `I`. -/
def sums (I : Finset (ZMod q)) (c d : Nat → ZMod q) : Nat → Finset (ZMod q × ZMod q)
  | 0 => {(0, 0)}
  | n + 1 => Finset.image₂ (fun s a => (s.1 + a * c n, s.2 + a * d n)) (sums I c d n) I

theorem sums_nonempty (I : Finset (ZMod q)) (hI : I.Nonempty) (c d : Nat → ZMod q) : ∀ n, (sums I c d n).Nonempty
  | 0 => Finset.singleton_nonempty _
  | n + 1 => Finset.Nonempty.image₂ (sums_nonempty I hI c d n) hI

theorem two_more (I : Finset (ZMod q)) (c d : Nat → ZMod q) (N : Nat) (hN : 2 ≤ N) (hq : q + 5 = 4 * N) (hI : I.card = N) (n : Nat)
    (hdet : c n * d (n + 1) - d n * c (n + 1) ≠ 0) :
    q ^ 2 < 2 * (sums I c d (n + 2)).card ∨ 12 * (sums I c d n).card + q * (N - 1) ≤ 12 * (sums I c d (n + 2)).card := by
  classical
  have hIn : I.Nonempty := by rw [← Finset.card_pos]; omega
  obtain ⟨e, he⟩ : ∃ e, e = c n * d (n + 1) - d n * c (n + 1) := ⟨_, rfl⟩
  rw [← he] at hdet
  obtain ⟨T, hT⟩ : ∃ T : ZMod q × ZMod q → ZMod q × ZMod q,
      ∀ s, T s = (s.1 * d n - s.2 * c n, s.1 * d (n + 1) - s.2 * c (n + 1)) := ⟨_, fun _ => rfl⟩
  have hTi : Function.Injective T := by
    rintro ⟨x, y⟩ ⟨x', y'⟩ h
    rw [hT, hT] at h
    obtain ⟨h1, h2⟩ := Prod.mk.inj h
    have hx : e * (x - x') = 0 := by rw [he]; linear_combination c n * h2 - c (n + 1) * h1
    have hy : e * (y - y') = 0 := by rw [he]; linear_combination d n * h2 - d (n + 1) * h1
    rw [sub_eq_zero.mp ((mul_eq_zero.mp hx).resolve_left hdet), sub_eq_zero.mp ((mul_eq_zero.mp hy).resolve_left hdet)]
  have hm : ∀ f : ZMod q, f ≠ 0 → (I.image fun a => a * f).card = N := fun f hf => by
    rw [Finset.card_image_of_injective _ (mul_left_injective₀ hf), hI]
  have hg := grid ((sums I c d n).image T) ((sums_nonempty I hIn c d n).image T) (I.image fun a => a * (-e)) (I.image fun a => a * e)
    N hN hq (hm _ (neg_ne_zero.mpr hdet)) (hm _ hdet)
  rw [Finset.card_image_of_injective _ hTi] at hg
  have hle : (up (flip (up ((sums I c d n).image T) (I.image fun a => a * e))) (I.image fun a => a * (-e))).card ≤
      (sums I c d (n + 2)).card := by
    refine le_trans (Finset.card_le_card (t := (sums I c d (n + 2)).image fun s => ((T s).2, (T s).1)) ?_) Finset.card_image_le
    intro u hu
    obtain ⟨⟨y, x⟩, ht, a, ha, rfl⟩ := Finset.mem_image₂.mp hu
    rw [mem_flip] at ht
    obtain ⟨s, hs, b, hb, e2⟩ := Finset.mem_image₂.mp ht
    obtain ⟨s, hs', rfl⟩ := Finset.mem_image.mp hs
    obtain ⟨b, hb', rfl⟩ := Finset.mem_image.mp hb
    obtain ⟨a, ha', rfl⟩ := Finset.mem_image.mp ha
    obtain ⟨rfl, rfl⟩ := Prod.mk.inj e2
    refine Finset.mem_image.mpr ⟨_, Finset.mem_image₂.mpr ⟨_, Finset.mem_image₂.mpr ⟨s, hs', b, hb', rfl⟩, a, ha', rfl⟩, ?_⟩
    simp only [hT]
    refine Prod.ext ?_ ?_
    · simp only; rw [he]; ring
    · simp only; rw [he]; ring
  omega

theorem half (I : Finset (ZMod q)) (c d : Nat → ZMod q) (N : Nat) (hN : 2 ≤ N) (hq : q + 5 = 4 * N) (hI : I.card = N)
    (hdet : ∀ n, c n * d (n + 1) - d n * c (n + 1) ≠ 0) : q ^ 2 < 2 * (sums I c d 48).card := by
  have h : ∀ k, q ^ 2 < 2 * (sums I c d (2 * k)).card ∨ 12 + k * (q * (N - 1)) ≤ 12 * (sums I c d (2 * k)).card := by
    intro k
    induction k with
    | zero => right; simp [sums]
    | succ k ih =>
      have hs := two_more I c d N hN hq hI (2 * k) (hdet _)
      rw [show 2 * (k + 1) = 2 * k + 2 by ring]
      rcases ih with ih | ih
      · left
        rcases hs with hs | hs
        · exact hs
        · have : 0 ≤ q * (N - 1) := Nat.zero_le _
          omega
      · rcases hs with hs | hs
        · exact .inl hs
        · right
          have : (k + 1) * (q * (N - 1)) = k * (q * (N - 1)) + q * (N - 1) := by ring
          omega
  rcases h 24 with h | h
  · exact h
  · obtain ⟨n, rfl⟩ : ∃ n, N = n + 2 := ⟨N - 2, by omega⟩
    obtain rfl : q = 4 * n + 3 := by omega
    simp only [show n + 2 - 1 = n + 1 by omega] at h
    nlinarith

theorem add_sums (I : Finset (ZMod q)) (c d : Nat → ZMod q) (n m : Nat) (s t : ZMod q × ZMod q) (hs : s ∈ sums I c d n)
    (ht : t ∈ sums I (fun i => c (n + i)) (fun i => d (n + i)) m) : s + t ∈ sums I c d (n + m) := by
  induction m generalizing t with
  | zero =>
    rw [Finset.mem_singleton.mp ht]
    exact (add_zero s).symm ▸ hs
  | succ m ih =>
    obtain ⟨u, hu, a, ha, rfl⟩ := Finset.mem_image₂.mp ht
    refine Finset.mem_image₂.mpr ⟨s + u, ih u hu, a, ha, ?_⟩
    exact Prod.ext (add_assoc _ _ _) (add_assoc _ _ _)

/-- With 96 terms every vector is reached. -/
theorem all (I : Finset (ZMod q)) (c d : Nat → ZMod q) (N : Nat) (hN : 2 ≤ N) (hq : q + 5 = 4 * N) (hI : I.card = N)
    (hdet : ∀ n, c n * d (n + 1) - d n * c (n + 1) ≠ 0) (v : ZMod q × ZMod q) (k : Nat) (hk : k = 48) :
    v ∈ sums I c d (k + k) := by
  classical
  have h1 := half I c d N hN hq hI hdet
  have h2 := half I (fun i => c (k + i)) (fun i => d (k + i)) N hN hq hI fun n => hdet (k + n)
  rw [← hk] at h1 h2
  obtain ⟨B, hB⟩ : ∃ B, B = (sums I (fun i => c (k + i)) (fun i => d (k + i)) k).image fun t => v - t := ⟨_, rfl⟩
  have hBc : B.card = (sums I (fun i => c (k + i)) (fun i => d (k + i)) k).card := by
    rw [hB, Finset.card_image_of_injective _ sub_right_injective]
  have hu : (sums I c d k ∪ B).card ≤ q ^ 2 := by
    refine le_trans (Finset.card_le_univ _) ?_
    rw [Fintype.card_prod, ZMod.card, sq]
  have hi := Finset.card_union_add_card_inter (sums I c d k) B
  have hne : (sums I c d k ∩ B).Nonempty := by
    rw [← Finset.card_pos]
    omega
  obtain ⟨s, hs⟩ := hne
  obtain ⟨h3, h4⟩ := Finset.mem_inter.mp hs
  rw [hB] at h4
  obtain ⟨t, ht, rfl⟩ := Finset.mem_image.mp h4
  have := add_sums I c d k k _ _ h3 ht
  rwa [sub_add_cancel] at this

end Cryptopy.TwoSums
