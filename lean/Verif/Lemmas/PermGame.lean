import Verif.Lemmas.Switch
import Mathlib.Tactic.Linarith
import Mathlib.Tactic.FieldSimp
import Mathlib.Tactic.Push
import Mathlib.Tactic.Positivity
import Mathlib.Data.Nat.Factorial.Basic
import Mathlib.Algebra.BigOperators.Field

/-!
A function made of a public random permutation, a secret starting state and an addition: used for C185 and C187.
-/

namespace Cryptopy.PermGame
open Finset Function Spec Prf

section
variable {Ω S : Type} [Fintype Ω] [Fintype S] [DecidableEq S]

/-- The part of what satisfies `A` that satisfies `E`. -/
noncomputable def pr (A E : Ω → Prop) : ℚ := (cnt fun ω => A ω ∧ E ω : ℕ) / (cnt A : ℕ)

omit [Fintype Ω] in
theorem pr_nonneg (A E : Ω → Prop) : 0 ≤ pr A E := div_nonneg (Nat.cast_nonneg _) (Nat.cast_nonneg _)

theorem pr_le_one (A E : Ω → Prop) : pr A E ≤ 1 :=
  div_le_one_of_le₀ (Nat.cast_le.mpr (cnt_mono fun _ h => h.1)) (Nat.cast_nonneg _)

omit [Fintype Ω] in
theorem pr_congr {A A' E E' : Ω → Prop} (h : ∀ ω, A ω ↔ A' ω) (h' : ∀ ω, A ω → (E ω ↔ E' ω)) : pr A E = pr A' E' := by
  rw [pr, pr, cnt_congr h, cnt_congr (P := fun ω => A ω ∧ E ω) (Q := fun ω => A' ω ∧ E' ω)]
  intro ω
  rw [← h ω]
  exact and_congr_right (h' ω)

omit [Fintype Ω] in
theorem pr_true {A E : Ω → Prop} (hA : cnt A ≠ 0) (h : ∀ ω, E ω) : pr A E = 1 := by
  rw [pr, cnt_congr (Q := A) fun ω => ⟨fun h => h.1, fun h' => ⟨h', h ω⟩⟩]
  exact div_self (Nat.cast_ne_zero.mpr hA)

theorem pr_false {A E : Ω → Prop} (h : ∀ ω, ¬ E ω) : pr A E = 0 := by
  rw [pr, cnt_false fun ω h' => h ω h'.2, Nat.cast_zero, zero_div]

omit [DecidableEq S] in
/-- Averaging over the values of something that has all its values equally often. -/
theorem pr_step (A : Ω → Prop) (v : Ω → S) (T : Finset S) (hT : ∀ ω, A ω → v ω ∈ T) (c : ℕ)
    (hc : ∀ t ∈ T, cnt (fun ω => A ω ∧ v ω = t) = c) (E : Ω → Prop) :
    (T.card : ℚ) * pr A E = ∑ t ∈ T, pr (fun ω => A ω ∧ v ω = t) E := by
  have split (P : Ω → Prop) (hP : ∀ ω, P ω → v ω ∈ T) : cnt P = ∑ t ∈ T, cnt fun ω => P ω ∧ v ω = t := by
    rw [cnt_split P v, ← sum_subset (subset_univ T)]
    intro t _ ht
    exact cnt_false fun ω h => ht (h.2 ▸ hP ω h.1)
  have hA : cnt A = T.card * c := by rw [split A hT, sum_congr rfl hc, sum_const, smul_eq_mul]
  have hE : cnt (fun ω => A ω ∧ E ω) = ∑ t ∈ T, cnt fun ω => (A ω ∧ v ω = t) ∧ E ω := by
    rw [split _ fun ω h => hT ω h.1]
    exact sum_congr rfl fun t _ => cnt_congr fun ω => by tauto
  rw [pr, hA, hE]
  have hR : ∑ t ∈ T, pr (fun ω => A ω ∧ v ω = t) E = ∑ t ∈ T, (cnt fun ω => (A ω ∧ v ω = t) ∧ E ω : ℕ) / (c : ℚ) :=
    sum_congr rfl fun t ht => by rw [pr, hc t ht]
  rw [hR, ← sum_div]
  push_cast
  by_cases h0 : (T.card : ℚ) = 0
  · rw [card_eq_zero.mp (Nat.cast_eq_zero.mp h0)]
    simp
  by_cases hc0 : (c : ℚ) = 0
  · simp [hc0]
  field_simp

theorem cnt_and {X Y : Type} (P : X → Prop) (Q : Y → Prop) :
    cnt (fun p : X × Y => P p.1 ∧ Q p.2) = cnt P * cnt Q := by
  rw [cnt, cnt, cnt, ← Nat.card_prod]
  exact Nat.card_congr ⟨fun p => (⟨p.1.1, p.2.1⟩, ⟨p.1.2, p.2.2⟩), fun p => ⟨(p.1.1, p.2.1), p.1.2, p.2.2⟩,
    fun _ => rfl, fun _ => rfl⟩

end

section
variable {K S : Type} [DecidableEq K]

/-- One question: the keys that stay, the chances after each answer, and what is lost. -/
theorem avg_step (good : Finset K) (T : Finset S) (hT : 0 < T.card) (good' : S → Finset K)
    (hsub : ∀ t ∈ T, good' t ⊆ good) (I : K → S → ℚ) (hI : ∀ k, ∀ t ∈ T, I k t ≤ 1) (i : K → ℚ)
    (hi : ∀ k, (T.card : ℚ) * i k = ∑ t ∈ T, I k t) (R : K → S → ℚ) (r : K → ℚ) (l e : ℚ)
    (hr : ∀ k ∈ good, ∑ t ∈ T with k ∈ good' t, R k t ≤ T.card * r k)
    (ih : ∀ t ∈ T, ∑ k ∈ good' t, I k t ≤ ∑ k ∈ good' t, R k t + l)
    (he : ∑ t ∈ T, ((good \ good' t).card : ℚ) ≤ T.card * e) :
    ∑ k ∈ good, i k ≤ ∑ k ∈ good, r k + (l + e) := by
  have hT' : (0 : ℚ) < T.card := Nat.cast_pos.mpr hT
  refine le_of_mul_le_mul_left ?_ hT'
  have h1 : (T.card : ℚ) * ∑ k ∈ good, i k = ∑ t ∈ T, ∑ k ∈ good, I k t := by
    rw [mul_sum, sum_comm]
    exact sum_congr rfl fun k _ => hi k
  have h2 : ∑ t ∈ T, ∑ k ∈ good, I k t ≤ ∑ t ∈ T, (∑ k ∈ good' t, R k t + l + ((good \ good' t).card : ℚ)) := by
    refine sum_le_sum fun t ht => ?_
    rw [← sum_sdiff (hsub t ht), add_comm]
    refine add_le_add (ih t ht) ?_
    refine (sum_le_card_nsmul _ _ 1 fun k _ => hI k t ht).trans_eq ?_
    rw [nsmul_eq_mul, mul_one]
  have h3 : ∑ t ∈ T, ∑ k ∈ good' t, R k t = ∑ k ∈ good, ∑ t ∈ T with k ∈ good' t, R k t := by
    refine sum_comm' fun t k => ?_
    rw [mem_filter]
    exact ⟨fun h => ⟨⟨h.1, h.2⟩, hsub t h.1 h.2⟩, fun h => h.1⟩
  have h4 : ∑ k ∈ good, ∑ t ∈ T with k ∈ good' t, R k t ≤ ∑ k ∈ good, (T.card : ℚ) * r k := sum_le_sum hr
  rw [sum_add_distrib, sum_add_distrib, sum_const, nsmul_eq_mul, h3] at h2
  rw [← mul_sum] at h4
  rw [h1, mul_add, mul_add]
  linarith

end

section
variable {S : Type} [Fintype S] [DecidableEq S]

/-- No place and no value twice. -/
def Valid (L : List (S × S)) : Prop := (L.map Prod.fst).Nodup ∧ (L.map Prod.snd).Nodup

omit [Fintype S] [DecidableEq S] in
theorem valid_cons (a b : S) (L : List (S × S)) :
    Valid ((a, b) :: L) ↔ Valid L ∧ a ∉ L.map Prod.fst ∧ b ∉ L.map Prod.snd := by
  rw [Valid, Valid, List.map_cons, List.map_cons, List.nodup_cons, List.nodup_cons]
  tauto

omit [Fintype S] [DecidableEq S] in
theorem valid_perm {L L' : List (S × S)} (h : L.Perm L') : Valid L ↔ Valid L' :=
  and_congr (h.map _).nodup_iff (h.map _).nodup_iff

omit [Fintype S] [DecidableEq S] in
theorem agrees_perm {L L' : List (S × S)} (h : L.Perm L') (f : S → S) : Agrees L f ↔ Agrees L' f :=
  ⟨fun hf p hp => hf p (h.mem_iff.mpr hp), fun hf p hp => hf p (h.mem_iff.mp hp)⟩

omit [DecidableEq S] in
theorem length_lt {L : List S} (h : L.Nodup) {a : S} (ha : a ∉ L) : L.length < Fintype.card S :=
  (List.nodup_cons.mpr ⟨ha, h⟩).length_le_card

/-- The places that are free. -/
def free (L : List (S × S)) : Finset S := univ.filter (· ∉ L.map Prod.fst)

theorem card_free (L : List (S × S)) (h : Valid L) : (free L).card = Fintype.card S - L.length := by
  have : free L = univ \ (L.map Prod.fst).toFinset := by
    ext x
    simp [free]
  rw [this, card_sdiff_of_subset (subset_univ _), List.toFinset_card_of_nodup h.1, List.length_map, card_univ]

theorem card_left' (L : List (S × S)) (h : Valid L) : (left L).card = Fintype.card S - L.length := by
  have := card_left L h.2
  omega

/-- The number of permutations with given values depends on the number of the values only. -/
theorem card_agrees (L : List (S × S)) (h : Valid L) :
    cnt (fun π : Equiv.Perm S => Agrees L π) = (Fintype.card S - L.length).factorial := by
  induction L with
  | nil =>
    rw [cnt_congr (Q := fun _ => True) fun π => ⟨fun _ => trivial, fun _ p hp => absurd hp List.not_mem_nil⟩,
      cnt_true, Fintype.card_perm]
    rfl
  | cons p L ih =>
    obtain ⟨a, b⟩ := p
    obtain ⟨hL, ha, hb⟩ := (valid_cons a b L).mp h
    have hlt : L.length < Fintype.card S := by
      rw [← List.length_map (f := Prod.fst)]
      exact length_lt hL.1 ha
    have total : cnt (fun π : Equiv.Perm S => Agrees L π) =
        (left L).card * cnt (fun π : Equiv.Perm S => Agrees ((a, b) :: L) π) := by
      have := perms_cons L a ha fun _ => True
      simp only [and_true] at this
      rw [this, ← smul_eq_mul, ← sum_const]
      exact sum_congr rfl fun y hy => perms_same L a y b (by simpa [left] using hy) hb
    rw [ih hL, card_left' L hL] at total
    rw [List.length_cons]
    obtain ⟨m, hm⟩ : ∃ m, Fintype.card S - L.length = m + 1 := ⟨Fintype.card S - L.length - 1, by omega⟩
    rw [show Fintype.card S - (L.length + 1) = m by omega]
    rw [hm, Nat.factorial_succ] at total
    exact (Nat.eq_of_mul_eq_mul_left (Nat.succ_pos m) total).symm

theorem card_agrees_ne (L : List (S × S)) (h : Valid L) : cnt (fun π : Equiv.Perm S => Agrees L π) ≠ 0 := by
  rw [card_agrees L h]
  exact Nat.factorial_ne_zero _

theorem real_fwd (L : List (S × S)) (h : Valid L) (a : S) (ha : a ∉ L.map Prod.fst) (E : Equiv.Perm S → Prop) :
    ((left L).card : ℚ) * pr (fun π : Equiv.Perm S => Agrees L π) E =
      ∑ b ∈ left L, pr (fun π : Equiv.Perm S => Agrees ((a, b) :: L) π) E := by
  have mem (y : S) : y ∈ left L ↔ y ∉ L.map Prod.snd := by simp [left]
  rw [pr_step _ (fun π : Equiv.Perm S => π a) (left L) ?_ (Fintype.card S - (L.length + 1)).factorial]
  · exact sum_congr rfl fun b _ => pr_congr (fun π => (agrees_cons a b L π).symm) fun _ _ => Iff.rfl
  · intro b hb
    rw [cnt_congr fun π : Equiv.Perm S => (agrees_cons a b L π).symm,
      card_agrees _ ((valid_cons a b L).mpr ⟨h, ha, (mem b).mp hb⟩), List.length_cons]
  · intro π hπ
    rw [mem]
    intro hy
    obtain ⟨p, hp, e⟩ := List.mem_map.mp hy
    have := π.injective ((hπ p hp).trans e)
    exact ha (this ▸ List.mem_map_of_mem hp)

theorem real_bwd (L : List (S × S)) (h : Valid L) (b : S) (hb : b ∉ L.map Prod.snd) (E : Equiv.Perm S → Prop) :
    ((free L).card : ℚ) * pr (fun π : Equiv.Perm S => Agrees L π) E =
      ∑ a ∈ free L, pr (fun π : Equiv.Perm S => Agrees ((a, b) :: L) π) E := by
  have mem (y : S) : y ∈ free L ↔ y ∉ L.map Prod.fst := by simp [free]
  have iff (a : S) (π : Equiv.Perm S) : Agrees L π ∧ π.symm b = a ↔ Agrees ((a, b) :: L) π := by
    rw [agrees_cons, Equiv.symm_apply_eq, eq_comm]
  rw [pr_step _ (fun π : Equiv.Perm S => π.symm b) (free L) ?_ (Fintype.card S - (L.length + 1)).factorial]
  · exact sum_congr rfl fun a _ => pr_congr (iff a) fun _ _ => Iff.rfl
  · intro a ha
    rw [cnt_congr (iff a), card_agrees _ ((valid_cons a b L).mpr ⟨h, (mem a).mp ha, hb⟩), List.length_cons]
  · intro π hπ
    rw [mem]
    intro hy
    obtain ⟨p, hp, e⟩ := List.mem_map.mp hy
    have e' := hπ p hp
    rw [e, Equiv.apply_symm_apply] at e'
    exact hb (e' ▸ List.mem_map_of_mem hp)

variable {X : Type} [Fintype X] [DecidableEq X]

/-- The function has these values. -/
def Has (G : List (X × S)) (f : X → S) : Prop := ∀ p ∈ G, f p.1 = p.2

omit [Fintype S] [DecidableEq S] [Fintype X] [DecidableEq X] in
theorem has_cons (x : X) (y : S) (G : List (X × S)) (f : X → S) : Has ((x, y) :: G) f ↔ Has G f ∧ f x = y := by
  rw [Has, Has, List.forall_mem_cons]
  exact and_comm

/-- Both. -/
def Both (L : List (S × S)) (G : List (X × S)) (w : (X → S) × Equiv.Perm S) : Prop := Has G w.1 ∧ Agrees L w.2

omit [Fintype X] [DecidableEq X] in
theorem cnt_both (L : List (S × S)) (hL : Valid L) (G : List (X × S)) :
    cnt (Both L G) = cnt (Has G) * (Fintype.card S - L.length).factorial := by
  rw [← card_agrees L hL, ← cnt_and]
  rfl

theorem ideal_fwd (L : List (S × S)) (h : Valid L) (G : List (X × S)) (a : S) (ha : a ∉ L.map Prod.fst)
    (E : (X → S) × Equiv.Perm S → Prop) :
    ((left L).card : ℚ) * pr (Both L G) E = ∑ b ∈ left L, pr (Both ((a, b) :: L) G) E := by
  have mem (y : S) : y ∈ left L ↔ y ∉ L.map Prod.snd := by simp [left]
  have iff (b : S) (w : (X → S) × Equiv.Perm S) : Both L G w ∧ w.2 a = b ↔ Both ((a, b) :: L) G w := by
    rw [Both, Both, agrees_cons, and_assoc]
  rw [pr_step _ (fun w : (X → S) × Equiv.Perm S => w.2 a) (left L) ?_
    (cnt (Has G) * (Fintype.card S - (L.length + 1)).factorial)]
  · exact sum_congr rfl fun b _ => pr_congr (iff b) fun _ _ => Iff.rfl
  · intro b hb
    rw [cnt_congr (iff b), cnt_both _ ((valid_cons a b L).mpr ⟨h, ha, (mem b).mp hb⟩), List.length_cons]
  · intro w hw
    rw [mem]
    intro hy
    obtain ⟨p, hp, e⟩ := List.mem_map.mp hy
    have := w.2.injective ((hw.2 p hp).trans e)
    exact ha (this ▸ List.mem_map_of_mem hp)

theorem ideal_bwd (L : List (S × S)) (h : Valid L) (G : List (X × S)) (b : S) (hb : b ∉ L.map Prod.snd)
    (E : (X → S) × Equiv.Perm S → Prop) :
    ((free L).card : ℚ) * pr (Both L G) E = ∑ a ∈ free L, pr (Both ((a, b) :: L) G) E := by
  have mem (y : S) : y ∈ free L ↔ y ∉ L.map Prod.fst := by simp [free]
  have iff (a : S) (w : (X → S) × Equiv.Perm S) : Both L G w ∧ w.2.symm b = a ↔ Both ((a, b) :: L) G w := by
    rw [Both, Both, agrees_cons, and_assoc, Equiv.symm_apply_eq, eq_comm (a := b)]
  rw [pr_step _ (fun w : (X → S) × Equiv.Perm S => w.2.symm b) (free L) ?_
    (cnt (Has G) * (Fintype.card S - (L.length + 1)).factorial)]
  · exact sum_congr rfl fun a _ => pr_congr (iff a) fun _ _ => Iff.rfl
  · intro a ha
    rw [cnt_congr (iff a), cnt_both _ ((valid_cons a b L).mpr ⟨h, (mem a).mp ha, hb⟩), List.length_cons]
  · intro w hw
    rw [mem]
    intro hy
    obtain ⟨p, hp, e⟩ := List.mem_map.mp hy
    have e' := hw.2 p hp
    rw [e, Equiv.apply_symm_apply] at e'
    exact hb (e' ▸ List.mem_map_of_mem hp)

theorem ideal_blk (L : List (S × S)) (h : Valid L) (G : List (X × S)) (x : X) (hx : x ∉ G.map Prod.fst)
    (E : (X → S) × Equiv.Perm S → Prop) :
    ((univ : Finset S).card : ℚ) * pr (Both L G) E = ∑ y, pr (Both L ((x, y) :: G)) E := by
  have iff (y : S) (w : (X → S) × Equiv.Perm S) : Both L G w ∧ w.1 x = y ↔ Both L ((x, y) :: G) w := by
    rw [Both, Both, has_cons]
    tauto
  have same (y : S) : Fintype.card S * cnt (Has ((x, y) :: G)) = cnt (Has G) := by
    rw [← card_resample (Has G) (fun _ => x) (fun _ => y) fun f hf z => ⟨fun p hp => by
      have hne : p.1 ≠ x := fun e => hx (e ▸ List.mem_map_of_mem hp)
      rw [update_of_ne hne]
      exact hf p hp, rfl, rfl⟩]
    congr 1
    exact cnt_congr fun f => has_cons x y G f
  rw [pr_step _ (fun w : (X → S) × Equiv.Perm S => w.1 x) univ (fun _ _ => mem_univ _)
    (cnt (Has G) / Fintype.card S * (Fintype.card S - L.length).factorial)]
  · exact sum_congr rfl fun y _ => pr_congr (iff y) fun _ _ => Iff.rfl
  · intro y _
    rw [cnt_congr (iff y), cnt_both L h, ← same y, Nat.mul_div_cancel_left _ (Fintype.card_pos_iff.mpr ⟨y⟩)]

end

/-- The questions: the permutation, its inverse and the function. -/
inductive Query (S X : Type) where
  | fwd (a : S)
  | bwd (b : S)
  | blk (x : X)

/-- Questions for the permutation. -/
def Query.perm {S X : Type} : Query S X → ℕ
  | .blk _ => 0
  | _ => 1

/-- Questions for the function. -/
def Query.fun {S X : Type} : Query S X → ℕ
  | .blk _ => 1
  | _ => 0

section
variable {K S X R : Type} [Fintype K] [DecidableEq K] [Fintype S] [DecidableEq S] [AddCommGroup S] [Fintype X]
  [DecidableEq X] (s : K → X → S)

/-- The answers if the function is made of the permutation. -/
def real (k : K) (π : Equiv.Perm S) : Query S X → S
  | .fwd a => π a
  | .bwd b => π.symm b
  | .blk x => s k x + π (s k x)

/-- The answers if the function has nothing to do with the permutation. -/
def ideal (w : (X → S) × Equiv.Perm S) : Query S X → S
  | .fwd a => w.2 a
  | .bwd b => w.2.symm b
  | .blk x => w.1 x

/-- The values of the permutation that are known to somebody who knows the key. -/
def pairs (k : K) (G : List (X × S)) : List (S × S) := G.map fun p => (s k p.1, p.2 - s k p.1)

/-- The keys of `U` that go with what is known. -/
noncomputable def good (U : Finset K) (L : List (S × S)) (G : List (X × S)) : Finset K := by
  classical exact U.filter fun k => Valid (L ++ pairs s k G)

omit [Fintype K] [DecidableEq K] [Fintype S] [DecidableEq S] [Fintype X] [DecidableEq X] in
theorem mem_good (U : Finset K) (L : List (S × S)) (G : List (X × S)) (k : K) :
    k ∈ good s U L G ↔ k ∈ U ∧ Valid (L ++ pairs s k G) := by
  simp [good]

omit [Fintype K] [DecidableEq K] [Fintype S] [DecidableEq S] [Fintype X] [DecidableEq X] in
theorem mem_good_perm (U : Finset K) (L : List (S × S)) (G : List (X × S)) (a b : S) (k : K) :
    k ∈ good s U ((a, b) :: L) G ↔ k ∈ good s U L G ∧ a ∉ (L ++ pairs s k G).map Prod.fst ∧
      b ∉ (L ++ pairs s k G).map Prod.snd := by
  rw [mem_good, mem_good, List.cons_append, valid_cons, and_assoc]

omit [Fintype K] [DecidableEq K] [Fintype S] [DecidableEq S] [Fintype X] [DecidableEq X] in
theorem mem_good_blk (U : Finset K) (L : List (S × S)) (G : List (X × S)) (x : X) (y : S) (k : K) :
    k ∈ good s U L ((x, y) :: G) ↔ k ∈ good s U L G ∧ s k x ∉ (L ++ pairs s k G).map Prod.fst ∧
      y - s k x ∉ (L ++ pairs s k G).map Prod.snd := by
  rw [mem_good, mem_good, pairs, List.map_cons, valid_perm List.perm_middle, valid_cons, and_assoc]
  rfl

/-- What is lost. -/
def loss (K S : Type) [Fintype K] [Fintype S] (c p b l g : ℕ) : ℚ :=
  2 * c * ((p : ℚ) * b + p * g + b * l) + (Fintype.card K : ℚ) / Fintype.card S * ((b : ℚ) * g + b * (b - 1) / 2)

omit [DecidableEq K] [Fintype S] [AddCommGroup S] [Fintype X] [DecidableEq X] in
/-- Every equation for a state holds for at most `c` keys. -/
theorem few (c : ℕ) (hc : ∀ x y, (univ.filter fun k => s k x = y).card ≤ c) {α : Type} (l : List α) (f : α → X × S) (A : Finset K)
    (h : ∀ k ∈ A, ∃ p ∈ l, s k (f p).1 = (f p).2) : A.card ≤ c * l.length := by
  classical
  have h1 : A ⊆ l.toFinset.biUnion fun p => univ.filter fun k => s k (f p).1 = (f p).2 := by
    intro k hk
    obtain ⟨p, hp, e⟩ := h k hk
    exact mem_biUnion.mpr ⟨p, List.mem_toFinset.mpr hp, mem_filter.mpr ⟨mem_univ _, e⟩⟩
  refine (card_le_card h1).trans (card_biUnion_le.trans ?_)
  refine le_trans (sum_le_card_nsmul _ _ c fun p _ => hc _ _) ?_
  rw [smul_eq_mul, mul_comm]
  exact Nat.mul_le_mul_left c (List.toFinset_card_le l)

omit [DecidableEq K] [Fintype S] [DecidableEq S] [Fintype X] [DecidableEq X] [Fintype K] in
theorem mem_fst (k : K) (G : List (X × S)) (a : S) : a ∈ (pairs s k G).map Prod.fst ↔ ∃ p ∈ G, s k p.1 = a := by
  simp [pairs]

omit [DecidableEq K] [Fintype S] [DecidableEq S] [Fintype X] [DecidableEq X] [Fintype K] in
theorem mem_snd (k : K) (G : List (X × S)) (b : S) : b ∈ (pairs s k G).map Prod.snd ↔ ∃ p ∈ G, p.2 - s k p.1 = b := by
  simp [pairs]

omit [Fintype S] [Fintype X] [DecidableEq X] in
/-- What a question for the permutation costs. -/
theorem lost_perm (U : Finset K) (c : ℕ) (hc : ∀ x y, (univ.filter fun k => s k x = y).card ≤ c)
    (L : List (S × S)) (G : List (X × S)) (a b : S) (ha : a ∉ L.map Prod.fst) (hb : b ∉ L.map Prod.snd) :
    (good s U L G \ good s U ((a, b) :: L) G).card ≤ 2 * (c * G.length) := by
  have h1 : good s U L G \ good s U ((a, b) :: L) G ⊆ (good s U L G).filter (fun k => ∃ p ∈ G, s k p.1 = a) ∪
      (good s U L G).filter (fun k => ∃ p ∈ G, s k p.1 = p.2 - b) := by
    intro k hk
    rw [mem_sdiff, mem_good_perm, not_and, not_and_or, not_not, not_not, List.map_append, List.map_append,
      List.mem_append, List.mem_append, mem_fst, mem_snd] at hk
    rw [mem_union, mem_filter, mem_filter]
    obtain (h | h) | (h | ⟨p, hp, h⟩) := hk.2 hk.1
    · exact absurd h ha
    · exact Or.inl ⟨hk.1, h⟩
    · exact absurd h hb
    · exact Or.inr ⟨hk.1, p, hp, by rw [← h, sub_sub_cancel]⟩
  have h2 := few s c hc G (fun p => (p.1, a)) ((good s U L G).filter fun k => ∃ p ∈ G, s k p.1 = a) fun k hk =>
    (mem_filter.mp hk).2
  have h3 := few s c hc G (fun p => (p.1, p.2 - b)) ((good s U L G).filter fun k => ∃ p ∈ G, s k p.1 = p.2 - b) fun k hk =>
    (mem_filter.mp hk).2
  have := (card_le_card h1).trans (card_union_le _ _)
  omega

omit [Fintype X] [DecidableEq X] in
/-- What a question for the function costs. -/
theorem lost_blk (U : Finset K) (c : ℕ) (hc : ∀ x y, (univ.filter fun k => s k x = y).card ≤ c)
    (hi : ∀ k ∈ U, Injective (s k)) (L : List (S × S)) (G : List (X × S)) (x : X) (hx : x ∉ G.map Prod.fst) :
    ∑ y, (good s U L G \ good s U L ((x, y) :: G)).card ≤
      Fintype.card S * (2 * (c * L.length)) + Fintype.card K * G.length := by
  have h1 (y : S) : good s U L G \ good s U L ((x, y) :: G) ⊆ ((good s U L G).filter (fun k => ∃ p ∈ L, s k x = p.1) ∪
      (good s U L G).filter (fun k => ∃ p ∈ L, s k x = y - p.2)) ∪
      univ.filter (fun k => ∃ p ∈ G, y = p.2 - s k p.1 + s k x) := by
    intro k hk
    rw [mem_sdiff, mem_good_blk, not_and, not_and_or, not_not, not_not, List.map_append, List.map_append,
      List.mem_append, List.mem_append, mem_fst, mem_snd] at hk
    rw [mem_union, mem_union, mem_filter, mem_filter, mem_filter]
    obtain (h | ⟨p, hp, h⟩) | (h | ⟨p, hp, h⟩) := hk.2 hk.1
    · obtain ⟨p, hp, e⟩ := List.mem_map.mp h
      exact Or.inl (Or.inl ⟨hk.1, p, hp, e.symm⟩)
    · exact absurd (hi k ((mem_good s U L G k).mp hk.1).1 h ▸ List.mem_map_of_mem hp) hx
    · obtain ⟨p, hp, e⟩ := List.mem_map.mp h
      exact Or.inl (Or.inr ⟨hk.1, p, hp, by rw [e, sub_sub_cancel]⟩)
    · exact Or.inr ⟨mem_univ _, p, hp, by rw [h, sub_add_cancel]⟩
  have h2 := few s c hc L (fun p => (x, p.1)) ((good s U L G).filter fun k => ∃ p ∈ L, s k x = p.1) fun k hk =>
    (mem_filter.mp hk).2
  have h3 (y : S) := few s c hc L (fun p => (x, y - p.2)) ((good s U L G).filter fun k => ∃ p ∈ L, s k x = y - p.2)
    fun k hk => (mem_filter.mp hk).2
  have h4 : ∑ y : S, (univ.filter fun k : K => ∃ p ∈ G, y = p.2 - s k p.1 + s k x).card ≤ Fintype.card K * G.length := by
    have e : ∑ y : S, (univ.filter fun k : K => ∃ p ∈ G, y = p.2 - s k p.1 + s k x).card =
        ∑ k : K, (univ.filter fun y : S => ∃ p ∈ G, y = p.2 - s k p.1 + s k x).card := by
      simp only [card_filter]
      exact sum_comm
    rw [e]
    refine (sum_le_card_nsmul _ _ G.length fun k _ => ?_).trans_eq (by rw [smul_eq_mul, card_univ])
    have : (univ.filter fun y : S => ∃ p ∈ G, y = p.2 - s k p.1 + s k x) ⊆
        (G.map fun p => p.2 - s k p.1 + s k x).toFinset := by
      intro y hy
      obtain ⟨p, hp, e⟩ := (mem_filter.mp hy).2
      exact List.mem_toFinset.mpr (List.mem_map.mpr ⟨p, hp, e.symm⟩)
    refine (card_le_card this).trans ((List.toFinset_card_le _).trans_eq (List.length_map _))
  have h5 (y : S) : (good s U L G \ good s U L ((x, y) :: G)).card ≤ 2 * (c * L.length) +
      (univ.filter fun k : K => ∃ p ∈ G, y = p.2 - s k p.1 + s k x).card := by
    have := (card_le_card (h1 y)).trans (card_union_le _ _)
    have h6 := card_union_le ((good s U L G).filter fun k => ∃ p ∈ L, s k x = p.1)
      ((good s U L G).filter fun k => ∃ p ∈ L, s k x = y - p.2)
    have := h3 y
    omega
  refine (sum_le_sum fun y _ => h5 y).trans ?_
  rw [sum_add_distrib, sum_const, card_univ, smul_eq_mul]
  omega

/-- The chance to accept with an unrelated function. -/
noncomputable def iP (accept : R → Prop) (D : Asker (Query S X) S R) (L : List (S × S)) (G : List (X × S)) : ℚ :=
  pr (Both L G) fun w => accept (D.run (ideal w))

/-- The chance to accept with the function made of the permutation and a key. -/
noncomputable def rP (accept : K → R → Prop) (D : Asker (Query S X) S R) (k : K) (L : List (S × S)) (G : List (X × S)) : ℚ :=
  pr (fun π : Equiv.Perm S => Agrees (L ++ pairs s k G) π) fun π => accept k (D.run (real s k π))

omit [Fintype K] [DecidableEq K] [Fintype S] [DecidableEq S] [Fintype X] [DecidableEq X] in
theorem known_blk (k : K) (L : List (S × S)) (G : List (X × S)) (p : X × S) (hp : p ∈ G) (π : Equiv.Perm S)
    (h : Agrees (L ++ pairs s k G) π) : s k p.1 + π (s k p.1) = p.2 := by
  have : (s k p.1, p.2 - s k p.1) ∈ L ++ pairs s k G := List.mem_append_right _ (List.mem_map.mpr ⟨p, hp, rfl⟩)
  have e := h _ this
  dsimp only at e
  rw [e, add_sub_cancel]

omit [Fintype K] [DecidableEq K] [DecidableEq X] [Fintype S] [DecidableEq S] [Fintype X] in
/-- A question whose answer is known. -/
theorem known (U : Finset K) (accept : K → R → Prop) (m : Query S X) (next : S → Asker (Query S X) S R) (L : List (S × S))
    (G : List (X × S)) (t : S) (hi : ∀ w, Both L G w → ideal w m = t)
    (hr : ∀ k (π : Equiv.Perm S), Agrees (L ++ pairs s k G) π → real s k π m = t) (l l' : ℚ) (hl : l' ≤ l)
    (h : ∑ k ∈ good s U L G, iP (accept k) (next t) L G ≤ ∑ k ∈ good s U L G, rP s accept (next t) k L G + l') :
    ∑ k ∈ good s U L G, iP (accept k) (.ask m next) L G ≤ ∑ k ∈ good s U L G, rP s accept (.ask m next) k L G + l := by
  have e1 (k : K) : iP (accept k) (.ask m next) L G = iP (accept k) (next t) L G :=
    pr_congr (fun _ => Iff.rfl) fun w hw => by rw [Asker.run, hi w hw]
  have e2 (k : K) : rP s accept (.ask m next) k L G = rP s accept (next t) k L G :=
    pr_congr (fun _ => Iff.rfl) fun π hπ => by rw [Asker.run, hr k π hπ]
  rw [sum_congr rfl fun k _ => e1 k, sum_congr rfl fun k _ => e2 k]
  linarith

omit [DecidableEq K] [DecidableEq S] [AddCommGroup S] in
theorem loss_perm (c p b l g : ℕ) : loss K S c (p + 1) b l g = loss K S c p b (l + 1) g + 2 * (c * g) := by
  rw [loss, loss]
  push_cast
  ring

omit [DecidableEq K] [DecidableEq S] [AddCommGroup S] in
theorem loss_blk (c p b l g : ℕ) : loss K S c p (b + 1) l g =
    loss K S c p b l (g + 1) + (2 * (c * l) + (Fintype.card K : ℚ) / Fintype.card S * g) := by
  rw [loss, loss]
  push_cast
  ring

omit [DecidableEq K] [DecidableEq S] [AddCommGroup S] in
theorem loss_mono_perm (c p b l g : ℕ) : loss K S c p b l g ≤ loss K S c (p + 1) b l g := by
  rw [loss, loss]
  push_cast
  have : (0 : ℚ) ≤ c * (b + g) := by positivity
  linarith

omit [DecidableEq K] [DecidableEq S] [AddCommGroup S] in
theorem loss_mono_blk (c p b l g : ℕ) : loss K S c p b l g ≤ loss K S c p (b + 1) l g := by
  have h : loss K S c p (b + 1) l g = loss K S c p b l g + (2 * c * (p + l) + (Fintype.card K : ℚ) / Fintype.card S * (g + b)) := by
    rw [loss, loss]
    push_cast
    ring
  rw [h]
  have : (0 : ℚ) ≤ 2 * c * (p + l) + (Fintype.card K : ℚ) / Fintype.card S * (g + b) := by positivity
  linarith

omit [DecidableEq K] [DecidableEq S] [AddCommGroup S] in
theorem loss_nonneg (c p b l g : ℕ) : 0 ≤ loss K S c p b l g := by
  induction b with
  | zero =>
    rw [loss]
    push_cast
    simp
    positivity
  | succ b ih => exact ih.trans (loss_mono_blk c p b l g)

/-- Somebody who knows some values. -/
theorem main_from (U : Finset K) (c : ℕ) (hc : ∀ x y, (univ.filter fun k => s k x = y).card ≤ c)
    (hi : ∀ k ∈ U, Injective (s k)) (accept : K → R → Prop) (D : Asker (Query S X) S R) (p b : ℕ)
    (hp : D.CostLe Query.perm (fun _ => 0) p) (hb : D.CostLe Query.fun (fun _ => 0) b)
    (L : List (S × S)) (G : List (X × S)) (hL : Valid L) :
    ∑ k ∈ good s U L G, iP (accept k) D L G ≤ ∑ k ∈ good s U L G, rP s accept D k L G + loss K S c p b L.length G.length := by
  induction D generalizing p b L G with
  | done r =>
    refine le_trans ?_ (le_add_of_nonneg_right (loss_nonneg c p b _ _))
    refine sum_le_sum fun k hk => ?_
    by_cases hr : accept k r
    · rw [show rP s accept (.done r) k L G = 1 from pr_true (card_agrees_ne _ ((mem_good s U L G k).mp hk).2) fun π => hr]
      exact pr_le_one _ _
    · rw [show iP (accept k) (.done r) L G = 0 from pr_false fun w => hr]
      exact pr_nonneg _ _
  | ask m next ih =>
    cases m with
    | fwd a =>
      obtain ⟨hp1, hp2⟩ := hp
      obtain ⟨p, rfl⟩ : ∃ p', p = p' + 1 := ⟨p - 1, (Nat.sub_add_cancel hp1).symm⟩
      have hp2 : ∀ t, (next t).CostLe Query.perm (fun _ => 0) p := hp2
      have hb2 : ∀ t, (next t).CostLe Query.fun (fun _ => 0) b := hb.2
      by_cases ha : a ∈ L.map Prod.fst
      · obtain ⟨q, hq, rfl⟩ := List.mem_map.mp ha
        refine known s U accept (.fwd q.1) next L G q.2 (fun w hw => hw.2 q hq) (fun k π hπ => hπ q (List.mem_append_left _ hq)) _ _
          (loss_mono_perm c p b _ _) (ih q.2 p b (hp2 _) (hb2 _) L G hL)
      · have mem (y : S) : y ∈ left L ↔ y ∉ L.map Prod.snd := by simp [left]
        have hlt : L.length < Fintype.card S := by
          rw [← List.length_map (f := Prod.fst)]
          exact length_lt hL.1 ha
        have hpos : 0 < (left L).card := by
          rw [card_left' L hL]
          omega
        rw [loss_perm]
        refine avg_step (good s U L G) (left L) hpos (fun t => good s U ((a, t) :: L) G)
          (fun t _ k hk => ((mem_good_perm s U L G a t k).mp hk).1) (fun k t => iP (accept k) (next t) ((a, t) :: L) G)
          (fun k t _ => pr_le_one _ _) _ ?_ (fun k t => rP s accept (next t) k ((a, t) :: L) G) _ _ _ ?_
          (fun t ht => ih t p b (hp2 t) (hb2 t) ((a, t) :: L) G ((valid_cons a t L).mpr ⟨hL, ha, (mem t).mp ht⟩)) ?_
        · intro k
          rw [iP, ideal_fwd L hL G a ha]
          refine sum_congr rfl fun t _ => pr_congr (fun _ => Iff.rfl) fun w hw => ?_
          rw [Asker.run, show ideal w (.fwd a) = t from ((agrees_cons a t L _).mp hw.2).2]
        · intro k hk
          have hV := ((mem_good s U L G k).mp hk).2
          by_cases hak : a ∈ (L ++ pairs s k G).map Prod.fst
          · rw [filter_false_of_mem fun t _ h => ((mem_good_perm s U L G a t k).mp h).2.1 hak, sum_empty]
            exact mul_nonneg (Nat.cast_nonneg _) (pr_nonneg _ _)
          · have e1 := real_fwd _ hV a hak fun π => accept k ((Asker.ask (.fwd a) next).run (real s k π))
            have e2 : ∑ t ∈ left (L ++ pairs s k G), rP s accept (next t) k ((a, t) :: L) G =
                ((left (L ++ pairs s k G)).card : ℚ) * rP s accept (.ask (.fwd a) next) k L G := by
              rw [rP, e1]
              refine sum_congr rfl fun t _ => (pr_congr (fun _ => Iff.rfl) fun π hπ => ?_).symm
              rw [Asker.run, show real s k π (.fwd a) = t from ((agrees_cons a t _ _).mp hπ).2]
            have hsub : (left L).filter (fun t => k ∈ good s U ((a, t) :: L) G) ⊆ left (L ++ pairs s k G) := by
              intro t ht
              have := ((mem_good_perm s U L G a t k).mp (mem_filter.mp ht).2).2.2
              simpa [left] using this
            refine (sum_le_sum_of_subset_of_nonneg hsub fun t _ _ => pr_nonneg _ _).trans (e2.le.trans ?_)
            refine mul_le_mul_of_nonneg_right (Nat.cast_le.mpr ?_) (pr_nonneg _ _)
            rw [card_left' _ hV, card_left' L hL, List.length_append]
            omega
        · rw [← nsmul_eq_mul]
          refine sum_le_card_nsmul _ _ _ fun t ht => ?_
          exact_mod_cast lost_perm s U c hc L G a t ha ((mem t).mp ht)
    | bwd d =>
      obtain ⟨hp1, hp2⟩ := hp
      obtain ⟨p, rfl⟩ : ∃ p', p = p' + 1 := ⟨p - 1, (Nat.sub_add_cancel hp1).symm⟩
      have hp2 : ∀ t, (next t).CostLe Query.perm (fun _ => 0) p := hp2
      have hb2 : ∀ t, (next t).CostLe Query.fun (fun _ => 0) b := hb.2
      by_cases hd : d ∈ L.map Prod.snd
      · obtain ⟨q, hq, rfl⟩ := List.mem_map.mp hd
        refine known s U accept (.bwd q.2) next L G q.1 (fun w hw => ?_) (fun k π hπ => ?_) _ _
          (loss_mono_perm _ p b _ _) (ih q.1 p b (hp2 _) (hb2 _) L G hL)
        · exact w.2.symm_apply_eq.mpr (hw.2 q hq).symm
        · exact π.symm_apply_eq.mpr (hπ q (List.mem_append_left _ hq)).symm
      · have mem (y : S) : y ∈ free L ↔ y ∉ L.map Prod.fst := by simp [free]
        have hlt : L.length < Fintype.card S := by
          rw [← List.length_map (f := Prod.snd)]
          exact length_lt hL.2 hd
        have hpos : 0 < (free L).card := by
          rw [card_free L hL]
          omega
        rw [loss_perm]
        refine avg_step (good s U L G) (free L) hpos (fun t => good s U ((t, d) :: L) G)
          (fun t _ k hk => ((mem_good_perm s U L G t d k).mp hk).1) (fun k t => iP (accept k) (next t) ((t, d) :: L) G)
          (fun k t _ => pr_le_one _ _) _ ?_ (fun k t => rP s accept (next t) k ((t, d) :: L) G) _ _ _ ?_
          (fun t ht => ih t p b (hp2 t) (hb2 t) ((t, d) :: L) G ((valid_cons t d L).mpr ⟨hL, (mem t).mp ht, hd⟩)) ?_
        · intro k
          rw [iP, ideal_bwd L hL G d hd]
          refine sum_congr rfl fun t _ => pr_congr (fun _ => Iff.rfl) fun w hw => ?_
          rw [Asker.run, show ideal w (.bwd d) = t from w.2.symm_apply_eq.mpr ((agrees_cons t d L _).mp hw.2).2.symm]
        · intro k hk
          have hV := ((mem_good s U L G k).mp hk).2
          by_cases hdk : d ∈ (L ++ pairs s k G).map Prod.snd
          · rw [filter_false_of_mem fun t _ h => ((mem_good_perm s U L G t d k).mp h).2.2 hdk, sum_empty]
            exact mul_nonneg (Nat.cast_nonneg _) (pr_nonneg _ _)
          · have e1 := real_bwd _ hV d hdk fun π => accept k ((Asker.ask (.bwd d) next).run (real s k π))
            have e2 : ∑ t ∈ free (L ++ pairs s k G), rP s accept (next t) k ((t, d) :: L) G =
                ((free (L ++ pairs s k G)).card : ℚ) * rP s accept (.ask (.bwd d) next) k L G := by
              rw [rP, e1]
              refine sum_congr rfl fun t _ => (pr_congr (fun _ => Iff.rfl) fun π hπ => ?_).symm
              rw [Asker.run, show real s k π (.bwd d) = t from π.symm_apply_eq.mpr ((agrees_cons t d _ _).mp hπ).2.symm]
            have hsub : (free L).filter (fun t => k ∈ good s U ((t, d) :: L) G) ⊆ free (L ++ pairs s k G) := by
              intro t ht
              have := ((mem_good_perm s U L G t d k).mp (mem_filter.mp ht).2).2.1
              simpa [free] using this
            refine (sum_le_sum_of_subset_of_nonneg hsub fun t _ _ => pr_nonneg _ _).trans (e2.le.trans ?_)
            refine mul_le_mul_of_nonneg_right (Nat.cast_le.mpr ?_) (pr_nonneg _ _)
            rw [card_free _ hV, card_free L hL, List.length_append]
            omega
        · rw [← nsmul_eq_mul]
          refine sum_le_card_nsmul _ _ _ fun t ht => ?_
          exact_mod_cast lost_perm s U c hc L G t d ((mem t).mp ht) hd
    | blk x =>
      obtain ⟨hb1, hb2⟩ := hb
      obtain ⟨b, rfl⟩ : ∃ b', b = b' + 1 := ⟨b - 1, (Nat.sub_add_cancel hb1).symm⟩
      have hb2 : ∀ t, (next t).CostLe Query.fun (fun _ => 0) b := hb2
      have hp2 : ∀ t, (next t).CostLe Query.perm (fun _ => 0) p := hp.2
      by_cases hx : x ∈ G.map Prod.fst
      · obtain ⟨q, hq, rfl⟩ := List.mem_map.mp hx
        exact known s U accept (.blk q.1) next L G q.2 (fun w hw => hw.1 q hq) (fun k π hπ => known_blk s k L G q hq π hπ) _ _
          (loss_mono_blk c p b _ _) (ih q.2 p b (hp2 _) (hb2 _) L G hL)
      · have hpos : 0 < (univ : Finset S).card := card_pos.mpr ⟨0, mem_univ _⟩
        have hpos' : (0 : ℚ) < Fintype.card S := Nat.cast_pos.mpr hpos
        rw [loss_blk]
        refine avg_step (good s U L G) univ hpos (fun t => good s U L ((x, t) :: G))
          (fun t _ k hk => ((mem_good_blk s U L G x t k).mp hk).1) (fun k t => iP (accept k) (next t) L ((x, t) :: G))
          (fun k t _ => pr_le_one _ _) _ ?_ (fun k t => rP s accept (next t) k L ((x, t) :: G)) _ _ _ ?_
          (fun t ht => ih t p b (hp2 t) (hb2 t) L ((x, t) :: G) hL) ?_
        · intro k
          rw [iP, ideal_blk L hL G x hx]
          refine sum_congr rfl fun t _ => pr_congr (fun _ => Iff.rfl) fun w hw => ?_
          rw [Asker.run, show ideal w (.blk x) = t from ((has_cons x t G _).mp hw.1).2]
        · intro k hk
          have hV := ((mem_good s U L G k).mp hk).2
          by_cases hak : s k x ∈ (L ++ pairs s k G).map Prod.fst
          · rw [filter_false_of_mem fun t _ h => ((mem_good_blk s U L G x t k).mp h).2.1 hak, sum_empty]
            exact mul_nonneg (Nat.cast_nonneg _) (pr_nonneg _ _)
          · have e1 := real_fwd _ hV (s k x) hak fun π => accept k ((Asker.ask (.blk x) next).run (real s k π))
            have e2 : ∑ t ∈ left (L ++ pairs s k G), rP s accept (next (s k x + t)) k L ((x, s k x + t) :: G) =
                ((left (L ++ pairs s k G)).card : ℚ) * rP s accept (.ask (.blk x) next) k L G := by
              rw [rP, e1]
              refine sum_congr rfl fun t _ => (pr_congr (fun π => ?_) fun π hπ => ?_).symm
              · have e : pairs s k ((x, s k x + t) :: G) = (s k x, t) :: pairs s k G := by
                  rw [pairs, List.map_cons, add_sub_cancel_left]
                  rfl
                rw [e]
                exact (agrees_perm List.perm_middle _).symm
              · rw [Asker.run, show real s k π (.blk x) = s k x + t from
                  congrArg (s k x + ·) ((agrees_cons (s k x) t _ _).mp hπ).2]
            have e3 : ∑ t ∈ univ.filter (fun t => k ∈ good s U L ((x, t) :: G)), rP s accept (next t) k L ((x, t) :: G) ≤
                ∑ t ∈ left (L ++ pairs s k G), rP s accept (next (s k x + t)) k L ((x, s k x + t) :: G) := by
              refine le_of_eq_of_le ?_ (sum_le_sum_of_subset_of_nonneg (s := (univ.filter fun t => k ∈ good s U L ((x, t) :: G)).image
                fun t => t - s k x) ?_ fun t _ _ => pr_nonneg _ _)
              · rw [sum_image fun t _ t' _ e => sub_left_injective e]
                exact sum_congr rfl fun t _ => by rw [add_sub_cancel]
              · intro t ht
                obtain ⟨y, hy, rfl⟩ := mem_image.mp ht
                have := ((mem_good_blk s U L G x y k).mp (mem_filter.mp hy).2).2.2
                simpa [left] using this
            refine e3.trans (e2.le.trans ?_)
            exact mul_le_mul_of_nonneg_right (Nat.cast_le.mpr (card_le_card (subset_univ _))) (pr_nonneg _ _)
        · have h := lost_blk s U c hc hi L G x hx
          have h' : (∑ y : S, ((good s U L G \ good s U L ((x, y) :: G)).card : ℚ)) ≤
              Fintype.card S * (2 * (c * L.length)) + Fintype.card K * G.length := by exact_mod_cast h
          refine h'.trans_eq ?_
          rw [card_univ]
          field_simp

/-- Somebody who knows nothing. -/
theorem main_le (U : Finset K) (c : ℕ) (hc : ∀ x y, (univ.filter fun k => s k x = y).card ≤ c)
    (hi : ∀ k ∈ U, Injective (s k)) (accept : K → R → Prop) (D : Asker (Query S X) S R) (p b : ℕ)
    (hp : D.CostLe Query.perm (fun _ => 0) p) (hb : D.CostLe Query.fun (fun _ => 0) b) [Nonempty K] :
    (cnt (fun w : K × (X → S) × Equiv.Perm S => accept w.1 (D.run (ideal w.2))) : ℚ) /
        Fintype.card (K × (X → S) × Equiv.Perm S) ≤
      (cnt (fun w : K × Equiv.Perm S => accept w.1 (D.run (real s w.1 w.2))) : ℚ) / Fintype.card (K × Equiv.Perm S) +
      (2 * p * b * c / Fintype.card K + b * (b - 1) / (2 * Fintype.card S) + (Uᶜ.card : ℚ) / Fintype.card K) := by
  have h := main_from s U c hc hi accept D p b hp hb [] [] ⟨List.nodup_nil, List.nodup_nil⟩
  have hg : good s U [] [] = U := by
    ext k
    simp [mem_good, pairs, Valid]
  have hB (w : (X → S) × Equiv.Perm S) : Both [] [] w ↔ True :=
    ⟨fun _ => trivial, fun _ => ⟨fun p hp => absurd hp List.not_mem_nil, fun p hp => absurd hp List.not_mem_nil⟩⟩
  have hA (k : K) (π : Equiv.Perm S) : Agrees ([] ++ pairs s k []) π ↔ True :=
    ⟨fun _ => trivial, fun _ p hp => absurd hp List.not_mem_nil⟩
  have e1 : ∑ k, iP (accept k) D [] [] =
      (cnt (fun w : K × (X → S) × Equiv.Perm S => accept w.1 (D.run (ideal w.2))) : ℚ) /
        Fintype.card ((X → S) × Equiv.Perm S) := by
    have : cnt (fun w : K × (X → S) × Equiv.Perm S => accept w.1 (D.run (ideal w.2))) =
        ∑ k, cnt fun w : (X → S) × Equiv.Perm S => accept k (D.run (ideal w)) := by
      rw [← cnt_equiv (Equiv.prodComm ((X → S) × Equiv.Perm S) K), cnt_prod]
      rfl
    rw [this, Nat.cast_sum, sum_div]
    refine sum_congr rfl fun k _ => ?_
    rw [iP, pr, cnt_congr hB, cnt_true]
    simp only [hB, true_and]
  have e2 : ∑ k, rP s accept D k [] [] =
      (cnt (fun w : K × Equiv.Perm S => accept w.1 (D.run (real s w.1 w.2))) : ℚ) / Fintype.card (Equiv.Perm S) := by
    have : cnt (fun w : K × Equiv.Perm S => accept w.1 (D.run (real s w.1 w.2))) =
        ∑ k, cnt fun π : Equiv.Perm S => accept k (D.run (real s k π)) := by
      rw [← cnt_equiv (Equiv.prodComm (Equiv.Perm S) K), cnt_prod]
      rfl
    rw [this, Nat.cast_sum, sum_div]
    refine sum_congr rfl fun k _ => ?_
    rw [rP, pr, cnt_congr (hA k), cnt_true]
    simp only [hA, true_and]
  have h1 : ∑ k, iP (accept k) D [] [] ≤ ∑ k ∈ U, iP (accept k) D [] [] + Uᶜ.card := by
    rw [← sum_add_sum_compl U]
    refine add_le_add le_rfl ((sum_le_card_nsmul _ _ 1 fun k _ => pr_le_one _ _).trans_eq ?_)
    rw [nsmul_eq_mul, mul_one]
  have h2 : ∑ k ∈ U, rP s accept D k [] [] ≤ ∑ k, rP s accept D k [] [] :=
    sum_le_sum_of_subset_of_nonneg (subset_univ _) fun k _ _ => pr_nonneg _ _
  rw [hg] at h
  replace h := h1.trans (add_le_add_left (h.trans (add_le_add_left h2 _)) _)
  rw [e1, e2, loss] at h
  have hK : (0 : ℚ) < Fintype.card K := Nat.cast_pos.mpr Fintype.card_pos
  have hS : (0 : ℚ) < Fintype.card S := Nat.cast_pos.mpr (Fintype.card_pos_iff.mpr ⟨0⟩)
  have hP : (0 : ℚ) < Fintype.card (Equiv.Perm S) := Nat.cast_pos.mpr Fintype.card_pos
  have hQ : (0 : ℚ) < Fintype.card ((X → S) × Equiv.Perm S) :=
    Nat.cast_pos.mpr (Fintype.card_pos_iff.mpr ⟨(fun _ => 0, 1)⟩)
  rw [Fintype.card_prod K, Fintype.card_prod K, List.length_nil] at *
  push_cast at *
  generalize (cnt (fun w : K × (X → S) × Equiv.Perm S => accept w.1 (D.run (ideal w.2))) : ℚ) = u at *
  generalize (cnt (fun w : K × Equiv.Perm S => accept w.1 (D.run (real s w.1 w.2))) : ℚ) = v at *
  refine le_of_mul_le_mul_left (le_of_eq_of_le ?_ (h.trans_eq ?_)) hK
  · field_simp
  · rw [show ((([] : List (S × S)).length : ℕ) : ℚ) = 0 from Nat.cast_zero]
    field_simp
    ring

/-- Both ways. -/
theorem main_many (U : Finset K) (c : ℕ) (hc : ∀ x y, (univ.filter fun k => s k x = y).card ≤ c)
    (hi : ∀ k ∈ U, Injective (s k)) (accept : K → R → Prop) (D : Asker (Query S X) S R) (p b : ℕ)
    (hp : D.CostLe Query.perm (fun _ => 0) p) (hb : D.CostLe Query.fun (fun _ => 0) b) [Nonempty K] :
    |(cnt (fun w : K × Equiv.Perm S => accept w.1 (D.run (real s w.1 w.2))) : ℚ) / Fintype.card (K × Equiv.Perm S) -
      (cnt (fun w : K × (X → S) × Equiv.Perm S => accept w.1 (D.run (ideal w.2))) : ℚ) /
        Fintype.card (K × (X → S) × Equiv.Perm S)| ≤
      2 * p * b * c / Fintype.card K + b * (b - 1) / (2 * Fintype.card S) + (Uᶜ.card : ℚ) / Fintype.card K := by
  have h1 := main_le s U c hc hi accept D p b hp hb
  have h2 := main_le s U c hc hi (fun k r => ¬ accept k r) D p b hp hb
  have n1 (Y : Type) [Fintype Y] [Nonempty Y] (P : Y → Prop) :
      (cnt (fun y => ¬ P y) : ℚ) / Fintype.card Y = 1 - (cnt P : ℚ) / Fintype.card Y := by
    have hY : (Fintype.card Y : ℚ) ≠ 0 := Nat.cast_ne_zero.mpr Fintype.card_ne_zero
    rw [eq_sub_iff_add_eq, ← add_div, div_eq_one_iff_eq hY, ← Nat.cast_add, add_comm]
    classical
    rw [cnt_eq, cnt_eq, card_filter_add_card_filter_not, card_univ]
  have : Nonempty (X → S) := ⟨fun _ => 0⟩
  rw [n1 (K × (X → S) × Equiv.Perm S) fun w => accept w.1 (D.run (ideal w.2)),
    n1 (K × Equiv.Perm S) fun w => accept w.1 (D.run (real s w.1 w.2))] at h2
  rw [abs_le]
  constructor <;> linarith

/-- One key for all blocks. -/
theorem main (hs : ∀ k k' x x', s k x = s k' x' → k = k' ∧ x = x') (accept : K → R → Prop) (D : Asker (Query S X) S R)
    (p b : ℕ) (hp : D.CostLe Query.perm (fun _ => 0) p) (hb : D.CostLe Query.fun (fun _ => 0) b) [Nonempty K] :
    |(cnt (fun w : K × Equiv.Perm S => accept w.1 (D.run (real s w.1 w.2))) : ℚ) / Fintype.card (K × Equiv.Perm S) -
      (cnt (fun w : K × (X → S) × Equiv.Perm S => accept w.1 (D.run (ideal w.2))) : ℚ) /
        Fintype.card (K × (X → S) × Equiv.Perm S)| ≤
      2 * p * b / Fintype.card K + b * (b - 1) / (2 * Fintype.card S) := by
  have h := main_many s univ 1 (fun x y => card_le_one.mpr fun k hk k' hk' =>
    (hs k k' x x ((mem_filter.mp hk).2.trans (mem_filter.mp hk').2.symm)).1) (fun k _ x x' e => (hs k k x x' e).2)
    accept D p b hp hb
  rwa [compl_univ, card_empty, Nat.cast_zero, zero_div, add_zero, Nat.cast_one, mul_one] at h

end
end Cryptopy.PermGame
