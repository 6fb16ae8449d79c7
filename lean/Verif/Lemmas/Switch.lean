import Verif.Lemmas.CtrGame
import Verif.Spec.Asker
import Mathlib.Data.Fintype.Perm
import Mathlib.Logic.Equiv.Basic

/-!
Random permutations in place of random functions: used for C166.
-/

namespace Cryptopy.Prf
open Finset Function Spec

section
variable {B : Type} [Fintype B] [DecidableEq B] {R : Type}

/-- The function has these values. -/
def Agrees (L : List (B × B)) (f : B → B) : Prop := ∀ p ∈ L, f p.1 = p.2

omit [Fintype B] [DecidableEq B] in
theorem agrees_cons (v y : B) (L : List (B × B)) (f : B → B) : Agrees ((v, y) :: L) f ↔ Agrees L f ∧ f v = y := by
  rw [Agrees, Agrees, List.forall_mem_cons]
  exact and_comm

/-- One in `card B` functions has a given value at a new place. -/
theorem funs_cons (L : List (B × B)) (v y : B) (hv : v ∉ L.map Prod.fst) :
    cnt (Agrees L) = Fintype.card B * cnt (Agrees ((v, y) :: L)) := by
  have := card_resample (Agrees L) (fun _ => v) (fun _ => y) fun f hf z => ⟨fun p hp => by
    have hne : p.1 ≠ v := fun e => hv (e ▸ List.mem_map_of_mem hp)
    rw [update_of_ne hne]
    exact hf p hp, rfl, rfl⟩
  rw [← this]
  congr 1
  exact cnt_congr fun f => (agrees_cons v y L f).symm

/-- No permutation has a value a second time. -/
theorem perms_none (L : List (B × B)) (v y : B) (hv : v ∉ L.map Prod.fst) (hy : y ∈ L.map Prod.snd)
    (E : (B → B) → Prop) : cnt (fun π : Equiv.Perm B => (Agrees L π ∧ E π) ∧ π v = y) = 0 := by
  refine cnt_false ?_
  rintro π ⟨⟨h, -⟩, e⟩
  obtain ⟨p, hp, rfl⟩ := List.mem_map.mp hy
  have := π.injective (e.trans (h p hp).symm)
  exact hv (this ▸ List.mem_map_of_mem hp)

/-- All values that are not taken are equally frequent for permutations. -/
theorem perms_same (L : List (B × B)) (v y y' : B) (hy : y ∉ L.map Prod.snd) (hy' : y' ∉ L.map Prod.snd) :
    cnt (fun π : Equiv.Perm B => Agrees ((v, y) :: L) π) = cnt fun π : Equiv.Perm B => Agrees ((v, y') :: L) π := by
  have h (a b : B) (ha : a ∉ L.map Prod.snd) (hb : b ∉ L.map Prod.snd) (π : Equiv.Perm B)
      (hπ : Agrees ((v, a) :: L) π) : Agrees ((v, b) :: L) (π.trans (Equiv.swap a b)) := by
    rw [agrees_cons] at hπ ⊢
    refine ⟨fun p hp => ?_, ?_⟩
    · rw [Equiv.coe_trans, comp_apply, hπ.1 p hp]
      exact Equiv.swap_apply_of_ne_of_ne (fun e => ha (e ▸ List.mem_map_of_mem hp)) fun e => hb (e ▸ List.mem_map_of_mem hp)
    · rw [Equiv.coe_trans, comp_apply, hπ.2, Equiv.swap_apply_left]
  have le (a b : B) (ha : a ∉ L.map Prod.snd) (hb : b ∉ L.map Prod.snd) :
      cnt (fun π : Equiv.Perm B => Agrees ((v, a) :: L) π) ≤ cnt fun π : Equiv.Perm B => Agrees ((v, b) :: L) π := by
    rw [cnt, cnt]
    refine Nat.card_le_card_of_injective (fun π => ⟨π.1.trans (Equiv.swap a b), h a b ha hb π.1 π.2⟩) ?_
    rintro ⟨π, h1⟩ ⟨π', h2⟩ e
    rw [Subtype.mk.injEq] at e ⊢
    exact Equiv.ext fun x => (Equiv.swap a b).injective (Equiv.congr_fun e x)
  exact le_antisymm (le y y' hy hy') (le y' y hy' hy)

/-- The values that are not taken. -/
def left (L : List (B × B)) : Finset B := univ.filter (· ∉ L.map Prod.snd)

theorem card_left (L : List (B × B)) (hn : (L.map Prod.snd).Nodup) : (left L).card + L.length = Fintype.card B := by
  have : left L = univ \ (L.map Prod.snd).toFinset := by
    ext x
    simp [left]
  rw [this, card_sdiff_of_subset (subset_univ _), List.toFinset_card_of_nodup hn, List.length_map, card_univ]
  have : (L.map Prod.snd).toFinset.card ≤ Fintype.card B := card_le_univ _
  rw [List.toFinset_card_of_nodup hn, List.length_map] at this
  omega

theorem perms_cons (L : List (B × B)) (v : B) (hv : v ∉ L.map Prod.fst) (E : (B → B) → Prop) :
    cnt (fun π : Equiv.Perm B => Agrees L π ∧ E π) =
      ∑ y ∈ left L, cnt fun π : Equiv.Perm B => Agrees ((v, y) :: L) π ∧ E π := by
  rw [cnt_split _ fun π : Equiv.Perm B => π v, ← sum_subset (subset_univ (left L))]
  · exact sum_congr rfl fun y _ => cnt_congr fun π => by
      rw [agrees_cons]
      tauto
  · intro y _ hy
    refine perms_none L v y hv ?_ E
    simpa [left] using hy

theorem funs_split (L : List (B × B)) (v : B) (E : (B → B) → Prop) :
    ∑ y ∈ left L, cnt (fun f : B → B => Agrees ((v, y) :: L) f ∧ E f) ≤ cnt fun f : B → B => Agrees L f ∧ E f := by
  rw [cnt_split (fun f : B → B => Agrees L f ∧ E f) fun f : B → B => f v]
  refine (sum_le_sum_of_subset (subset_univ (left L))).trans (sum_le_sum fun y _ => cnt_mono fun f => ?_)
  rw [agrees_cons]
  tauto

/-- The number of pairs of asked values. -/
def err : ℕ → ℕ → ℕ
  | _, 0 => 0
  | a, q + 1 => a + err (a + 1) q

theorem err_eq (a q : ℕ) : err a q = a * q + q.choose 2 := by
  induction q generalizing a with
  | zero => rfl
  | succ q ih =>
    rw [err, ih, Nat.choose_succ_succ' q 1, Nat.choose_one_right]
    ring

theorem err_mono (a : ℕ) {q q' : ℕ} (h : q ≤ q') : err a q ≤ err a q' := by
  rw [err_eq, err_eq]
  exact Nat.add_le_add (Nat.mul_le_mul_left _ h) (Nat.choose_le_choose 2 h)

private theorem step_arith (N n a P cF' F cP' e G : ℕ) (hN : n + a = N) (hFG : F ≤ G) (hF : F ≤ n * cF')
    (h : N * P * cF' ≤ N * F * cP' + n * (e * cF' * cP')) :
    N * P * (N * cF') ≤ N * G * (n * cP') + (a + e) * (N * cF') * (n * cP') := by
  have h1 := Nat.mul_le_mul_left N h
  have h2 : N * (N * F * cP') ≤ N * G * (n * cP') + a * (N * cF') * (n * cP') := by
    have h3 : N * (n * F * cP') ≤ N * (n * G * cP') :=
      Nat.mul_le_mul_left _ (Nat.mul_le_mul_right _ (Nat.mul_le_mul_left _ hFG))
    have h4 : N * (a * F * cP') ≤ N * (a * (n * cF') * cP') :=
      Nat.mul_le_mul_left _ (Nat.mul_le_mul_right _ (Nat.mul_le_mul_left _ hF))
    calc N * (N * F * cP') = N * (n * F * cP') + N * (a * F * cP') := by rw [← hN]; ring
      _ ≤ N * (n * G * cP') + N * (a * (n * cF') * cP') := Nat.add_le_add h3 h4
      _ = _ := by ring
  calc N * P * (N * cF') = N * (N * P * cF') := by ring
    _ ≤ N * (N * F * cP' + n * (e * cF' * cP')) := h1
    _ = N * (N * F * cP') + e * (N * cF') * (n * cP') := by ring
    _ ≤ N * G * (n * cP') + a * (N * cF') * (n * cP') + e * (N * cF') * (n * cP') := Nat.add_le_add_right h2 _
    _ = _ := by ring

/-- The switching lemma for somebody who knows some values. -/
theorem switch_from (accept : R → Prop) (D : Asker B B R) (q : ℕ) (hq : D.CostLe (fun _ => 1) (fun _ => 0) q)
    (L : List (B × B)) (h1 : (L.map Prod.fst).Nodup) (h2 : (L.map Prod.snd).Nodup) :
    Fintype.card B * cnt (fun π : Equiv.Perm B => Agrees L π ∧ accept (D.run π)) * cnt (fun f : B → B => Agrees L f) ≤
      Fintype.card B * cnt (fun f : B → B => Agrees L f ∧ accept (D.run f)) * cnt (fun π : Equiv.Perm B => Agrees L π) +
      err L.length q * cnt (fun f : B → B => Agrees L f) * cnt (fun π : Equiv.Perm B => Agrees L π) := by
  induction D generalizing q L with
  | done r =>
    refine le_trans ?_ (Nat.le_add_right _ _)
    simp only [Asker.run]
    by_cases hr : accept r
    · rw [cnt_congr (Q := fun π : Equiv.Perm B => Agrees L π) fun π => ⟨fun h => h.1, fun h => ⟨h, hr⟩⟩,
        cnt_congr (P := fun f : B → B => Agrees L f ∧ _) (Q := fun f : B → B => Agrees L f) fun π =>
          ⟨fun h => h.1, fun h => ⟨h, hr⟩⟩, mul_right_comm]
    · rw [cnt_false (P := fun π : Equiv.Perm B => Agrees L π ∧ _) fun π h => hr h.2, mul_zero, zero_mul]
      exact Nat.zero_le _
  | ask v next ih =>
    obtain ⟨hc, hn⟩ := hq
    obtain ⟨q, rfl⟩ : ∃ q', q = q' + 1 := ⟨q - 1, (Nat.sub_add_cancel hc).symm⟩
    rw [Nat.add_sub_cancel] at hn
    by_cases hv : v ∈ L.map Prod.fst
    · obtain ⟨p, hp, rfl⟩ := List.mem_map.mp hv
      have hrun (f : B → B) (hf : Agrees L f) : (Asker.ask p.1 next).run f = (next p.2).run f := by
        rw [Asker.run, hf p hp]
      rw [cnt_congr (Q := fun π : Equiv.Perm B => Agrees L π ∧ accept ((next p.2).run π)) fun π =>
          and_congr_right fun h => by rw [hrun π h],
        cnt_congr (P := fun f : B → B => Agrees L f ∧ _) (Q := fun f : B → B => Agrees L f ∧ accept ((next p.2).run f))
          fun f => and_congr_right fun h => by rw [hrun f h]]
      refine (ih p.2 q (hn _) L h1 h2).trans (Nat.add_le_add_left ?_ _)
      exact Nat.mul_le_mul_right _ (Nat.mul_le_mul_right _ (err_mono _ (Nat.le_succ q)))
    · have hleft := card_left L h2
      obtain hz | ⟨y0, hy0⟩ := (left L).eq_empty_or_nonempty
      · rw [perms_cons L v hv fun f => accept ((Asker.ask v next).run f), hz, sum_empty, mul_zero, zero_mul]
        exact Nat.zero_le _
      have mem (y : B) : y ∈ left L ↔ y ∉ L.map Prod.snd := by simp [left]
      set cF := cnt fun f : B → B => Agrees ((v, y0) :: L) f with hcF
      set cP := cnt fun π : Equiv.Perm B => Agrees ((v, y0) :: L) π with hcP
      have eF (y : B) : cnt (fun f : B → B => Agrees ((v, y) :: L) f) = cF := by
        have e1 := funs_cons L v y hv
        rw [funs_cons L v y0 hv] at e1
        have : 0 < Fintype.card B := Fintype.card_pos_iff.mpr ⟨v⟩
        exact (Nat.eq_of_mul_eq_mul_left this e1).symm
      have eP (y : B) (hy : y ∈ left L) : cnt (fun π : Equiv.Perm B => Agrees ((v, y) :: L) π) = cP :=
        perms_same L v y y0 ((mem y).mp hy) ((mem y0).mp hy0)
      have each (y : B) (hy : y ∈ left L) :
          Fintype.card B * cnt (fun π : Equiv.Perm B => Agrees ((v, y) :: L) π ∧ accept ((next y).run π)) * cF ≤
            Fintype.card B * cnt (fun f : B → B => Agrees ((v, y) :: L) f ∧ accept ((next y).run f)) * cP +
            err (L.length + 1) q * cF * cP := by
        have := ih y q (hn y) ((v, y) :: L) (List.nodup_cons.mpr ⟨hv, h1⟩) (List.nodup_cons.mpr ⟨(mem y).mp hy, h2⟩)
        rwa [eF, eP y hy] at this
      have same (y : B) (f : B → B) : (Agrees ((v, y) :: L) f ∧ accept ((Asker.ask v next).run f)) ↔
          Agrees ((v, y) :: L) f ∧ accept ((next y).run f) := and_congr_right fun h => by
        rw [Asker.run, ((agrees_cons v y L f).mp h).2]
      have sumP : cnt (fun π : Equiv.Perm B => Agrees L π ∧ accept ((Asker.ask v next).run π)) =
          ∑ y ∈ left L, cnt fun π : Equiv.Perm B => Agrees ((v, y) :: L) π ∧ accept ((next y).run π) := by
        rw [perms_cons L v hv fun f => accept ((Asker.ask v next).run f)]
        exact sum_congr rfl fun y _ => cnt_congr fun π => same y π
      have sumF : ∑ y ∈ left L, cnt (fun f : B → B => Agrees ((v, y) :: L) f ∧ accept ((next y).run f)) ≤
          cnt fun f : B → B => Agrees L f ∧ accept ((Asker.ask v next).run f) := by
        refine le_trans (sum_le_sum fun y _ => ?_) (funs_split L v fun f => accept ((Asker.ask v next).run f))
        exact (cnt_congr fun f => (same y f).symm).le
      have sumB : ∑ y ∈ left L, cnt (fun f : B → B => Agrees ((v, y) :: L) f ∧ accept ((next y).run f)) ≤
          (left L).card * cF := by
        rw [← smul_eq_mul]
        refine sum_le_card_nsmul _ _ _ fun y _ => ?_
        rw [← eF y]
        exact cnt_mono fun f h => h.1
      have total : cnt (fun π : Equiv.Perm B => Agrees L π) = (left L).card * cP := by
        have := perms_cons L v hv fun _ => True
        simp only [and_true] at this
        rw [this, ← smul_eq_mul, ← sum_const]
        exact sum_congr rfl fun y hy => eP y hy
      rw [funs_cons L v y0 hv, total, sumP]
      refine step_arith _ _ L.length _ cF _ cP (err (L.length + 1) q) _ hleft sumF sumB ?_
      have := sum_le_sum each
      rw [← sum_mul, ← mul_sum, sum_add_distrib, ← sum_mul, ← mul_sum, sum_const, smul_eq_mul] at this
      exact this

/-- The switching lemma. -/
theorem switch (accept : R → Prop) (D : Asker B B R) (q : ℕ) (hq : D.CostLe (fun _ => 1) (fun _ => 0) q) :
    Fintype.card B * cnt (fun π : Equiv.Perm B => accept (D.run π)) * Fintype.card (B → B) ≤
      Fintype.card B * cnt (fun f : B → B => accept (D.run f)) * Fintype.card (Equiv.Perm B) +
      q.choose 2 * Fintype.card (B → B) * Fintype.card (Equiv.Perm B) := by
  have h := switch_from accept D q hq [] List.nodup_nil List.nodup_nil
  have t (f : B → B) : Agrees [] f ↔ True := ⟨fun _ => trivial, fun _ p hp => absurd hp List.not_mem_nil⟩
  simp only [t, true_and, cnt_true] at h
  rwa [err_eq, List.length_nil, zero_mul, zero_add] at h

end

/-- What is computed from a function, provided that it has some property, by asking for at most `q` of its values. -/
def Reads {B X : Type} (P : (B → B) → Prop) (q : ℕ) (E : (B → B) → X) : Prop :=
  ∃ T : Asker B B X, T.CostLe (fun _ => 1) (fun _ => 0) q ∧ ∀ f, P f → T.run f = E f

section
variable {B X Y : Type} {P : (B → B) → Prop} {q q' : ℕ}

/-- First one strategy, then another. -/
def bind : Asker B B X → (X → Asker B B Y) → Asker B B Y
  | .done x, k => k x
  | .ask v next, k => .ask v fun y => bind (next y) k

theorem bind_run (f : B → B) (T : Asker B B X) (k : X → Asker B B Y) : (bind T k).run f = (k (T.run f)).run f := by
  induction T with
  | done x => rfl
  | ask v next ih => exact ih _

theorem cost_mono (T : Asker B B X) (h : q ≤ q') (hc : T.CostLe (fun _ => 1) (fun _ => 0) q) :
    T.CostLe (fun _ => 1) (fun _ => 0) q' := by
  induction T generalizing q q' with
  | done x => exact Nat.zero_le _
  | ask v next ih => exact ⟨hc.1.trans h, fun y => ih y (Nat.sub_le_sub_right h 1) (hc.2 y)⟩

theorem bind_cost (T : Asker B B X) (k : X → Asker B B Y) (h : T.CostLe (fun _ => 1) (fun _ => 0) q)
    (hk : ∀ x, (k x).CostLe (fun _ => 1) (fun _ => 0) q') : (bind T k).CostLe (fun _ => 1) (fun _ => 0) (q + q') := by
  induction T generalizing q with
  | done x => exact cost_mono _ (Nat.le_add_left _ _) (hk x)
  | ask v next ih =>
    refine ⟨h.1.trans (Nat.le_add_right _ _), fun y => ?_⟩
    have := ih y (h.2 y)
    have h1 : 1 ≤ q := h.1
    rwa [show q + q' - 1 = q - 1 + q' by omega]

theorem Reads.mono {E : (B → B) → X} (h : Reads P q E) (hq : q ≤ q') : Reads P q' E := by
  obtain ⟨T, h1, h2⟩ := h
  exact ⟨T, cost_mono T hq h1, h2⟩

theorem Reads.weaken {P' : (B → B) → Prop} {E : (B → B) → X} (h : Reads P q E) (hP : ∀ f, P' f → P f) : Reads P' q E := by
  obtain ⟨T, h1, h2⟩ := h
  exact ⟨T, h1, fun f hf => h2 f (hP f hf)⟩

/-- What is the same for all functions with the property. -/
theorem Reads.known [Nonempty X] {E : (B → B) → X} (h : ∀ f f', P f → P f' → E f = E f') : Reads P 0 E := by
  by_cases hf : ∃ f, P f
  · obtain ⟨f0, h0⟩ := hf
    exact ⟨.done (E f0), Nat.zero_le _, fun f hf => h f0 f h0 hf⟩
  · exact ⟨.done (Classical.arbitrary X), Nat.zero_le _, fun f h => absurd ⟨f, h⟩ hf⟩

theorem Reads.value (P : (B → B) → Prop) (x : B) : Reads P 1 fun f => f x :=
  ⟨.ask x .done, ⟨le_rfl, fun _ => Nat.zero_le _⟩, fun _ _ => rfl⟩

theorem Reads.bind {E : (B → B) → X} {E' : X → (B → B) → Y} (h : Reads P q E)
    (h' : ∀ x, Reads (fun f => P f ∧ E f = x) q' (E' x)) : Reads P (q + q') fun f => E' (E f) f := by
  obtain ⟨T, h1, h2⟩ := h
  choose k hk1 hk2 using h'
  refine ⟨Prf.bind T k, bind_cost T k h1 hk1, fun f hf => ?_⟩
  rw [bind_run, h2 f hf]
  exact hk2 _ f ⟨hf, rfl⟩

/-- What is determined by something else. -/
theorem Reads.of [Nonempty Y] {E : (B → B) → X} {E' : (B → B) → Y} (h : Reads P q E)
    (h' : ∀ f f', P f → P f' → E f = E f' → E' f = E' f') : Reads P q E' :=
  Reads.bind (E' := fun _ => E') h fun _ => Reads.known fun f f' h1 h2 => h' f f' h1.1 h2.1 (h1.2.trans h2.2.symm)

theorem Reads.congr {E E' : (B → B) → X} (h : Reads P q E) (h' : ∀ f, P f → E f = E' f) : Reads P q E' := by
  obtain ⟨T, h1, h2⟩ := h
  exact ⟨T, h1, fun f hf => (h2 f hf).trans (h' f hf)⟩

/-- The functions may as well have the value at one place that they have there. -/
theorem Reads.after {E : (B → B) → X} {E' : (B → B) → Y} (h : Reads P q E)
    (h' : ∀ x, Reads (fun f => P f ∧ E f = x) q' E') : Reads P (q + q') E' := Reads.bind (E' := fun _ => E') h h'

/-- A strategy whose answers are computed. -/
theorem Reads.run {V A R : Type} {g : (B → B) → V → A} {cost : V → ℕ} {S : V → Prop}
    (h : ∀ v, S v → Reads P (cost v) fun f => g f v) (D : Asker V A R) {c : ℕ}
    (hc : D.CostLe cost (fun _ => 0) c) (hS : D.Within S) : Reads P c fun f => D.run (g f) := by
  induction D generalizing P c with
  | done r => exact ⟨.done r, Nat.zero_le _, fun _ _ => rfl⟩
  | ask v next ih =>
    have h2 := Reads.bind (E' := fun a f => (next a).run (g f)) (h v hS.1) fun a => ih a
      (fun v hv => (h v hv).weaken fun f hf => hf.1) (hc.2 a) (hS.2 a)
    have h1 := hc.1
    rwa [show cost v + (c - cost v) = c by omega] at h2

/-- The questions of a strategy together with the answers. -/
theorem Reads.asked {V A R : Type} {g : (B → B) → V → A} {cost : V → ℕ} {S : V → Prop}
    (h : ∀ v, S v → Reads P (cost v) fun f => g f v) (D : Asker V A R) {c : ℕ}
    (hc : D.CostLe cost (fun _ => 0) c) (hS : D.Within S) :
    Reads P c fun f => (D.asked (g f)).map fun v => (v, g f v) := by
  induction D generalizing P c with
  | done r => exact ⟨.done [], Nat.zero_le _, fun _ _ => rfl⟩
  | ask v next ih =>
    have h2 := Reads.bind (E' := fun a f => (v, a) :: ((next a).asked (g f)).map fun v => (v, g f v)) (h v hS.1) fun a =>
      (ih a (fun v hv => (h v hv).weaken fun f hf => hf.1) (hc.2 a) (hS.2 a)).of fun f f' _ _ e => by rw [e]
    have h1 := hc.1
    rwa [show cost v + (c - cost v) = c by omega] at h2

/-- The questions with the answers determine the result. -/
theorem run_of_asked {V A R : Type} (D : Asker V A R) {g g' : V → A}
    (h : (D.asked g).map (fun v => (v, g v)) = (D.asked g').map fun v => (v, g' v)) : D.run g = D.run g' := by
  induction D with
  | done r => rfl
  | ask v next ih =>
    rw [Asker.asked, Asker.asked, List.map_cons, List.map_cons, List.cons.injEq, Prod.mk.injEq] at h
    rw [Asker.run, Asker.run]
    obtain ⟨⟨-, e⟩, h⟩ := h
    rw [← e] at h ⊢
    exact ih _ h

theorem asked_of_asked {V A R : Type} (D : Asker V A R) {g g' : V → A}
    (h : (D.asked g).map (fun v => (v, g v)) = (D.asked g').map fun v => (v, g' v)) :
    D.asked g = D.asked g' ∧ ∀ v ∈ D.asked g, g v = g' v := by
  have h1 : D.asked g = D.asked g' := by
    have := congrArg (List.map Prod.fst) h
    rw [List.map_map, List.map_map] at this
    simpa [Function.comp_def] using this
  refine ⟨h1, fun v hv => ?_⟩
  rw [← h1, List.map_inj_left] at h
  exact (Prod.mk.inj (h v hv)).2

variable [Fintype B] [DecidableEq B]

/-- The switching lemma for what is computed. -/
theorem Reads.switch {E : (B → B) → Prop} (h : Reads (fun _ => True) q E) :
    Fintype.card B * cnt (fun π : Equiv.Perm B => E π) * Fintype.card (B → B) ≤
      Fintype.card B * cnt E * Fintype.card (Equiv.Perm B) +
      q.choose 2 * Fintype.card (B → B) * Fintype.card (Equiv.Perm B) := by
  obtain ⟨T, h1, h2⟩ := h
  have := Prf.switch (fun p => p) T q h1
  simp only [h2 _ trivial] at this
  exact this

end

end Cryptopy.Prf
