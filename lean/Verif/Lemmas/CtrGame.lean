import Verif.Lemmas.PrfGame

/-!
The key stream of a random function at counters that start at random values can not be told from random blocks: used for
C165.
-/

namespace Cryptopy.Prf
open Finset Function Spec

variable {B : Type} [Fintype B] [DecidableEq B] [AddCommGroup B] {V R : Type} [DecidableEq V]

omit [DecidableEq B] [AddCommGroup B] in
/-- Values at different places are independent. -/
theorem card_points {X P : Type} [DecidableEq X] [Fintype X] [DecidableEq P] (loc : P → X) (τ : P → B) (Z : Finset P)
    (hZ : Set.InjOn loc Z) :
    Fintype.card B ^ Z.card * cnt (fun g : X → B => ∀ p ∈ Z, g (loc p) = τ p) = Fintype.card (X → B) := by
  classical
  induction Z using Finset.induction_on with
  | empty => simp [cnt_true]
  | insert m Z hm ih =>
    have key := card_resample (fun g : X → B => ∀ p ∈ Z, g (loc p) = τ p) (fun _ => loc m) (fun _ => τ m) (by
      intro g hg y
      refine ⟨fun p hp => ?_, rfl, rfl⟩
      rw [update_of_ne, hg p hp]
      intro e
      have := hZ (mem_insert_of_mem hp) (mem_insert_self m Z) e
      exact hm (this ▸ hp))
    rw [card_insert_of_notMem hm, pow_succ, mul_assoc, ← ih (hZ.mono fun p hp => mem_insert_of_mem hp), ← key]
    congr 2
    refine cnt_congr fun g => ?_
    rw [forall_mem_insert]
    exact and_comm

variable (S : Finset V) (ctr : B → ℕ → B)

/-- The starting value of a query. -/
def start (g : S ⊕ B → B) (v : V) : B := ext S (fun s => g (.inl s)) v

/-- What a query is answered with, block by block: the starting value and the key stream. -/
def piece (g : S ⊕ B → B) : V × ℕ → B
  | (v, 0) => start S g v
  | (v, k + 1) => g (.inr (ctr (start S g v) k))

variable (n : V → ℕ)

/-- No block of the key stream is asked for before the starting value. -/
def Proper : Asker (V × ℕ) B R → (V → Prop) → Prop
  | .done _, _ => True
  | .ask (v, 0) next, W => ∀ t, Proper (next t) fun w => w = v ∨ W w
  | .ask (v, k + 1) next, W => (W v ∧ k < n v) ∧ ∀ t, Proper (next t) W

/-- What an answer costs. -/
def price : V × ℕ → ℕ
  | (v, 0) => n v
  | (_, _ + 1) => 0

/-- The answers `τ` of the pieces in `Z`, with the starting values for `W`, overlap nowhere. -/
structure Clear (τ : V × ℕ → B) (Z : Finset (V × ℕ)) (W : Finset V) : Prop where
  inS : W ⊆ S
  zero : ∀ v, (v, 0) ∈ Z ↔ v ∈ W
  succ : ∀ v k, (v, k + 1) ∈ Z → v ∈ W ∧ k < n v
  apart : ∀ v ∈ W, ∀ v' ∈ W, ∀ k < n v, ∀ k' < n v', ctr (τ (v, 0)) k = ctr (τ (v', 0)) k' → v = v'

/-- Where the pieces are. -/
def spot (τ : V × ℕ → B) : V × ℕ → S ⊕ B
  | (v, 0) => if h : v ∈ S then .inl ⟨v, h⟩ else .inr 0
  | (v, k + 1) => .inr (ctr (τ (v, 0)) k)

variable {S ctr n}

omit [Fintype B] [DecidableEq B] in
theorem piece_iff {τ : V × ℕ → B} {Z : Finset (V × ℕ)} {W : Finset V} (hC : Clear S ctr n τ Z W) (g : S ⊕ B → B) :
    (∀ p ∈ Z, piece S ctr g p = τ p) ↔ ∀ p ∈ Z, g (spot S ctr τ p) = τ p := by
  have h0 : ∀ v, (v, 0) ∈ Z → g (spot S ctr τ (v, 0)) = start S g v := by
    intro v hv
    have hS := hC.inS ((hC.zero v).mp hv)
    rw [spot, dif_pos hS, start, ext, dif_pos hS]
  constructor
  · rintro h ⟨v, k | k⟩ hp
    · rw [h0 v hp]
      exact h _ hp
    · have hv := (hC.zero v).mpr (hC.succ v k hp).1
      have h1 : start S g v = τ (v, 0) := h _ hv
      rw [spot, ← h1]
      exact h _ hp
  · rintro h ⟨v, k | k⟩ hp
    · change start S g v = _
      rw [← h0 v hp]
      exact h _ hp
    · have hv := (hC.zero v).mpr (hC.succ v k hp).1
      have h1 := h _ hv
      rw [h0 v hv] at h1
      rw [piece, h1]
      exact h _ hp

omit [Fintype B] [DecidableEq B] in
theorem spot_injOn {τ : V × ℕ → B} {Z : Finset (V × ℕ)} {W : Finset V} (hC : Clear S ctr n τ Z W)
    (hn : ∀ v ∈ S, ∀ t, ∀ k < n v, ∀ k' < n v, ctr t k = ctr t k' → k = k') : Set.InjOn (spot S ctr τ) Z := by
  rintro ⟨v, k | k⟩ hp ⟨v', k' | k'⟩ hp' e
  · have hS := hC.inS ((hC.zero v).mp hp)
    have hS' := hC.inS ((hC.zero v').mp hp')
    rw [spot, spot, dif_pos hS, dif_pos hS', Sum.inl.injEq, Subtype.mk.injEq] at e
    rw [e]
  · rw [spot, spot, dif_pos (hC.inS ((hC.zero v).mp hp))] at e
    cases e
  · rw [spot, spot, dif_pos (hC.inS ((hC.zero v').mp hp'))] at e
    cases e
  · obtain ⟨hv, hk⟩ := hC.succ v k hp
    obtain ⟨hv', hk'⟩ := hC.succ v' k' hp'
    rw [spot, spot, Sum.inr.injEq] at e
    have := hC.apart v hv v' hv' k hk k' hk' e
    subst this
    rw [hn v (hC.inS hv) _ k hk k' hk' e]

theorem card_piece {τ : V × ℕ → B} {Z : Finset (V × ℕ)} {W : Finset V} (hC : Clear S ctr n τ Z W)
    (hn : ∀ v ∈ S, ∀ t, ∀ k < n v, ∀ k' < n v, ctr t k = ctr t k' → k = k') :
    Fintype.card B ^ Z.card * cnt (fun g : S ⊕ B → B => ∀ p ∈ Z, piece S ctr g p = τ p) =
      Fintype.card (S ⊕ B → B) := by
  classical
  rw [cnt_congr (piece_iff hC)]
  exact card_points _ τ Z (spot_injOn hC hn)

omit [Fintype B] [DecidableEq B] [AddCommGroup B] in
/-- One more block of the key stream. -/
theorem Clear.succ_step {τ : V × ℕ → B} {Z : Finset (V × ℕ)} {W : Finset V} (hC : Clear S ctr n τ Z W) {v : V} {k : ℕ}
    (hv : v ∈ W) (hk : k < n v) (t : B) : Clear S ctr n (update τ (v, k + 1) t) (insert (v, k + 1) Z) W where
  inS := hC.inS
  zero w := by
    rw [mem_insert, hC.zero]
    simp
  succ w j h := by
    rcases mem_insert.mp h with h | h
    · rw [Prod.mk.injEq] at h
      obtain ⟨rfl, h⟩ := h
      exact ⟨hv, by omega⟩
    · exact hC.succ w j h
  apart w hw w' hw' j hj j' hj' e := by
    rw [update_of_ne (by simp), update_of_ne (by simp)] at e
    exact hC.apart w hw w' hw' j hj j' hj' e

omit [Fintype B] [DecidableEq B] [AddCommGroup B] in
/-- One more starting value. -/
theorem Clear.zero_step {τ : V × ℕ → B} {Z : Finset (V × ℕ)} {W : Finset V} (hC : Clear S ctr n τ Z W) {v : V}
    (hv : v ∉ W) (hS : v ∈ S) (t : B)
    (ht : ∀ k < n v, ∀ v' ∈ W, ∀ k' < n v', ctr t k ≠ ctr (τ (v', 0)) k') :
    Clear S ctr n (update τ (v, 0) t) (insert (v, 0) Z) (insert v W) where
  inS := insert_subset hS hC.inS
  zero w := by
    rw [mem_insert, mem_insert, hC.zero]
    simp
  succ w j h := by
    rcases mem_insert.mp h with h | h
    · simp at h
    · obtain ⟨h1, h2⟩ := hC.succ w j h
      exact ⟨mem_insert_of_mem h1, h2⟩
  apart w hw w' hw' j hj j' hj' e := by
    have ne : ∀ w ∈ W, (w, 0) ≠ (v, 0) := fun w hw e => hv ((Prod.mk.inj e).1 ▸ hw)
    rcases mem_insert.mp hw with h | h <;> rcases mem_insert.mp hw' with h' | h'
    · rw [h, h']
    · rw [h] at e hj
      rw [update_self, update_of_ne (ne w' h')] at e
      exact absurd e (ht j hj w' h' j' hj')
    · rw [h'] at e hj'
      rw [update_self, update_of_ne (ne w h)] at e
      exact absurd e.symm (ht j' hj' w h j hj)
    · rw [update_of_ne (ne w h), update_of_ne (ne w' h')] at e
      exact hC.apart w h w' h' j hj j' hj' e

/-- A starting value that is not known yet. -/
theorem card_fresh {τ : V × ℕ → B} {Z : Finset (V × ℕ)} {W : Finset V} (hC : Clear S ctr n τ Z W)
    (hn : ∀ v ∈ S, ∀ t, ∀ k < n v, ∀ k' < n v, ctr t k = ctr t k' → k = k') {v : V} (hv : v ∉ W) (hS : v ∈ S) (t : B) :
    Fintype.card B ^ (Z.card + 1) * cnt (fun g : S ⊕ B → B => (∀ p ∈ Z, piece S ctr g p = τ p) ∧ start S g v = t) =
      Fintype.card (S ⊕ B → B) := by
  classical
  have hZ : (v, 0) ∉ Z := fun h => hv ((hC.zero v).mp h)
  have key := card_points (spot S ctr τ) (update τ (v, 0) t) (insert (v, 0) Z) (by
    rw [coe_insert, Set.injOn_insert (by exact_mod_cast hZ)]
    refine ⟨spot_injOn hC hn, ?_⟩
    rintro ⟨⟨w, k | k⟩, hp, e⟩
    · have hw := hC.inS ((hC.zero w).mp hp)
      rw [spot, spot, dif_pos hS, dif_pos hw, Sum.inl.injEq, Subtype.mk.injEq] at e
      rw [e] at hp
      exact hZ hp
    · rw [spot, spot, dif_pos hS] at e
      cases e)
  rw [card_insert_of_notMem hZ] at key
  rw [← key]
  congr 1
  refine cnt_congr fun g => ?_
  rw [piece_iff hC, forall_mem_insert, update_self, spot, dif_pos hS, start, ext, dif_pos hS, and_comm]
  refine and_congr_right fun _ => forall_congr' fun p => forall_congr' fun hp => ?_
  rw [update_of_ne]
  rintro rfl
  exact hZ hp

/-- Whoever asks for starting values and key streams: what they do with counters they do almost as often with random
blocks. -/
theorem card_ctr (T : Finset (V × ℕ)) (hT0 : ∀ v ∈ S, (v, 0) ∈ T) (hT : ∀ v ∈ S, ∀ k < n v, (v, k + 1) ∈ T)
    (hn : ∀ v ∈ S, ∀ t, ∀ k < n v, ∀ k' < n v, ctr t k = ctr t k' → k = k') (h : ℕ)
    (hh : ∀ k b, (univ.filter fun t => ctr t k = b).card ≤ 2 * h) (acc : R → Prop) (D : Asker (V × ℕ) B R)
    (τ : V × ℕ → B) (Z : Finset (V × ℕ)) (W : Finset V) (hC : Clear S ctr n τ Z W) (hP : Proper n D (· ∈ W)) (c : ℕ)
    (hc : D.CostLe (price n) (fun _ => 0) c) (hw : D.Within fun p => p.1 ∈ S) :
    Fintype.card B ^ (Z.card + 1) *
        cnt (fun g : S ⊕ B → B => (∀ p ∈ Z, piece S ctr g p = τ p) ∧ acc (D.run (piece S ctr g))) * Fintype.card (T → B) +
        h * (∑ v ∈ W, n v) ^ 2 * Fintype.card (S ⊕ B → B) * Fintype.card (T → B) ≤
      Fintype.card B ^ (Z.card + 1) * cnt (fun ρ : T → B => (∀ p ∈ Z, ext T ρ p = τ p) ∧ acc (D.run (ext T ρ))) *
        Fintype.card (S ⊕ B → B) + h * (∑ v ∈ W, n v + c) ^ 2 * Fintype.card (S ⊕ B → B) * Fintype.card (T → B) := by
  have hN : 0 < Fintype.card B := Fintype.card_pos_iff.mpr ⟨0⟩
  induction D generalizing τ Z W c with
  | done r =>
    have hmono : h * (∑ v ∈ W, n v) ^ 2 ≤ h * (∑ v ∈ W, n v + c) ^ 2 :=
      Nat.mul_le_mul_left _ (Nat.pow_le_pow_left (Nat.le_add_right _ _) 2)
    refine Nat.add_le_add ?_ (Nat.mul_le_mul_right _ (Nat.mul_le_mul_right _ hmono))
    by_cases hr : acc r
    · have h1 := card_piece hC hn
      have hZT : Z ⊆ T := by
        rintro ⟨v, k | k⟩ hp
        · exact hT0 v (hC.inS ((hC.zero v).mp hp))
        · obtain ⟨hv, hk⟩ := hC.succ v k hp
          exact hT v (hC.inS hv) k hk
      have h2 := card_ext τ T Z hZT
      have e1 : cnt (fun g : S ⊕ B → B => (∀ p ∈ Z, piece S ctr g p = τ p) ∧
          acc (Asker.run (piece S ctr g) (.done r))) = cnt fun g : S ⊕ B → B => ∀ p ∈ Z, piece S ctr g p = τ p :=
        cnt_congr fun g => ⟨fun h => h.1, fun h => ⟨h, hr⟩⟩
      have e2 : cnt (fun ρ : T → B => (∀ m ∈ Z, ext T ρ m = τ m) ∧ acc (Asker.run (ext T ρ) (.done r))) =
          cnt fun ρ : T → B => ∀ m ∈ Z, ext T ρ m = τ m := cnt_congr fun ρ => ⟨fun h => h.1, fun h => ⟨h, hr⟩⟩
      rw [e1, e2, pow_succ, mul_comm (_ ^ _), mul_assoc (Fintype.card B), h1,
        mul_assoc (Fintype.card B) _ (cnt fun ρ : T → B => ∀ m ∈ Z, ext T ρ m = τ m), h2, mul_assoc, mul_assoc,
        mul_comm (Fintype.card (T → B))]
    · rw [cnt_false fun f h => hr h.2]
      simp
  | ask p next ih =>
    obtain ⟨hc1, hc2⟩ := hc
    obtain ⟨hw1, hw2⟩ := hw
    by_cases hp : p ∈ Z
    · -- the answer is known
      have hP' : Proper n (next (τ p)) (· ∈ W) := by
        obtain ⟨v, k | k⟩ := p
        · have := hP (τ (v, 0))
          have hv := (hC.zero v).mp hp
          have e : (fun w => w = v ∨ w ∈ W) = (· ∈ W) := by
            funext w
            exact propext ⟨fun h => h.elim (fun h => h ▸ hv) id, Or.inr⟩
          rwa [e] at this
        · exact hP.2 _
      have h1 := ih (τ p) τ Z W hC hP' _ (hc2 (τ p)) (hw2 (τ p))
      have e1 : cnt (fun g : S ⊕ B → B => (∀ p ∈ Z, piece S ctr g p = τ p) ∧
          acc (Asker.run (piece S ctr g) (.ask p next))) = cnt fun g : S ⊕ B → B =>
            (∀ p ∈ Z, piece S ctr g p = τ p) ∧ acc ((next (τ p)).run (piece S ctr g)) := by
        refine cnt_congr fun f => and_congr_right fun h => ?_
        rw [run_ask, h p hp]
      have e2 : cnt (fun ρ : T → B => (∀ m ∈ Z, ext T ρ m = τ m) ∧ acc (Asker.run (ext T ρ) (.ask p next))) =
          cnt fun ρ : T → B => (∀ m ∈ Z, ext T ρ m = τ m) ∧ acc ((next (τ p)).run (ext T ρ)) := by
        refine cnt_congr fun ρ => and_congr_right fun h => ?_
        rw [run_ask, h p hp]
      rw [e1, e2]
      refine h1.trans (Nat.add_le_add_left (Nat.mul_le_mul_right _ (Nat.mul_le_mul_right _ (Nat.mul_le_mul_left _ ?_))) _)
      exact Nat.pow_le_pow_left (by omega) 2
    · have upd : ∀ t, ∀ m' ∈ Z, update τ p t m' = τ m' := fun t m' hm' =>
        update_of_ne (fun e : m' = p => hp (e ▸ hm')) _ _
      have e1 : cnt (fun g : S ⊕ B → B => (∀ p ∈ Z, piece S ctr g p = τ p) ∧
          acc (Asker.run (piece S ctr g) (.ask p next))) = ∑ t, cnt fun g : S ⊕ B → B =>
            (∀ q ∈ insert p Z, piece S ctr g q = update τ p t q) ∧ acc ((next t).run (piece S ctr g)) := by
        rw [cnt_split _ fun g => piece S ctr g p]
        refine sum_congr rfl fun t _ => cnt_congr fun g => ?_
        rw [run_ask, forall_mem_insert, update_self]
        constructor
        · rintro ⟨⟨h2, h3⟩, rfl⟩
          exact ⟨⟨rfl, fun m' hm' => by rw [upd _ m' hm', h2 m' hm']⟩, h3⟩
        · rintro ⟨⟨rfl, h2⟩, h3⟩
          exact ⟨⟨fun m' hm' => by rw [h2 m' hm', upd _ m' hm'], h3⟩, rfl⟩
      have e2 : cnt (fun ρ : T → B => (∀ m ∈ Z, ext T ρ m = τ m) ∧ acc (Asker.run (ext T ρ) (.ask p next))) =
          ∑ t, cnt fun ρ : T → B => (∀ m' ∈ insert p Z, ext T ρ m' = update τ p t m') ∧ acc ((next t).run (ext T ρ)) := by
        rw [cnt_split _ fun ρ => ext T ρ p]
        refine sum_congr rfl fun t _ => cnt_congr fun ρ => ?_
        rw [run_ask, forall_mem_insert, update_self]
        constructor
        · rintro ⟨⟨h2, h3⟩, rfl⟩
          exact ⟨⟨rfl, fun m' hm' => by rw [upd _ m' hm', h2 m' hm']⟩, h3⟩
        · rintro ⟨⟨rfl, h2⟩, h3⟩
          exact ⟨⟨fun m' hm' => by rw [h2 m' hm', upd _ m' hm'], h3⟩, rfl⟩
      rw [e1, e2]
      set KX := Fintype.card (S ⊕ B → B) with hKX
      set KT := Fintype.card (T → B) with hKT
      set N := Fintype.card B with hNdef
      obtain ⟨v, k | k⟩ := p
      · -- a starting value
        have hv : v ∉ W := fun h => hp ((hC.zero v).mpr h)
        have hSv : v ∈ S := hw1
        set bad : Finset B := (range (n v)).biUnion fun k => W.biUnion fun v' => (range (n v')).biUnion fun k' =>
          univ.filter fun t => ctr t k = ctr (τ (v', 0)) k' with hbad
        have hbc : bad.card ≤ 2 * h * (n v * ∑ v ∈ W, n v) := by
          refine card_biUnion_le.trans ?_
          refine (sum_le_sum (g := fun _ => 2 * h * ∑ v ∈ W, n v) fun k _ => ?_).trans ?_
          · refine card_biUnion_le.trans ?_
            rw [mul_sum]
            refine sum_le_sum fun v' _ => ?_
            refine card_biUnion_le.trans ?_
            refine (sum_le_sum (g := fun _ => 2 * h) fun k' _ => hh k _).trans ?_
            rw [sum_const, card_range, smul_eq_mul, mul_comm]
          · rw [sum_const, card_range, smul_eq_mul]
            exact le_of_eq (by ring)
        have hsum : ∑ w ∈ insert v W, n w = n v + ∑ w ∈ W, n w := sum_insert hv
        set u := ∑ w ∈ W, n w with hu
        have hc1 : n v ≤ c := hc1
        have each : ∀ t, N ^ (Z.card + 1 + 1) * cnt (fun g : S ⊕ B → B =>
              (∀ q ∈ insert (v, 0) Z, piece S ctr g q = update τ (v, 0) t q) ∧ acc ((next t).run (piece S ctr g))) * KT +
            h * (n v + u) ^ 2 * KX * KT ≤
            N ^ (Z.card + 1 + 1) * cnt (fun ρ : T → B =>
              (∀ m' ∈ insert (v, 0) Z, ext T ρ m' = update τ (v, 0) t m') ∧ acc ((next t).run (ext T ρ))) * KX +
            h * (u + c) ^ 2 * KX * KT + (if t ∈ bad then N * KX * KT else 0) := by
          intro t
          by_cases ht : t ∈ bad
          · rw [if_pos ht]
            have h1 := card_fresh hC hn hv hSv t
            have h2 : cnt (fun g : S ⊕ B → B =>
                (∀ q ∈ insert (v, 0) Z, piece S ctr g q = update τ (v, 0) t q) ∧ acc ((next t).run (piece S ctr g))) ≤
                cnt (fun g : S ⊕ B → B => (∀ p ∈ Z, piece S ctr g p = τ p) ∧ start S g v = t) := by
              refine cnt_mono fun g hg => ?_
              have hg := hg.1
              rw [forall_mem_insert, update_self] at hg
              exact ⟨fun q hq => by rw [hg.2 q hq, upd t q hq], hg.1⟩
            have h3 := Nat.mul_le_mul_left (N ^ (Z.card + 1)) h2
            rw [h1, ← hKX] at h3
            have h4 := Nat.mul_le_mul_right KT (Nat.mul_le_mul_left N h3)
            have h5 : h * (n v + u) ^ 2 * KX * KT ≤ h * (u + c) ^ 2 * KX * KT :=
              Nat.mul_le_mul_right _ (Nat.mul_le_mul_right _ (Nat.mul_le_mul_left _ (Nat.pow_le_pow_left (by omega) 2)))
            rw [← mul_assoc, ← pow_succ'] at h4
            have h6 := Nat.add_le_add h4 h5
            refine h6.trans ?_
            rw [add_comm (N * KX * KT), add_assoc]
            exact Nat.le_add_left _ _
          · rw [if_neg ht, add_zero]
            have hclear := hC.zero_step hv hSv t (fun k hk v' hv' k' hk' e => ht (by
              rw [hbad]
              simp only [mem_biUnion, mem_range, mem_filter, mem_univ, true_and]
              exact ⟨k, hk, v', hv', k', hk', e⟩))
            have hP' : Proper n (next t) (· ∈ insert v W) := by
              have := hP t
              have e : (fun w => w = v ∨ w ∈ W) = (· ∈ insert v W) := by
                funext w
                exact propext mem_insert.symm
              rwa [e] at this
            have h1 := ih t (update τ (v, 0) t) (insert (v, 0) Z) (insert v W) hclear hP' _ (hc2 t) (hw2 t)
            rw [card_insert_of_notMem hp, hsum] at h1
            have e : n v + u + (c - price n (v, 0)) = u + c := by
              change n v + u + (c - n v) = u + c
              omega
            rw [e] at h1
            exact h1
        have tot := sum_le_sum fun t (_ : t ∈ (univ : Finset B)) => each t
        simp only [sum_add_distrib, ← sum_mul, ← mul_sum, sum_const, card_univ, smul_eq_mul] at tot
        rw [← sum_filter, sum_const, smul_eq_mul, filter_mem_eq_inter, univ_inter, ← hNdef] at tot
        refine Nat.le_of_mul_le_mul_left ?_ hN
        have hb := Nat.mul_le_mul_right (N * KX * KT) hbc
        have hpos := Nat.zero_le (N * h * (n v) ^ 2 * KX * KT)
        rw [pow_succ N (Z.card + 1)] at tot
        linarith
      · -- a block of the key stream
        obtain ⟨⟨hv, hk⟩, hP'⟩ := hP
        have each : ∀ t, _ := fun t => ih t (update τ (v, k + 1) t) (insert (v, k + 1) Z) W (hC.succ_step hv hk t) (hP' t)
          _ (hc2 t) (hw2 t)
        simp only [card_insert_of_notMem hp] at each
        have tot := sum_le_sum fun t (_ : t ∈ (univ : Finset B)) => each t
        simp only [sum_add_distrib, ← sum_mul, ← mul_sum, sum_const, card_univ, smul_eq_mul] at tot
        have e : c - price n (v, k + 1) = c := rfl
        rw [e, ← hNdef] at tot
        refine Nat.le_of_mul_le_mul_left ?_ hN
        rw [pow_succ N (Z.card + 1)] at tot
        linarith

/-- The same without answers known before. -/
theorem card_ctr_start (T : Finset (V × ℕ)) (hT0 : ∀ v ∈ S, (v, 0) ∈ T) (hT : ∀ v ∈ S, ∀ k < n v, (v, k + 1) ∈ T)
    (hn : ∀ v ∈ S, ∀ t, ∀ k < n v, ∀ k' < n v, ctr t k = ctr t k' → k = k') (h : ℕ)
    (hh : ∀ k b, (univ.filter fun t => ctr t k = b).card ≤ 2 * h) (acc : R → Prop) (D : Asker (V × ℕ) B R)
    (hP : Proper n D fun _ => False) (c : ℕ) (hc : D.CostLe (price n) (fun _ => 0) c)
    (hw : D.Within fun p => p.1 ∈ S) :
    Fintype.card B * cnt (fun g : S ⊕ B → B => acc (D.run (piece S ctr g))) * Fintype.card (T → B) ≤
      Fintype.card B * cnt (fun ρ : T → B => acc (D.run (ext T ρ))) * Fintype.card (S ⊕ B → B) +
        h * c ^ 2 * Fintype.card (S ⊕ B → B) * Fintype.card (T → B) := by
  have h1 := card_ctr T hT0 hT hn h hh acc D (fun _ => 0) ∅ ∅ ⟨by simp, by simp, by simp, by simp⟩
    (by simpa using hP) c hc hw
  simpa using h1

/-- Ask for these pieces, one after the other. -/
def askFrom (v : V) (j : ℕ) : ℕ → List B → (List B → Asker (V × ℕ) B R) → Asker (V × ℕ) B R
  | 0, a, cont => cont a
  | m + 1, a, cont => .ask (v, j) fun b => askFrom v (j + 1) m (a ++ [b]) cont

omit [Fintype B] [DecidableEq B] [AddCommGroup B] [DecidableEq V] in
theorem askFrom_run (F : V × ℕ → B) (v : V) (j m : ℕ) (a : List B) (cont : List B → Asker (V × ℕ) B R) :
    (askFrom v j m a cont).run F = (cont (a ++ (List.range' j m).map fun i => F (v, i))).run F := by
  induction m generalizing j a with
  | zero => simp [askFrom]
  | succ m ih =>
    rw [askFrom, run_ask, ih, List.range'_succ, List.map_cons, List.append_assoc, List.singleton_append]

omit [Fintype B] [DecidableEq B] [AddCommGroup B] [DecidableEq V] in
theorem askFrom_within (P : V → Prop) (v : V) (hv : P v) (j m : ℕ) (a : List B)
    (cont : List B → Asker (V × ℕ) B R) (hc : ∀ l, (cont l).Within fun p => P p.1) :
    (askFrom v j m a cont).Within fun p => P p.1 := by
  induction m generalizing j a with
  | zero => exact hc a
  | succ m ih => exact ⟨hv, fun b => ih _ _⟩

omit [Fintype B] [DecidableEq B] [AddCommGroup B] [DecidableEq V] in
theorem proper_mono {D : Asker (V × ℕ) B R} {W W' : V → Prop} (h : ∀ v, W v → W' v) (hD : Proper n D W) :
    Proper n D W' := by
  induction D generalizing W W' with
  | done r => trivial
  | ask p next ih =>
    obtain ⟨v, k | k⟩ := p
    · exact fun t => ih t (fun w hw => hw.imp id (h w)) (hD t)
    · exact ⟨⟨h v hD.1.1, hD.1.2⟩, fun t => ih t h (hD.2 t)⟩

omit [Fintype B] [DecidableEq B] [AddCommGroup B] [DecidableEq V] in
theorem askFrom_proper (v : V) (j m : ℕ) (hm : j + m ≤ n v) (a : List B) (W : V → Prop) (hv : W v)
    (cont : List B → Asker (V × ℕ) B R) (hc : ∀ l, Proper n (cont l) W) : Proper n (askFrom v (j + 1) m a cont) W := by
  induction m generalizing j a with
  | zero => exact hc a
  | succ m ih => exact ⟨⟨hv, by omega⟩, fun b => ih (j + 1) (by omega) _⟩

omit [Fintype B] [DecidableEq B] [AddCommGroup B] [DecidableEq V] in
theorem askFrom_cost (v : V) (j m : ℕ) (a : List B) (c : ℕ) (cont : List B → Asker (V × ℕ) B R)
    (hc : ∀ l, (cont l).CostLe (price n) (fun _ => 0) c) : (askFrom v (j + 1) m a cont).CostLe (price n) (fun _ => 0) c := by
  induction m generalizing j a with
  | zero => exact hc a
  | succ m ih => exact ⟨Nat.zero_le _, fun b => ih (j + 1) _⟩

variable {A : Type} (n) (out : V → List B → A)

/-- A strategy that gets answers in one piece as one that gets them block by block. -/
def byPieces : Asker V A R → Asker (V × ℕ) B R
  | .done r => .done r
  | .ask v next => askFrom v 0 (n v + 1) [] fun l => byPieces (next (out v l))

omit [Fintype B] [DecidableEq B] [AddCommGroup B] [DecidableEq V] in
theorem byPieces_run (F : V × ℕ → B) (D : Asker V A R) :
    (byPieces n out D).run F = D.run fun v => out v ((List.range (n v + 1)).map fun i => F (v, i)) := by
  induction D with
  | done r => rfl
  | ask v next ih =>
    rw [byPieces, askFrom_run, ih, List.nil_append, ← List.range_eq_range']
    rfl

omit [Fintype B] [DecidableEq B] [AddCommGroup B] [DecidableEq V] in
theorem byPieces_within (P : V → Prop) (D : Asker V A R) (h : D.Within P) :
    (byPieces n out D).Within fun p => P p.1 := by
  induction D with
  | done r => trivial
  | ask v next ih => exact askFrom_within P v h.1 _ _ _ _ fun l => ih _ (h.2 _)

omit [Fintype B] [DecidableEq B] [AddCommGroup B] [DecidableEq V] in
theorem byPieces_proper (D : Asker V A R) (W : V → Prop) : Proper n (byPieces n out D) W := by
  induction D generalizing W with
  | done r => trivial
  | ask v next ih =>
    exact fun t => askFrom_proper v 0 (n v) (by omega) _ _ (Or.inl rfl) _ fun l => ih _ _

omit [Fintype B] [DecidableEq B] [AddCommGroup B] [DecidableEq V] in
theorem byPieces_cost (D : Asker V A R) (c : ℕ) (hc : D.CostLe n (fun _ => 0) c) :
    (byPieces n out D).CostLe (price n) (fun _ => 0) c := by
  induction D generalizing c with
  | done r => exact Nat.zero_le _
  | ask v next ih => exact ⟨hc.1, fun t => askFrom_cost v 0 (n v) _ _ _ fun l => ih _ _ (hc.2 _)⟩

/-- If the answers are a sum with something, every possible outcome is equally frequent. -/
theorem cnt_shift {X Y : Type} [Fintype X] [AddCommGroup X] [Fintype Y] (φ : X → Y)
    (h : ∀ y y', ∃ d, ∀ x, φ x = y → φ (x + d) = y') (P : Y → Prop) :
    cnt (fun x => P (φ x)) * Fintype.card Y = cnt P * Fintype.card X := by
  classical
  have le : ∀ y y', cnt (fun x => φ x = y) ≤ cnt fun x => φ x = y' := by
    intro y y'
    obtain ⟨d, hd⟩ := h y y'
    rw [cnt_eq, cnt_eq]
    refine card_le_card_of_injOn (fun x => x + d) (fun x hx => ?_) fun x _ x' _ e => add_right_cancel e
    rw [mem_coe, mem_filter] at hx ⊢
    exact ⟨mem_univ _, hd x hx.2⟩
  have eq : ∀ y y', cnt (fun x => φ x = y) = cnt fun x => φ x = y' := fun y y' => le_antisymm (le _ _) (le _ _)
  have h1 : ∀ Q : Y → Prop, ∀ y0, cnt (fun x => Q (φ x)) = cnt Q * cnt fun x => φ x = y0 := by
    intro Q y0
    rw [cnt_split _ φ, cnt_eq Q, card_filter, sum_mul]
    refine sum_congr rfl fun y _ => ?_
    by_cases hy : Q y
    · rw [if_pos hy, one_mul, eq y0 y]
      exact cnt_congr fun x => ⟨fun h => h.2, fun h => ⟨h ▸ hy, h⟩⟩
    · rw [if_neg hy, zero_mul]
      exact cnt_false fun x hx => hy (hx.2 ▸ hx.1)
  have h2 := h1 (fun _ => True) (φ 0)
  rw [cnt_true, cnt_true] at h2
  rw [h1 P (φ 0), h2]
  ring

theorem cnt_prod {X Y : Type} [Fintype X] [Fintype Y] (P : X × Y → Prop) :
    cnt P = ∑ y, cnt fun x => P (x, y) := by
  classical
  rw [cnt_split _ Prod.snd]
  refine sum_congr rfl fun y _ => ?_
  rw [cnt, cnt]
  refine Nat.card_congr ⟨fun x => ⟨x.1.1, by obtain ⟨⟨a, b⟩, h, rfl⟩ := x; exact h⟩, fun x => ⟨(x.1, y), x.2, rfl⟩, ?_, ?_⟩
  · rintro ⟨⟨a, b⟩, h, rfl⟩
    rfl
  · rintro ⟨a, h⟩
    rfl

theorem cnt_equiv {X Y : Type} (e : X ≃ Y) (P : Y → Prop) : cnt (fun x => P (e x)) = cnt P :=
  Nat.card_congr (e.subtypeEquiv fun _ => Iff.rfl)

end Cryptopy.Prf
