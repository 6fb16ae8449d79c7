import Verif.Lemmas.DictionaryGame
import Verif.Lemmas.Phases

/-!
Keys of `pbkdf2` over a table of pseudorandom functions, for somebody who asks for values before and after the salt is known:
used for C190.
-/

namespace Cryptopy.Dict
open Spec (Str Asker xorBytes pbU pbT beBytes)
open Prf (cnt cnt_split cnt_mono cnt_congr cnt_exists cnt_true cnt_false cnt_le cnt_or card_resample)
open Chain (Table Short ask)
open Core (andThen andThen_asked andThen_run andThen_cost)
open Function

variable {n d : ℕ} (hd : d ≤ n) (c b : ℕ)

section
variable (s : ℕ → Short n) (p : Pw)

/-- The value of a place is asked for, but not the place. -/
def Jumps {X : Type} (E : Asker (Bytes × Bytes) Bytes X) (q : ℕ) (F : Big n d) : Prop :=
  ∃ k ∈ Finset.range (b * c), ∃ j ∈ Finset.range q, Skips hd c b s p E k F ∧
    (E.asked (look F))[j]? = some (p.1, (F (p, pl hd c s p F k)).1)

theorem cnt_jumps {X : Type} (E : Asker (Bytes × Bytes) Bytes X) (q : ℕ) :
    Fintype.card (Str d) * cnt (Jumps hd c b s p E q) ≤ b * c * q * Fintype.card (Big n d) := by
  refine (Nat.mul_le_mul_left _ (cnt_exists (Finset.range (b * c)) _)).trans ?_
  rw [Finset.mul_sum]
  refine (Finset.sum_le_sum (g := fun _ => q * Fintype.card (Big n d)) fun k _ => ?_).trans (le_of_eq ?_)
  · refine (Nat.mul_le_mul_left _ (cnt_exists (Finset.range q) _)).trans ?_
    rw [Finset.mul_sum]
    refine (Finset.sum_le_sum fun j _ => guess hd c b s p E k j).trans (le_of_eq ?_)
    rw [Finset.sum_const, Finset.card_range, smul_eq_mul]
  · rw [Finset.sum_const, Finset.card_range, smul_eq_mul]
    ring

/-- A later place of a chain is asked for and an earlier one is not. -/
theorem jumps {X : Type} (E : Asker (Bytes × Bytes) Bytes X) (q : ℕ) (hq : E.CostLe (fun _ => 1) (fun _ => 0) q)
    (F : Big n d) (hD : Dis hd c b s p (b * c - 1) F) (i : ℕ) (hi : i < b) (j k : ℕ) (hk : j + k < c)
    (h1 : (p.1, (pl hd c s p F (i * c + j)).1) ∉ E.asked (look F))
    (h2 : (p.1, (pl hd c s p F (i * c + (j + k))).1) ∈ E.asked (look F)) : Jumps hd c b s p E q F := by
  induction k with
  | zero => exact absurd h2 h1
  | succ k ih =>
    by_cases h : (p.1, (pl hd c s p F (i * c + (j + k))).1) ∈ E.asked (look F)
    · exact ih (by omega) h
    · obtain ⟨m, hm, e⟩ := List.mem_iff_getElem.mp h2
      have h4 := Chain.length_asked E q hq (look F)
      have hb1 := index_lt c b hi (show j + k < c by omega)
      have hb2 := index_lt c b hi (show j + (k + 1) < c by omega)
      refine ⟨i * c + (j + k), Finset.mem_range.mpr (by omega), m, Finset.mem_range.mpr (by omega),
        ⟨hD.mono hd c b s p hb1, h⟩, ?_⟩
      have hmod : (i * c + (j + k) + 1) % c ≠ 0 := by
        rw [Nat.add_assoc, Nat.mul_add_mod_self_right, Nat.mod_eq_of_lt (by omega)]
        omega
      rw [List.getElem?_eq_getElem hm, e, ← pl_succ hd c s p F _ hmod]
      rfl

/-- To ask for all places of a chain takes `c` questions. -/
theorem all_asked {X : Type} (E : Asker (Bytes × Bytes) Bytes X) (F : Big n d) (hD : Dis hd c b s p (b * c - 1) F)
    (i : ℕ) (hi : i < b) (h : ∀ j < c, (p.1, (pl hd c s p F (i * c + j)).1) ∈ E.asked (look F)) : c ≤ times p E F := by
  classical
  have hinj : Set.InjOn (fun j => ((p.1, (pl hd c s p F (i * c + j)).1) : Bytes × Bytes)) (Finset.range c) := by
    intro x hx y hy e
    have hx := Finset.mem_range.mp hx
    have hy := Finset.mem_range.mp hy
    by_contra hne
    exact hD.ne hd c b s p (index_lt c b hi hx) (index_lt c b hi hy) (by omega) (Subtype.ext (Prod.mk.inj e).2)
  have hsub : (Finset.range c).image (fun j => ((p.1, (pl hd c s p F (i * c + j)).1) : Bytes × Bytes)) ⊆
      ((E.asked (look F)).filter fun v => v.1 = p.1).toFinset := by
    intro x hx
    obtain ⟨j, hj, rfl⟩ := Finset.mem_image.mp hx
    rw [List.mem_toFinset, List.mem_filter]
    exact ⟨h j (Finset.mem_range.mp hj), by simp⟩
  have h2 := Finset.card_le_card hsub
  rw [Finset.card_image_of_injOn hinj, Finset.card_range] at h2
  refine h2.trans ((List.toFinset_card_le _).trans (le_of_eq ?_))
  rw [times]

variable {X R : Type} (D1 : Asker (Bytes × Bytes) Bytes X) (K : X → Asker (Bytes × Bytes) Bytes R)

/-- Where a chain begins is asked for in advance. -/
def Begun (F : Big n d) : Prop := ∃ i < b, (p.1, (s i).1) ∈ D1.asked (look F)

/-- Somebody who gets to the end of a chain jumps, or had begun in advance, or asks for all of it afterwards. -/
theorem asks_two (hc : 0 < c) (q1 q2 : ℕ) (h1 : D1.CostLe (fun _ => 1) (fun _ => 0) q1)
    (h2 : ∀ x, (K x).CostLe (fun _ => 1) (fun _ => 0) q2) (F : Big n d) (hD : Dis hd c b s p (b * c - 1) F)
    (hA : Asks hd c b s p (andThen D1 K) F) (hB : ¬ Begun b s p D1 F) :
    Jumps hd c b s p (andThen D1 K) (q1 + q2) F ∨ Jumps hd c b s p D1 q1 F ∨ c ≤ times p (K (D1.run (look F))) F := by
  obtain ⟨i, hi, hlast⟩ := hA
  rw [last] at hlast
  by_cases hall : ∀ j < c, (p.1, (pl hd c s p F (i * c + j)).1) ∈ (andThen D1 K).asked (look F)
  · right
    by_cases hall2 : ∀ j < c, (p.1, (pl hd c s p F (i * c + j)).1) ∈ (K (D1.run (look F))).asked (look F)
    · exact Or.inr (all_asked hd c b s p _ F hD i hi hall2)
    · left
      push Not at hall2
      obtain ⟨j, hj, hn⟩ := hall2
      have hm := hall j hj
      rw [andThen_asked] at hm
      have hm := (List.mem_append.mp hm).resolve_right hn
      refine jumps hd c b s p D1 q1 h1 F hD i hi 0 j (by omega) (fun h => hB ⟨i, hi, ?_⟩) (by rwa [Nat.zero_add])
      rwa [Nat.add_zero, pl_start _ _ _ _ _ _ (Nat.mul_mod_left i c), Nat.mul_div_cancel _ hc] at h
  · left
    push Not at hall
    obtain ⟨j, hj, hn⟩ := hall
    refine jumps hd c b s p _ _ (andThen_cost _ D1 K h1 h2) F hD i hi j (c - 1 - j) (by omega) hn ?_
    rwa [show j + (c - 1 - j) = c - 1 by omega]

end

variable (salt : Bytes) (hs : salt.length + 4 ≤ n)
variable {X R : Type} (D1 : Asker (Bytes × Bytes) Bytes X) (K : Bytes → X → Asker (Bytes × Bytes) Bytes R)

/-- How often a last value is asked for, over all passwords of a dictionary, with questions in advance. -/
theorem sum_two (hc : 0 < c) (hb : 0 < b) (hb' : b < 2 ^ 32) (q1 q2 : ℕ) (h1 : D1.CostLe (fun _ => 1) (fun _ => 0) q1)
    (h2 : ∀ t x, (K t x).CostLe (fun _ => 1) (fun _ => 0) q2) (G : Finset Pw) (t : Str (b * d)) :
    (∑ p ∈ G, (cnt (fun F : Big n d => ¬ Good hd c b (one salt) (fun _ => hs) p (fun t => andThen D1 (K t)) t F) : ℚ)) ≤
      (G.card * (((b * c - 1 : ℕ) * (b * c) / 2 + (b * c - 1 : ℕ) * b + b * c * (2 * q1 + q2)) / Fintype.card (Str d)) +
          q2 / c) * Fintype.card (Big n d) +
        ∑ p ∈ G, (cnt (fun F : Big n d => Begun b (start (one salt) (fun _ => hs)) p D1 F) : ℚ) := by
  classical
  have hN := HmacGame.card_pos d
  have hc0 : (0 : ℚ) < c := by exact_mod_cast hc
  have g1 : ∀ p, (cnt (fun F : Big n d => ¬ Good hd c b (one salt) (fun _ => hs) p (fun t => andThen D1 (K t)) t F) : ℚ) ≤
      ((b * c - 1 : ℕ) * (b * c) / 2 + (b * c - 1 : ℕ) * b + b * c * (2 * q1 + q2)) / Fintype.card (Str d) *
          Fintype.card (Big n d) +
        (cnt (fun F : Big n d => c ≤ times p (K t.1 (D1.run (look F))) F) +
          cnt (fun F : Big n d => Begun b (start (one salt) (fun _ => hs)) p D1 F)) := by
    intro p
    have e1 := not_dis (d := d) hd c b (start (one salt) (fun _ => hs)) p hc (start_inj b salt hs hb') (b * c - 1)
      (Nat.sub_lt (Nat.mul_pos hb hc) Nat.one_pos)
    have e2 := cnt_jumps (d := d) hd c b (start (one salt) (fun _ => hs)) p (andThen D1 (K t.1)) (q1 + q2)
    have e4 := cnt_jumps (d := d) hd c b (start (one salt) (fun _ => hs)) p D1 q1
    have e3 : cnt (fun F : Big n d => ¬ Good hd c b (one salt) (fun _ => hs) p (fun t => andThen D1 (K t)) t F) ≤
        cnt (fun F : Big n d => ¬ Dis hd c b (start (one salt) (fun _ => hs)) p (b * c - 1) F) +
          (cnt (Jumps (d := d) hd c b (start (one salt) (fun _ => hs)) p (andThen D1 (K t.1)) (q1 + q2)) +
          (cnt (Jumps (d := d) hd c b (start (one salt) (fun _ => hs)) p D1 q1) +
          (cnt (fun F : Big n d => c ≤ times p (K t.1 (D1.run (look F))) F) +
            cnt (fun F : Big n d => Begun b (start (one salt) (fun _ => hs)) p D1 F)))) := by
      refine le_trans ?_ (Nat.add_le_add_left (Nat.add_le_add_left (Nat.add_le_add_left (cnt_or _ _) _) _) _)
      refine le_trans ?_ (Nat.add_le_add_left (Nat.add_le_add_left (cnt_or _ _) _) _)
      refine le_trans ?_ (Nat.add_le_add_left (cnt_or _ _) _)
      refine le_trans (cnt_mono fun F hF => ?_) (cnt_or _ _)
      by_cases hD : Dis hd c b (start (one salt) (fun _ => hs)) p (b * c - 1) F
      · right
        have hA : Asks hd c b (start (one salt) (fun _ => hs)) p (andThen D1 (K t.1)) F := by
          by_contra hA
          exact hF ⟨hD, hA⟩
        by_cases hB : Begun b (start (one salt) (fun _ => hs)) p D1 F
        · exact Or.inr (Or.inr (Or.inr hB))
        · rcases asks_two hd c b (start (one salt) (fun _ => hs)) p D1 (K t.1) hc q1 q2 h1 (h2 t.1) F hD hA hB with h | h | h
          · exact Or.inl h
          · exact Or.inr (Or.inl h)
          · exact Or.inr (Or.inr (Or.inl h))
      · exact Or.inl hD
    have hM : b * c - 1 + 1 = b * c := Nat.sub_add_cancel (Nat.mul_pos hb hc)
    rw [hM] at e1
    have e1' : (Fintype.card (Str d) : ℚ) * cnt (fun F : Big n d => ¬ Dis hd c b (start (one salt) (fun _ => hs)) p (b * c - 1) F) ≤
        ((b * c - 1 : ℕ) * (b * c) / 2 + (b * c - 1 : ℕ) * b) * Fintype.card (Big n d) := by
      have e1 := Nat.cast_le (α := ℚ).mpr e1
      rw [Nat.cast_mul, Nat.cast_mul, Nat.cast_add, Nat.cast_mul _ b] at e1
      refine e1.trans ?_
      refine mul_le_mul_of_nonneg_right ?_ (Nat.cast_nonneg _)
      have := Nat.cast_le (α := ℚ).mpr (Nat.div_mul_le_self ((b * c - 1) * (b * c)) 2)
      rw [Nat.cast_mul, Nat.cast_mul (b * c - 1), Nat.cast_mul b, Nat.cast_ofNat] at this
      linarith
    have e2' : (Fintype.card (Str d) : ℚ) * cnt (Jumps (d := d) hd c b (start (one salt) (fun _ => hs)) p (andThen D1 (K t.1)) (q1 + q2)) ≤
        b * c * (q1 + q2) * Fintype.card (Big n d) := by
      exact_mod_cast e2
    have e4' : (Fintype.card (Str d) : ℚ) * cnt (Jumps (d := d) hd c b (start (one salt) (fun _ => hs)) p D1 q1) ≤
        b * c * q1 * Fintype.card (Big n d) := by
      exact_mod_cast e4
    have e3' : (cnt (fun F : Big n d => ¬ Good hd c b (one salt) (fun _ => hs) p (fun t => andThen D1 (K t)) t F) : ℚ) ≤ _ := Nat.cast_le.mpr e3
    push_cast at e3'
    refine e3'.trans ?_
    rw [div_mul_eq_mul_div, ← add_assoc, ← add_assoc]
    refine add_le_add_left ?_ _
    rw [le_div_iff₀ hN]
    linarith
  refine (Finset.sum_le_sum fun p _ => g1 p).trans ?_
  rw [Finset.sum_add_distrib, Finset.sum_const, nsmul_eq_mul, Finset.sum_add_distrib, add_mul, ← mul_assoc (G.card : ℚ),
    ← add_assoc]
  refine add_le_add_left (add_le_add_right ?_ _) _
  have g2 : ∑ p ∈ G, cnt (fun F : Big n d => c ≤ times p (K t.1 (D1.run (look F))) F) =
      ∑ F : Big n d, (G.filter fun p => c ≤ times p (K t.1 (D1.run (look F))) F).card := by
    simp only [Prf.cnt_eq, Finset.card_filter]
    rw [Finset.sum_comm]
    exact Finset.sum_congr rfl fun _ _ => Finset.sum_congr rfl fun _ _ => by congr
  have g3 : c * ∑ p ∈ G, cnt (fun F : Big n d => c ≤ times p (K t.1 (D1.run (look F))) F) ≤ q2 * Fintype.card (Big n d) := by
    rw [g2, Finset.mul_sum]
    refine (Finset.sum_le_sum fun F _ => ?_).trans (le_of_eq (by
      rw [Finset.sum_const, Finset.card_univ, smul_eq_mul, Nat.mul_comm]) : ∑ F : Big n d, q2 ≤ _)
    convert often c (K t.1 (D1.run (look F))) G q2 (h2 _ _) F
  rw [div_mul_eq_mul_div, le_div_iff₀ hc0, mul_comm]
  exact_mod_cast g3

/-- Not many chains are begun in advance, over all passwords and salts. -/
theorem sum_begun (q1 : ℕ) (h1 : D1.CostLe (fun _ => 1) (fun _ => 0) q1) (G : Finset Pw) (S : Finset Bytes)
    (hS : ∀ s ∈ S, s.length + 4 ≤ n) :
    ∑ s : S, ∑ p ∈ G, cnt (fun F : Big n d => Begun b (start (one s.1) (fun _ => hS s.1 s.2)) p D1 F) ≤ q1 * Fintype.card (Big n d) := by
  classical
  have e : ∑ s : S, ∑ p ∈ G, cnt (fun F : Big n d => Begun b (start (one s.1) (fun _ => hS s.1 s.2)) p D1 F) =
      ∑ F : Big n d, ((Finset.univ ×ˢ G).filter fun w : S × Pw => Begun b (start (one w.1.1) (fun _ => hS w.1.1 w.1.2)) w.2 D1 F).card := by
    rw [← Finset.sum_product']
    simp only [Prf.cnt_eq, Finset.card_filter]
    rw [Finset.sum_comm]
  rw [e]
  refine (Finset.sum_le_sum fun F _ => ?_).trans (le_of_eq (by
      rw [Finset.sum_const, Finset.card_univ, smul_eq_mul, Nat.mul_comm]) : ∑ F : Big n d, q1 ≤ _)
  refine le_trans ?_ ((List.toFinset_card_le _).trans (Chain.length_asked D1 q1 h1 (look F)))
  refine le_trans ?_ (Finset.card_image_le (f := fun v : Bytes × Bytes => (v.2.take (v.2.length - 4), v.1)))
  refine Finset.card_le_card_of_injOn (fun w => (w.1.1, w.2.1)) ?_ ?_
  · intro w hw
    obtain ⟨-, i, hi, hm⟩ := Finset.mem_filter.mp (Finset.mem_coe.mp hw)
    refine Finset.mem_coe.mpr (Finset.mem_image.mpr ⟨_, List.mem_toFinset.mpr hm, ?_⟩)
    simp only [start, List.length_append, length_beBytes, Nat.add_sub_cancel, List.take_left]
  · intro w _ w' _ h
    obtain ⟨h1, h2⟩ := Prod.mk.inj h
    exact Prod.ext (Subtype.ext h1) (Subtype.ext h2)

end Cryptopy.Dict
