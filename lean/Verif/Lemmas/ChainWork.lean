import Verif.Lemmas.AeadForge
import Verif.Lemmas.Hmac

/-!
Iterating a random function: nobody knows the end of the chain who has not asked for all of it.
-/

namespace Cryptopy.Chain
open Spec (Str Asker xorBytes pbU pbT beBytes)
open Prf (cnt cnt_split cnt_mono cnt_congr cnt_exists cnt_true cnt_false cnt_le card_resample)
open Function

/-- The strings of at most `n` octets. -/
abbrev Short (n : ℕ) : Type := {s : Bytes // s.length ≤ n}

instance (n : ℕ) : Finite (Short n) := by
  have : Finite UInt8 := Finite.of_injective (fun x => x.toFin) fun a b h => UInt8.toFin_inj.mp h
  exact (List.finite_length_le UInt8 n).to_subtype

/-- Tables with a string of `d` octets for each string of at most `n` octets. -/
abbrev Table (n d : ℕ) : Type := Short n → Str d

noncomputable instance (n d : ℕ) : Fintype (Table n d) := Fintype.ofFinite _

/-- The function of the table; strings that are not in it give zeros. -/
def ask {n d : ℕ} (f : Table n d) (x : Bytes) : Bytes :=
  if h : x.length ≤ n then (f ⟨x, h⟩).1 else List.replicate d 0

theorem length_ask {n d : ℕ} (f : Table n d) (x : Bytes) : (ask f x).length = d := by
  rw [ask]
  split
  · exact (f _).2
  · simp

variable {n d : ℕ} (hd : d ≤ n) (x0 : Short n)

/-- The places of the chain. -/
def pt (f : Table n d) : ℕ → Short n
  | 0 => x0
  | j + 1 => ⟨(f (pt f j)).1, (f (pt f j)).2.trans_le hd⟩

/-- The first places are different. -/
def Dis (j : ℕ) (f : Table n d) : Prop := ∀ a b, a < b → b ≤ j → pt hd x0 f a ≠ pt hd x0 f b

open Classical in
theorem pt_update {j : ℕ} {f : Table n d} (h : Dis hd x0 j f) (y : Str d) (a : ℕ) (ha : a ≤ j) :
    pt hd x0 (update f (pt hd x0 f j) y) a = pt hd x0 f a := by
  induction a with
  | zero => rfl
  | succ a ih =>
    refine Subtype.ext ?_
    simp only [pt]
    rw [ih (by omega), update_of_ne (h a j (by omega) le_rfl)]

open Classical in
theorem dis_update {j : ℕ} {f : Table n d} (h : Dis hd x0 j f) (y : Str d) :
    Dis hd x0 j (update f (pt hd x0 f j) y) := by
  intro a b hab hb
  rw [pt_update hd x0 h y a (by omega), pt_update hd x0 h y b hb]
  exact h a b hab hb

/-- A string as a value of the table, if it has the right length. -/
noncomputable def val (d : ℕ) (s : Bytes) : Str d := if h : s.length = d then ⟨s, h⟩ else ⟨List.replicate d 0, by simp⟩

theorem val_eq {d : ℕ} (s : Str d) : val d s.1 = s := by
  rw [val, dif_pos s.2]

theorem collide (j a : ℕ) (ha : a ≤ j) :
    Fintype.card (Str d) * cnt (fun f : Table n d => Dis hd x0 j f ∧ pt hd x0 f (j + 1) = pt hd x0 f a) ≤
      Fintype.card (Table n d) := by
  classical
  have h := card_resample (Dis hd x0 j) (fun f => pt hd x0 f j) (fun f => val d (pt hd x0 f a).1) fun f hf y =>
    ⟨dis_update hd x0 hf y, pt_update hd x0 hf y j le_rfl, by rw [pt_update hd x0 hf y a ha]⟩
  refine le_trans (Nat.mul_le_mul_left _ (cnt_mono ?_)) (h.le.trans (cnt_le _))
  rintro f ⟨h1, h2⟩
  refine ⟨h1, ?_⟩
  rw [← h2]
  exact (val_eq (f (pt hd x0 f j))).symm

theorem not_dis (j : ℕ) : Fintype.card (Str d) * cnt (fun f : Table n d => ¬ Dis hd x0 j f) ≤
    (j * (j + 1) / 2) * Fintype.card (Table n d) := by
  induction j with
  | zero =>
    rw [cnt_false]
    · simp
    · intro f h
      exact h fun a b hab hb => by omega
  | succ j ih =>
    have h1 : cnt (fun f : Table n d => ¬ Dis hd x0 (j + 1) f) ≤ cnt (fun f : Table n d => ¬ Dis hd x0 j f) +
        ∑ a ∈ Finset.range (j + 1), cnt fun f : Table n d => Dis hd x0 j f ∧ pt hd x0 f (j + 1) = pt hd x0 f a := by
      refine le_trans (le_trans (cnt_mono fun f hf => ?_) (Prf.cnt_or _ _)) (Nat.add_le_add_left (cnt_exists _ _) _)
      by_cases h : Dis hd x0 j f
      · right
        by_contra hc
        push Not at hc
        refine hf fun a b hab hb => ?_
        rcases Nat.lt_or_ge b (j + 1) with hb' | hb'
        · exact h a b hab (by omega)
        · obtain rfl : b = j + 1 := by omega
          exact fun e => hc a (Finset.mem_range.mpr hab) h e.symm
      · exact Or.inl h
    refine (Nat.mul_le_mul_left _ h1).trans ?_
    rw [Nat.mul_add, Finset.mul_sum]
    refine (Nat.add_le_add ih (Finset.sum_le_sum fun a ha => collide hd x0 j a (by
      have := Finset.mem_range.mp ha; omega))).trans ?_
    rw [Finset.sum_const, Finset.card_range, smul_eq_mul, ← Nat.add_mul]
    refine Nat.mul_le_mul_right _ (le_of_eq ?_)
    have : (j + 1) * (j + 1 + 1) = j * (j + 1) + 2 * (j + 1) := by ring
    rw [this]
    omega

variable {R : Type} (D : Asker Bytes Bytes R)

theorem agree {V A : Type} (D : Asker V A R) (g g' : V → A) (h : ∀ v ∈ D.asked g, g v = g' v) :
    D.asked g' = D.asked g ∧ D.run g' = D.run g := by
  induction D with
  | done r => exact ⟨rfl, rfl⟩
  | ask v next ih =>
    rw [Asker.asked] at h
    have h0 := h v List.mem_cons_self
    rw [Asker.asked, Asker.asked, Asker.run, Asker.run, ← h0]
    obtain ⟨h1, h2⟩ := ih (g v) fun w hw => h w (List.mem_cons_of_mem _ hw)
    exact ⟨by rw [h1], h2⟩

theorem length_asked {V A : Type} (D : Asker V A R) (q : ℕ) (hc : D.CostLe (fun _ => 1) (fun _ => 0) q) (g : V → A) :
    (D.asked g).length ≤ q := by
  induction D generalizing q with
  | done r => exact Nat.zero_le _
  | ask v next ih =>
    have h1 : 1 ≤ q := hc.1
    have := ih (g v) (q - 1) (hc.2 _)
    rw [Asker.asked, List.length_cons]
    omega

open Classical in
theorem ask_update (f : Table n d) (x : Short n) (y : Str d) (s : Bytes) (h : s ≠ x.1) : ask (update f x y) s = ask f s := by
  rw [ask, ask]
  split
  · next hl => rw [update_of_ne fun e => h (congrArg Subtype.val e)]
  · rfl

open Classical in
theorem ask_pt (f : Table n d) (x : Short n) : ask f x.1 = (f x).1 := by
  rw [ask, dif_pos x.2]

/-- What is left when the place has not been asked for. -/
def Skips (j : ℕ) (f : Table n d) : Prop := Dis hd x0 j f ∧ (pt hd x0 f j).1 ∉ D.asked (ask f)

open Classical in
theorem skips_update {j : ℕ} {f : Table n d} (h : Skips hd x0 D j f) (y : Str d) :
    D.asked (ask (update f (pt hd x0 f j) y)) = D.asked (ask f) ∧
      D.run (ask (update f (pt hd x0 f j) y)) = D.run (ask f) ∧ Skips hd x0 D j (update f (pt hd x0 f j) y) := by
  have e := agree D (ask f) (ask (update f (pt hd x0 f j) y)) fun v hv =>
    (ask_update f _ y v fun hv' => h.2 (hv' ▸ hv)).symm
  refine ⟨e.1, e.2, dis_update hd x0 h.1 y, ?_⟩
  rw [e.1, pt_update hd x0 h.1 y j le_rfl]
  exact h.2

/-- Nobody asks for the value at a place without asking for the place, except by chance. -/
theorem guess (j k : ℕ) :
    Fintype.card (Str d) * cnt (fun f : Table n d => Skips hd x0 D j f ∧ (D.asked (ask f))[k]? = some (f (pt hd x0 f j)).1) ≤
      Fintype.card (Table n d) := by
  classical
  have h := card_resample (Skips hd x0 D j) (fun f => pt hd x0 f j) (fun f => val d ((D.asked (ask f))[k]?.getD []))
    fun f hf y => by
      have e := skips_update hd x0 D hf y
      refine ⟨e.2.2, pt_update hd x0 hf.1 y j le_rfl, ?_⟩
      rw [e.1]
  refine le_trans (Nat.mul_le_mul_left _ (cnt_mono ?_)) (h.le.trans (cnt_le _))
  rintro f ⟨h1, h2⟩
  refine ⟨h1, ?_⟩
  rw [h2]
  exact (val_eq _).symm

section
variable (salt : Bytes) (i : ℕ) (hs : (salt ++ beBytes 4 i).length ≤ n)

theorem pbU_eq (f : Table n d) (j : ℕ) : pbU (ask f) salt i j = (f (pt hd ⟨_, hs⟩ f j)).1 := by
  induction j with
  | zero =>
    rw [pbU, ask, dif_pos hs]
    rfl
  | succ j ih =>
    rw [pbU, ih]
    exact ask_pt f (pt hd ⟨_, hs⟩ f (j + 1))

open Classical in
theorem pbT_update {j : ℕ} {f : Table n d} (h : Dis hd ⟨_, hs⟩ j f) (y : Str d) (m : ℕ) (hm : m < j) :
    pbT (ask (update f (pt hd ⟨_, hs⟩ f j) y)) salt i m = pbT (ask f) salt i m := by
  have e : ∀ m < j, pbU (ask (update f (pt hd ⟨_, hs⟩ f j) y)) salt i m = pbU (ask f) salt i m := fun m hm => by
    rw [pbU_eq hd salt i hs, pbU_eq hd salt i hs, pt_update hd _ h y m (by omega), update_of_ne (h m j hm le_rfl)]
  induction m with
  | zero =>
    rw [pbT, pbT]
    exact e 0 hm
  | succ m ih =>
    rw [pbT, pbT, ih (by omega), e _ hm]

/-- Without the last place, the sum is a guess. -/
theorem guess_last (D : Asker Bytes Bytes Bytes) (m : ℕ) :
    Fintype.card (Str d) * cnt (fun f : Table n d => Skips hd ⟨_, hs⟩ D m f ∧ D.run (ask f) = pbT (ask f) salt i m) ≤
      Fintype.card (Table n d) := by
  classical
  have h := card_resample (Skips hd ⟨_, hs⟩ D m) (fun f => pt hd ⟨_, hs⟩ f m)
    (fun f => val d (if m = 0 then D.run (ask f) else xorBytes (pbT (ask f) salt i (m - 1)) (D.run (ask f))))
    fun f hf y => by
      have e := skips_update hd ⟨_, hs⟩ D hf y
      refine ⟨e.2.2, pt_update hd _ hf.1 y m le_rfl, ?_⟩
      rw [e.2.1]
      split
      · rfl
      · rw [pbT_update hd salt i hs hf.1 y (m - 1) (by omega)]
  refine le_trans (Nat.mul_le_mul_left _ (cnt_mono ?_)) (h.le.trans (cnt_le _))
  rintro f ⟨h1, h2⟩
  refine ⟨h1, ?_⟩
  rw [h2]
  cases m with
  | zero =>
    rw [if_pos rfl, pbT, pbU_eq hd salt i hs]
    exact (val_eq _).symm
  | succ m =>
    have hl : (pbT (ask f) salt i m).length = d := length_pbT _ _ (length_ask f) _ _ _
    rw [if_neg (by omega), Nat.add_sub_cancel, pbT, pbU_eq hd salt i hs, ← Prf.xorBytes_assoc]
    have h3 : ∀ a b : Bytes, a.length = b.length → xorBytes (xorBytes a a) b = b := by
      intro a b hab
      induction a generalizing b with
      | nil =>
        rw [List.length_eq_zero_iff.mp hab.symm]
        rfl
      | cons x a ih =>
        cases b with
        | nil => simp at hab
        | cons z b =>
          have := ih b (by simpa using hab)
          simp only [xorBytes, List.zipWith_cons_cons] at this ⊢
          rw [this]
          simp
    rw [h3 _ _ (by rw [hl, (f _).2])]
    exact (val_eq _).symm

include hd hs in
/-- With less than `m + 1` questions, the sum of `m + 1` values is known only by chance. -/
theorem work (D : Asker Bytes Bytes Bytes) (m q : ℕ) (hq : q ≤ m) (hc : D.CostLe (fun _ => 1) (fun _ => 0) q) :
    Fintype.card (Str d) * cnt (fun f : Table n d => D.run (ask f) = pbT (ask f) salt i m) ≤
      (m * (m + 1) / 2 + m * q + 1) * Fintype.card (Table n d) := by
  classical
  have h1 : cnt (fun f : Table n d => D.run (ask f) = pbT (ask f) salt i m) ≤
      cnt (fun f : Table n d => ¬ Dis hd ⟨_, hs⟩ m f) +
        (∑ j ∈ Finset.range m, ∑ k ∈ Finset.range q,
          cnt (fun f : Table n d => Skips hd ⟨_, hs⟩ D j f ∧ (D.asked (ask f))[k]? = some (f (pt hd ⟨_, hs⟩ f j)).1) +
        cnt (fun f : Table n d => Skips hd ⟨_, hs⟩ D m f ∧ D.run (ask f) = pbT (ask f) salt i m)) := by
    refine le_trans ?_ (Nat.add_le_add_left (Nat.add_le_add_right (Finset.sum_le_sum fun j _ => cnt_exists _ _) _) _)
    refine le_trans ?_ (Nat.add_le_add_left (Nat.add_le_add_right (cnt_exists _ _) _) _)
    refine le_trans ?_ (Nat.add_le_add_left (Prf.cnt_or _ _) _)
    refine le_trans (cnt_mono fun f hf => ?_) (Prf.cnt_or _ _)
    by_cases hD : Dis hd ⟨_, hs⟩ m f
    · right
      by_cases hlast : (pt hd ⟨_, hs⟩ f m).1 ∈ D.asked (ask f)
      · left
        have hex : ∃ j, j ≤ m ∧ (pt hd ⟨_, hs⟩ f j).1 ∉ D.asked (ask f) := by
          by_contra hall
          push Not at hall
          have hinj : Set.InjOn (fun j => (pt hd ⟨_, hs⟩ f j).1) (Finset.range (m + 1)) := by
            intro a ha b hb e
            have ha := Finset.mem_range.mp ha
            have hb := Finset.mem_range.mp hb
            rcases Nat.lt_trichotomy a b with h | h | h
            · exact absurd (Subtype.ext e) (hD a b h (by omega))
            · exact h
            · exact absurd (Subtype.ext e.symm) (hD b a h (by omega))
          have hsub : (Finset.range (m + 1)).image (fun j => (pt hd ⟨_, hs⟩ f j).1) ⊆ (D.asked (ask f)).toFinset := by
            intro x hx
            obtain ⟨j, hj, rfl⟩ := Finset.mem_image.mp hx
            exact List.mem_toFinset.mpr (hall j (by have := Finset.mem_range.mp hj; omega))
          have h2 := Finset.card_le_card hsub
          rw [Finset.card_image_of_injOn hinj, Finset.card_range] at h2
          have h3 := List.toFinset_card_le (D.asked (ask f))
          have h4 := length_asked D q hc (ask f)
          omega
        obtain ⟨j, hj, hn, hnext⟩ : ∃ j, j < m ∧ (pt hd ⟨_, hs⟩ f j).1 ∉ D.asked (ask f) ∧
            (pt hd ⟨_, hs⟩ f (j + 1)).1 ∈ D.asked (ask f) := by
          by_contra hall
          push Not at hall
          obtain ⟨j, hj, hn⟩ := hex
          have : ∀ k, j + k ≤ m → (pt hd ⟨_, hs⟩ f (j + k)).1 ∉ D.asked (ask f) := by
            intro k
            induction k with
            | zero => exact fun _ => hn
            | succ k ih => exact fun h => hall (j + k) (by omega) (ih (by omega))
          have := this (m - j) (by omega)
          rw [Nat.add_sub_cancel' hj] at this
          exact this hlast
        obtain ⟨k, hk, e⟩ := List.mem_iff_getElem.mp hnext
        have h4 := length_asked D q hc (ask f)
        refine ⟨j, Finset.mem_range.mpr hj, k, Finset.mem_range.mpr (by omega), ⟨fun a b hab hb => hD a b hab (by omega), hn⟩, ?_⟩
        rw [List.getElem?_eq_getElem hk, e]
        rfl
      · exact Or.inr ⟨⟨hD, hlast⟩, hf⟩
    · exact Or.inl hD
  refine (Nat.mul_le_mul_left _ h1).trans ?_
  rw [Nat.mul_add, Nat.mul_add, Nat.add_mul, Nat.add_mul, Nat.add_assoc, Nat.one_mul]
  refine Nat.add_le_add (not_dis hd _ m) (Nat.add_le_add ?_ (guess_last hd salt i hs D m))
  rw [Finset.mul_sum]
  refine (Finset.sum_le_sum (g := fun _ => q * Fintype.card (Table n d)) fun j _ => ?_).trans ?_
  · rw [Finset.mul_sum]
    refine (Finset.sum_le_sum fun k _ => guess hd ⟨_, hs⟩ D j k).trans (le_of_eq ?_)
    rw [Finset.sum_const, Finset.card_range, smul_eq_mul]
  · rw [Finset.sum_const, Finset.card_range, smul_eq_mul, Nat.mul_assoc]

end

end Cryptopy.Chain
