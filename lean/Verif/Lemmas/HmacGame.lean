import Verif.Lemmas.ChainWork
import Verif.Spec.RandomFunction
import Mathlib.Tactic.FieldSimp
import Mathlib.Algebra.Order.BigOperators.Group.Finset
import Mathlib.Algebra.Order.BigOperators.Ring.Finset
import Mathlib.Algebra.BigOperators.Field

/-!
HMAC with a random table in place of the hash function, somebody who asks for hash values and for tags.
-/

namespace Cryptopy.HmacGame
open Spec (Str Asker HmacAsk)
open Prf (cnt cnt_split cnt_mono cnt_congr cnt_exists cnt_true cnt_false cnt_le card_resample)
open Chain (Table Short ask)
open Function

/-- The chance of a result with `accept` if each new question is answered by a random string of `d` octets, independent of
everything before, and each question asked again by the same string; the list has the questions with the answers so far. -/
noncomputable def lazyChance {M R : Type} [DecidableEq M] (d : ℕ) (accept : R → Prop) :
    List (M × Bytes) → Asker M (Py Bytes) R → ℚ
  | _, .done r => open Classical in if accept r then 1 else 0
  | l, .ask m next =>
    match l.lookup m with
    | some t => lazyChance d accept l (next (.ok t))
    | none => (∑ t : Str d, lazyChance d accept ((m, t.1) :: l) (next (.ok t.1))) / Fintype.card (Str d)

theorem lookup_some {M : Type} [DecidableEq M] (l : List (M × Bytes)) (v : M) (t : Bytes) (h : l.lookup v = some t) :
    (v, t) ∈ l := by
  induction l with
  | nil => simp at h
  | cons e l ih =>
    rw [List.lookup_cons] at h
    by_cases he : v = e.1
    · subst he
      simp only [beq_self_eq_true, Option.some.injEq] at h
      subst h
      exact List.mem_cons_self
    · rw [beq_false_of_ne he] at h
      exact List.mem_cons_of_mem _ (ih h)

theorem lookup_none {M : Type} [DecidableEq M] (l : List (M × Bytes)) (v : M) (h : l.lookup v = none) (t : Bytes) :
    (v, t) ∉ l := by
  induction l with
  | nil => simp
  | cons e l ih =>
    rw [List.lookup_cons] at h
    by_cases he : v = e.1
    · subst he
      simp at h
    · rw [beq_false_of_ne he] at h
      intro hm
      rcases List.mem_cons.mp hm with e' | hm
      · exact he (by rw [← e'])
      · exact ih h hm

theorem card_pos (d : ℕ) : (0 : ℚ) < Fintype.card (Str d) := by
  rw [Cpoly.card_str]
  positivity

theorem lazy_range {M R : Type} [DecidableEq M] (d : ℕ) (accept : R → Prop) (D : Asker M (Py Bytes) R) :
    ∀ l, 0 ≤ lazyChance d accept l D ∧ lazyChance d accept l D ≤ 1 := by
  classical
  induction D with
  | done r =>
    intro l
    rw [lazyChance]
    split <;> norm_num
  | ask m next ih =>
    intro l
    rw [lazyChance]
    split
    · exact ih _ l
    · have hp := card_pos d
      refine ⟨div_nonneg (Finset.sum_nonneg fun t _ => (ih _ _).1) hp.le, ?_⟩
      rw [div_le_one hp]
      refine (Finset.sum_le_sum fun t _ => (ih _ _).2).trans ?_
      simp

variable {n d : ℕ}

/-- The table has the values in the list. -/
def Agree (P : List (Bytes × Bytes)) (f : Table n d) : Prop := ∀ e ∈ P, ask f e.1 = e.2

theorem agree_cons (P : List (Bytes × Bytes)) (x y : Bytes) (f : Table n d) :
    Agree ((x, y) :: P) f ↔ Agree P f ∧ ask f x = y := by
  rw [Agree, List.forall_mem_cons]
  exact and_comm

/-- At a new place all values are equally frequent. -/
theorem sample (P : List (Bytes × Bytes)) (x : Bytes) (hx : x.length ≤ n) (h : x ∉ P.map Prod.fst) (y : Str d) :
    Fintype.card (Str d) * cnt (fun f : Table n d => Agree ((x, y.1) :: P) f) = cnt (fun f : Table n d => Agree P f) := by
  classical
  rw [← card_resample (fun f : Table n d => Agree P f) (fun _ => ⟨x, hx⟩) (fun _ => y) fun f hf y' => ⟨?_, rfl, rfl⟩]
  · congr 1
    refine cnt_congr fun f => (agree_cons P x y.1 f).trans (and_congr_right fun _ => ?_)
    rw [ask, dif_pos hx, Subtype.ext_iff]
  · intro e he
    rw [Chain.ask_update f _ _ _ fun e' => h (List.mem_map.mpr ⟨e, he, e'⟩)]
    exact hf e he

/-- Splitting by a value. -/
theorem split (P : Table n d → Prop) (x : Bytes) : cnt P = ∑ y : Str d, cnt fun f => P f ∧ ask f x = y.1 := by
  rw [cnt_split P fun f => (⟨ask f x, Chain.length_ask f x⟩ : Str d)]
  exact Finset.sum_congr rfl fun k _ => cnt_congr fun f => and_congr_right fun _ => Subtype.ext_iff

variable (ip op : Bytes)

/-- The answers. -/
def ans (f : Table n d) : HmacAsk → Py Bytes
  | .hash x => .ok (ask f x)
  | .mac m => .ok (ask f (op ++ ask f (ip ++ m)))

/-- The question begins like one of the padded keys. -/
def Hit (x : Bytes) : Prop := ip <+: x ∨ op <+: x

open Classical in
/-- The chance that a hash question begins like one of the padded keys or that two inner values are the same, when the
answers are random; `j` inner values so far. -/
noncomputable def bad (d : ℕ) {R : Type} : List (HmacAsk × Bytes) → ℕ → Asker HmacAsk (Py Bytes) R → ℚ
  | _, _, .done _ => 0
  | l, j, .ask v next =>
    match l.lookup v with
    | some t => bad d l j (next (.ok t))
    | none =>
      match v with
      | .hash x => if Hit ip op x then 1 else (∑ t : Str d, bad d ((.hash x, t.1) :: l) j (next (.ok t.1))) / Fintype.card (Str d)
      | .mac m => (j + ∑ t : Str d, bad d ((.mac m, t.1) :: l) (j + 1) (next (.ok t.1))) / Fintype.card (Str d)

open Classical in
theorem bad_ask (d : ℕ) {R : Type} (l : List (HmacAsk × Bytes)) (j : ℕ) (v : HmacAsk)
    (next : Py Bytes → Asker HmacAsk (Py Bytes) R) :
    bad ip op d l j (.ask v next) =
      match l.lookup v with
      | some t => bad ip op d l j (next (.ok t))
      | none =>
        match v with
        | .hash x => if Hit ip op x then 1 else
            (∑ t : Str d, bad ip op d ((.hash x, t.1) :: l) j (next (.ok t.1))) / Fintype.card (Str d)
        | .mac m => (j + ∑ t : Str d, bad ip op d ((.mac m, t.1) :: l) (j + 1) (next (.ok t.1))) / Fintype.card (Str d) := by
  cases v <;> rw [bad]

theorem bad_nonneg (d : ℕ) {R : Type} (D : Asker HmacAsk (Py Bytes) R) : ∀ l j, 0 ≤ bad ip op d l j D := by
  classical
  induction D with
  | done r => exact fun _ _ => le_refl _
  | ask v next ih =>
    intro l j
    rw [bad_ask]
    have hp := card_pos d
    split
    · exact ih _ _ _
    · split
      · split
        · norm_num
        · exact div_nonneg (Finset.sum_nonneg fun t _ => ih _ _ _) hp.le
      · exact div_nonneg (add_nonneg (by positivity) (Finset.sum_nonneg fun t _ => ih _ _ _)) hp.le

/-- What the list of known values has to do with the questions and answers. -/
structure Inv (P : List (Bytes × Bytes)) (l : List (HmacAsk × Bytes)) (ins : List Bytes) : Prop where
  hash : ∀ x a, (.hash x, a) ∈ l → (x, a) ∈ P
  tag : ∀ m a, (.mac m, a) ∈ l → ∃ i, (ip ++ m, i) ∈ P ∧ (op ++ i, a) ∈ P
  cover : ∀ e ∈ P, (∃ a, (.hash e.1, a) ∈ l ∧ ¬ Hit ip op e.1) ∨ (∃ m a, e.1 = ip ++ m ∧ (.mac m, a) ∈ l) ∨
    ∃ i ∈ ins, e.1 = op ++ i

/-- The lengths fit. -/
def Fits (n : ℕ) (ip : Bytes) : HmacAsk → Prop
  | .hash x => x.length ≤ n
  | .mac m => ip.length + m.length ≤ n

variable {ip op}

theorem abs_le_of_range (a b c : ℚ) (ha : 0 ≤ a) (ha' : a ≤ c) (hb : 0 ≤ b) (hb' : b ≤ 1) : |a - b * c| ≤ c := by
  have hc : 0 ≤ c := ha.trans ha'
  rw [abs_le]
  constructor <;> nlinarith

theorem game (hl : ip.length = op.length) (hne : ip ≠ op) (hn : ip.length + d ≤ n) {R : Type} (accept : R → Prop)
    (D : Asker HmacAsk (Py Bytes) R) :
    ∀ P l ins, Inv ip op P l ins → D.Within (Fits n ip) →
      |(cnt (fun f : Table n d => Agree P f ∧ accept (D.run (ans ip op f))) : ℚ) -
          lazyChance d accept l D * cnt (fun f : Table n d => Agree P f)| ≤
        bad ip op d l ins.length D * cnt (fun f : Table n d => Agree P f) := by
  classical
  have hN := card_pos d
  induction D with
  | done r =>
    intro P l ins _ _
    rw [lazyChance, bad]
    simp only [Asker.run]
    split
    · next h => simp [h]
    · next h =>
      rw [cnt_false (fun f x => h x.2)]
      simp
  | ask v next ih =>
    intro P l ins hI hW
    obtain ⟨hfit, hW⟩ := hW
    rw [lazyChance, bad_ask]
    cases hv : l.lookup v with
    | some t =>
      have hmem := lookup_some l v t hv
      have e : cnt (fun f : Table n d => Agree P f ∧ accept ((Asker.ask v next).run (ans ip op f))) =
          cnt (fun f : Table n d => Agree P f ∧ accept ((next (.ok t)).run (ans ip op f))) := by
        refine cnt_congr fun f => and_congr_right fun hf => ?_
        have : ans ip op f v = .ok t := by
          rcases v with x | m
          · exact congrArg Except.ok (hf _ (hI.hash x t hmem))
          · obtain ⟨i, h1, h2⟩ := hI.tag m t hmem
            have e1 := hf _ h1
            have e2 := hf _ h2
            dsimp only at e1 e2
            rw [ans, e1, e2]
        rw [Asker.run, this]
      simp only
      rw [e]
      exact ih _ P l ins hI (hW _)
    | none =>
      have hnew := lookup_none l v hv
      rcases v with x | m
      · simp only
        split
        · next hhit =>
          rw [one_mul]
          refine abs_le_of_range _ _ _ (by positivity) (Nat.cast_le.mpr (cnt_mono fun f h => h.1)) ?_ ?_
          · exact div_nonneg (Finset.sum_nonneg fun t _ => (lazy_range d accept _ _).1) hN.le
          · rw [div_le_one hN]
            refine (Finset.sum_le_sum fun t _ => (lazy_range d accept _ _).2).trans ?_
            simp
        · next hhit =>
          have hx : x ∉ P.map Prod.fst := by
            intro hx
            obtain ⟨e, he, rfl⟩ := List.mem_map.mp hx
            rcases hI.cover e he with ⟨a, ha, -⟩ | ⟨m, a, hm, -⟩ | ⟨i, -, hi⟩
            · exact hnew a ha
            · exact hhit (Or.inl ⟨m, hm.symm⟩)
            · exact hhit (Or.inr ⟨i, hi.symm⟩)
          have e1 : ∀ t : Str d, (cnt (fun f : Table n d => Agree P f) : ℚ) =
              Fintype.card (Str d) * cnt (fun f : Table n d => Agree ((x, t.1) :: P) f) := fun t => by
            exact_mod_cast (sample P x hfit hx t).symm
          have e2 : cnt (fun f : Table n d => Agree P f ∧ accept ((Asker.ask (.hash x) next).run (ans ip op f))) =
              ∑ t : Str d, cnt fun f : Table n d => Agree ((x, t.1) :: P) f ∧ accept ((next (.ok t.1)).run (ans ip op f)) := by
            rw [split _ x]
            refine Finset.sum_congr rfl fun t _ => cnt_congr fun f => ?_
            rw [agree_cons, Asker.run]
            constructor
            · rintro ⟨⟨h1, h2⟩, h3⟩
              rw [ans, h3] at h2
              exact ⟨⟨h1, h3⟩, h2⟩
            · rintro ⟨⟨h1, h3⟩, h2⟩
              refine ⟨⟨h1, ?_⟩, h3⟩
              rw [ans, h3]
              exact h2
          have e3 : (∑ t : Str d, lazyChance d accept ((.hash x, t.1) :: l) (next (.ok t.1))) / Fintype.card (Str d) *
              cnt (fun f : Table n d => Agree P f) = ∑ t : Str d, lazyChance d accept ((.hash x, t.1) :: l) (next (.ok t.1)) *
                cnt (fun f : Table n d => Agree ((x, t.1) :: P) f) := by
            rw [div_mul_eq_mul_div, Finset.sum_mul, Finset.sum_div]
            refine Finset.sum_congr rfl fun t _ => ?_
            rw [e1 t]
            field_simp
          have e4 : (∑ t : Str d, bad ip op d ((.hash x, t.1) :: l) ins.length (next (.ok t.1))) / Fintype.card (Str d) *
              cnt (fun f : Table n d => Agree P f) = ∑ t : Str d, bad ip op d ((.hash x, t.1) :: l) ins.length (next (.ok t.1)) *
                cnt (fun f : Table n d => Agree ((x, t.1) :: P) f) := by
            rw [div_mul_eq_mul_div, Finset.sum_mul, Finset.sum_div]
            refine Finset.sum_congr rfl fun t _ => ?_
            rw [e1 t]
            field_simp
          rw [e3, e4, e2, Nat.cast_sum, ← Finset.sum_sub_distrib]
          refine (Finset.abs_sum_le_sum_abs _ _).trans (Finset.sum_le_sum fun t _ => ih _ _ _ _ ⟨?_, ?_, ?_⟩ (hW _))
          · intro x' a h
            rcases List.mem_cons.mp h with e | h
            · obtain ⟨g1, g2⟩ := Prod.mk.inj e
              obtain rfl := HmacAsk.hash.inj g1
              subst g2
              exact List.mem_cons_self
            · exact List.mem_cons_of_mem _ (hI.hash x' a h)
          · intro m a h
            rcases List.mem_cons.mp h with e | h
            · exact absurd (Prod.mk.inj e).1 (by simp)
            · obtain ⟨i, h1, h2⟩ := hI.tag m a h
              exact ⟨i, List.mem_cons_of_mem _ h1, List.mem_cons_of_mem _ h2⟩
          · intro e he
            rcases List.mem_cons.mp he with rfl | he
            · exact Or.inl ⟨t.1, List.mem_cons_self, hhit⟩
            · rcases hI.cover e he with ⟨a, ha, h⟩ | ⟨m, a, hm, ha⟩ | h
              · exact Or.inl ⟨a, List.mem_cons_of_mem _ ha, h⟩
              · exact Or.inr (Or.inl ⟨m, a, hm, List.mem_cons_of_mem _ ha⟩)
              · exact Or.inr (Or.inr h)
      · simp only
        have hx : ip ++ m ∉ P.map Prod.fst := by
          intro hx
          obtain ⟨e, he, hem⟩ := List.mem_map.mp hx
          rcases hI.cover e he with ⟨a, -, h⟩ | ⟨m', a, hm, ha⟩ | ⟨i, -, hi⟩
          · exact h (Or.inl ⟨m, hem.symm⟩)
          · rw [hem] at hm
            obtain rfl := List.append_cancel_left hm
            exact hnew a ha
          · rw [hem] at hi
            exact hne (List.append_inj_left hi hl)
        have hxn : (ip ++ m).length ≤ n := by
          rw [List.length_append]
          exact hfit
        have e1 : ∀ i : Str d, (cnt (fun f : Table n d => Agree P f) : ℚ) =
            Fintype.card (Str d) * cnt (fun f : Table n d => Agree ((ip ++ m, i.1) :: P) f) := fun i => by
          exact_mod_cast (sample P (ip ++ m) hxn hx i).symm
        set C : ℚ := (∑ t : Str d, lazyChance d accept ((.mac m, t.1) :: l) (next (.ok t.1))) / Fintype.card (Str d) with hC
        set B : ℚ := ∑ t : Str d, bad ip op d ((.mac m, t.1) :: l) (ins.length + 1) (next (.ok t.1)) with hB
        have hC0 : 0 ≤ C := div_nonneg (Finset.sum_nonneg fun t _ => (lazy_range d accept _ _).1) hN.le
        have hC1 : C ≤ 1 := by
          rw [hC, div_le_one hN]
          refine (Finset.sum_le_sum fun t _ => (lazy_range d accept _ _).2).trans ?_
          simp
        have hB0 : 0 ≤ B := Finset.sum_nonneg fun t _ => bad_nonneg ip op d _ _ _
        have e2 : cnt (fun f : Table n d => Agree P f ∧ accept ((Asker.ask (.mac m) next).run (ans ip op f))) =
            ∑ i : Str d, cnt fun f : Table n d => Agree ((ip ++ m, i.1) :: P) f ∧
              accept ((next (.ok (ask f (op ++ i.1)))).run (ans ip op f)) := by
          rw [split _ (ip ++ m)]
          refine Finset.sum_congr rfl fun t _ => cnt_congr fun f => ?_
          rw [agree_cons, Asker.run]
          constructor
          · rintro ⟨⟨h1, h2⟩, h3⟩
            rw [ans, h3] at h2
            exact ⟨⟨h1, h3⟩, h2⟩
          · rintro ⟨⟨h1, h3⟩, h2⟩
            refine ⟨⟨h1, ?_⟩, h3⟩
            rw [ans, h3]
            exact h2
        have each : ∀ i : Str d, |(cnt (fun f : Table n d => Agree ((ip ++ m, i.1) :: P) f ∧
              accept ((next (.ok (ask f (op ++ i.1)))).run (ans ip op f))) : ℚ) -
                C * cnt (fun f : Table n d => Agree ((ip ++ m, i.1) :: P) f)| ≤
            ((if i.1 ∈ ins then 1 else 0) + B / Fintype.card (Str d)) *
              cnt (fun f : Table n d => Agree ((ip ++ m, i.1) :: P) f) := by
          intro i
          have hc0 : (0 : ℚ) ≤ cnt (fun f : Table n d => Agree ((ip ++ m, i.1) :: P) f) := by positivity
          have hBN : 0 ≤ B / Fintype.card (Str d) := div_nonneg hB0 hN.le
          by_cases hi : i.1 ∈ ins
          · rw [if_pos hi]
            refine (abs_le_of_range _ _ _ (by positivity) (Nat.cast_le.mpr (cnt_mono fun f h => h.1)) hC0 hC1).trans ?_
            nlinarith
          · rw [if_neg hi, zero_add]
            have hx' : op ++ i.1 ∉ ((ip ++ m, i.1) :: P).map Prod.fst := by
              rw [List.map_cons, List.mem_cons]
              rintro (h | h)
              · exact hne (List.append_inj_left h hl.symm).symm
              · obtain ⟨e, he, hem⟩ := List.mem_map.mp h
                rcases hI.cover e he with ⟨a, -, h⟩ | ⟨m', a, hm, ha⟩ | ⟨i', hi', hii⟩
                · exact h (Or.inr ⟨i.1, hem.symm⟩)
                · rw [hem] at hm
                  exact hne (List.append_inj_left hm hl.symm).symm
                · rw [hem] at hii
                  exact hi (List.append_cancel_left hii ▸ hi')
            have hxn' : (op ++ i.1).length ≤ n := by
              rw [List.length_append, ← hl, i.2]
              exact hn
            have f1 : ∀ t : Str d, (cnt (fun f : Table n d => Agree ((ip ++ m, i.1) :: P) f) : ℚ) =
                Fintype.card (Str d) * cnt (fun f : Table n d => Agree ((op ++ i.1, t.1) :: (ip ++ m, i.1) :: P) f) :=
              fun t => by exact_mod_cast (sample _ (op ++ i.1) hxn' hx' t).symm
            have f2 : cnt (fun f : Table n d => Agree ((ip ++ m, i.1) :: P) f ∧
                accept ((next (.ok (ask f (op ++ i.1)))).run (ans ip op f))) =
                ∑ t : Str d, cnt fun f : Table n d => Agree ((op ++ i.1, t.1) :: (ip ++ m, i.1) :: P) f ∧
                  accept ((next (.ok t.1)).run (ans ip op f)) := by
              rw [split _ (op ++ i.1)]
              refine Finset.sum_congr rfl fun t _ => cnt_congr fun f => ?_
              rw [agree_cons _ (op ++ i.1)]
              constructor
              · rintro ⟨⟨h1, h2⟩, h3⟩
                rw [h3] at h2
                exact ⟨⟨h1, h3⟩, h2⟩
              · rintro ⟨⟨h1, h3⟩, h2⟩
                refine ⟨⟨h1, ?_⟩, h3⟩
                rw [h3]
                exact h2
            have f3 : C * cnt (fun f : Table n d => Agree ((ip ++ m, i.1) :: P) f) =
                ∑ t : Str d, lazyChance d accept ((.mac m, t.1) :: l) (next (.ok t.1)) *
                  cnt (fun f : Table n d => Agree ((op ++ i.1, t.1) :: (ip ++ m, i.1) :: P) f) := by
              rw [hC, div_mul_eq_mul_div, Finset.sum_mul, Finset.sum_div]
              refine Finset.sum_congr rfl fun t _ => ?_
              rw [f1 t]
              field_simp
            have f4 : B / Fintype.card (Str d) * cnt (fun f : Table n d => Agree ((ip ++ m, i.1) :: P) f) =
                ∑ t : Str d, bad ip op d ((.mac m, t.1) :: l) (ins.length + 1) (next (.ok t.1)) *
                  cnt (fun f : Table n d => Agree ((op ++ i.1, t.1) :: (ip ++ m, i.1) :: P) f) := by
              rw [hB, div_mul_eq_mul_div, Finset.sum_mul, Finset.sum_div]
              refine Finset.sum_congr rfl fun t _ => ?_
              rw [f1 t]
              field_simp
            rw [f3, f4, f2, Nat.cast_sum, ← Finset.sum_sub_distrib]
            refine (Finset.abs_sum_le_sum_abs _ _).trans (Finset.sum_le_sum fun t _ =>
              ih _ _ _ (i.1 :: ins) ⟨?_, ?_, ?_⟩ (hW _))
            · intro x' a h
              rcases List.mem_cons.mp h with e | h
              · exact absurd (Prod.mk.inj e).1 (by simp)
              · exact List.mem_cons_of_mem _ (List.mem_cons_of_mem _ (hI.hash x' a h))
            · intro m' a h
              rcases List.mem_cons.mp h with e | h
              · obtain ⟨g1, g2⟩ := Prod.mk.inj e
                obtain rfl := HmacAsk.mac.inj g1
                subst g2
                exact ⟨i.1, List.mem_cons_of_mem _ List.mem_cons_self, List.mem_cons_self⟩
              · obtain ⟨i', h1, h2⟩ := hI.tag m' a h
                exact ⟨i', List.mem_cons_of_mem _ (List.mem_cons_of_mem _ h1), List.mem_cons_of_mem _ (List.mem_cons_of_mem _ h2)⟩
            · intro e he
              rcases List.mem_cons.mp he with rfl | he
              · exact Or.inr (Or.inr ⟨i.1, List.mem_cons_self, rfl⟩)
              rcases List.mem_cons.mp he with rfl | he
              · exact Or.inr (Or.inl ⟨m, t.1, rfl, List.mem_cons_self⟩)
              · rcases hI.cover e he with ⟨a, ha, h⟩ | ⟨m', a, hm, ha⟩ | ⟨i', hi', h⟩
                · exact Or.inl ⟨a, List.mem_cons_of_mem _ ha, h⟩
                · exact Or.inr (Or.inl ⟨m', a, hm, List.mem_cons_of_mem _ ha⟩)
                · exact Or.inr (Or.inr ⟨i', List.mem_cons_of_mem _ hi', h⟩)
        have hsplit : C * cnt (fun f : Table n d => Agree P f) =
            ∑ i : Str d, C * cnt (fun f : Table n d => Agree ((ip ++ m, i.1) :: P) f) := by
          rw [← Finset.mul_sum, split _ (ip ++ m), Nat.cast_sum]
          refine congrArg (C * ·) (Finset.sum_congr rfl fun i _ => congrArg _ (cnt_congr fun f => (agree_cons _ _ _ f).symm))
        rw [hsplit, e2, Nat.cast_sum, ← Finset.sum_sub_distrib]
        refine (Finset.abs_sum_le_sum_abs _ _).trans ((Finset.sum_le_sum fun i _ => each i).trans ?_)
        have hins : (∑ i : Str d, if i.1 ∈ ins then (1 : ℚ) else 0) ≤ ins.length := by
          rw [Finset.sum_boole, Nat.cast_le]
          have h1 : ((Finset.univ.filter fun i : Str d => i.1 ∈ ins).map ⟨Subtype.val, Subtype.val_injective⟩) ⊆ ins.toFinset := by
            intro x hx
            obtain ⟨i, hi, rfl⟩ := Finset.mem_map.mp hx
            exact List.mem_toFinset.mpr (Finset.mem_filter.mp hi).2
          have h2 := Finset.card_le_card h1
          rw [Finset.card_map] at h2
          exact h2.trans (List.toFinset_card_le ins)
        have hterm : ∀ i : Str d, ((if i.1 ∈ ins then (1 : ℚ) else 0) + B / Fintype.card (Str d)) *
            cnt (fun f : Table n d => Agree ((ip ++ m, i.1) :: P) f) =
            ((if i.1 ∈ ins then (1 : ℚ) else 0) + B / Fintype.card (Str d)) *
              (cnt (fun f : Table n d => Agree P f) / Fintype.card (Str d)) := fun i => by
          rw [e1 i]
          field_simp
        rw [Finset.sum_congr rfl fun i _ => hterm i, ← Finset.sum_mul, Finset.sum_add_distrib, Finset.sum_const,
          Finset.card_univ, nsmul_eq_mul, mul_div_cancel₀ _ hN.ne', div_mul_eq_mul_div, ← mul_div_assoc]
        refine div_le_div_of_nonneg_right (mul_le_mul_of_nonneg_right ?_ (by positivity)) hN.le
        linarith

/-- `j + (j + 1) + …`, `q` summands. -/
def tri (j q : ℕ) : ℚ := q * j + q * (q - 1) / 2

theorem tri_step (j q : ℕ) (h : 1 ≤ q) : tri j q = j + tri (j + 1) (q - 1) := by
  obtain ⟨q, rfl⟩ := Nat.exists_eq_add_of_le' h
  rw [tri, tri, Nat.add_sub_cancel]
  push_cast
  ring

theorem tri_nonneg (j q : ℕ) : 0 ≤ tri j q := by
  rcases q with _ | q
  · simp [tri]
  · rw [tri]
    push_cast
    have : (0 : ℚ) ≤ q := by positivity
    have : (0 : ℚ) ≤ j := by positivity
    have : (q + 1 : ℚ) - 1 = q := by ring
    rw [this]
    positivity

theorem tri_mono (j q : ℕ) : tri j (q - 1) ≤ tri j q := by
  rcases q with _ | q
  · exact le_refl _
  · rw [tri, tri, Nat.add_sub_cancel]
    have : (0 : ℚ) ≤ q := by positivity
    have : (0 : ℚ) ≤ j := by positivity
    push_cast
    nlinarith

open Classical in
theorem sum_bad (d : ℕ) {κ : Type} [Fintype κ] (ips ops : κ → Bytes) (hi : ∀ x, cnt (fun K => ips K <+: x) ≤ 1)
    (ho : ∀ x, cnt (fun K => ops K <+: x) ≤ 1) {R : Type} (D : Asker HmacAsk (Py Bytes) R) :
    ∀ l j qH qM, D.CostLe HmacAsk.hashes (fun _ => 0) qH → D.CostLe HmacAsk.macs (fun _ => 0) qM →
      ∑ K, bad (ips K) (ops K) d l j D ≤ 2 * qH + Fintype.card κ * tri j qM / Fintype.card (Str d) := by
  have hN := card_pos d
  induction D with
  | done r =>
    intro l j qH qM _ _
    simp only [bad, Finset.sum_const_zero]
    have := tri_nonneg j qM
    positivity
  | ask v next ih =>
    intro l j qH qM hH hM
    obtain ⟨hH1, hH⟩ := hH
    obtain ⟨hM1, hM⟩ := hM
    simp only [bad_ask]
    cases hv : l.lookup v with
    | some t =>
      simp only
      refine (ih _ l j _ _ (hH _) (hM _)).trans ?_
      have h1 : ((qH - v.hashes : ℕ) : ℚ) ≤ qH := by exact_mod_cast Nat.sub_le _ _
      have h2 : tri j (qM - v.macs) ≤ tri j qM := by
        rcases v with x | m
        · exact le_refl _
        · exact tri_mono j qM
      have h3 : Fintype.card κ * tri j (qM - v.macs) / Fintype.card (Str d) ≤
          Fintype.card κ * tri j qM / Fintype.card (Str d) :=
        div_le_div_of_nonneg_right (mul_le_mul_of_nonneg_left h2 (by positivity)) hN.le
      linarith
    | none =>
      rcases v with x | m
      · simp only
        have hq : 1 ≤ qH := hH1
        have hit : (∑ K, if Hit (ips K) (ops K) x then (1 : ℚ) else 0) ≤ 2 := by
          have h1 : ∀ K, (if Hit (ips K) (ops K) x then (1 : ℚ) else 0) ≤
              (if ips K <+: x then 1 else 0) + if ops K <+: x then 1 else 0 := by
            intro K
            by_cases a : ips K <+: x
            · rw [if_pos (show Hit (ips K) (ops K) x from Or.inl a), if_pos a]
              split_ifs <;> norm_num
            · by_cases b : ops K <+: x
              · rw [if_pos (show Hit (ips K) (ops K) x from Or.inr b), if_neg a, if_pos b]
                norm_num
              · rw [if_neg (show ¬ Hit (ips K) (ops K) x from fun h => h.elim a b), if_neg a, if_neg b]
                norm_num
          refine (Finset.sum_le_sum fun K _ => h1 K).trans ?_
          rw [Finset.sum_add_distrib, Finset.sum_boole, Finset.sum_boole]
          have h2 := hi x
          have h3 := ho x
          rw [Prf.cnt_eq] at h2 h3
          have h2' : ((Finset.univ.filter fun K => ips K <+: x).card : ℚ) ≤ 1 := by
            rw [Nat.cast_le_one]
            convert h2
          have h3' : ((Finset.univ.filter fun K => ops K <+: x).card : ℚ) ≤ 1 := by
            rw [Nat.cast_le_one]
            convert h3
          linarith
        have h1 : ∀ K, (if Hit (ips K) (ops K) x then (1 : ℚ) else
            (∑ t : Str d, bad (ips K) (ops K) d ((.hash x, t.1) :: l) j (next (.ok t.1))) / Fintype.card (Str d)) ≤
            (if Hit (ips K) (ops K) x then (1 : ℚ) else 0) +
            (∑ t : Str d, bad (ips K) (ops K) d ((.hash x, t.1) :: l) j (next (.ok t.1))) / Fintype.card (Str d) := by
          intro K
          have : 0 ≤ (∑ t : Str d, bad (ips K) (ops K) d ((.hash x, t.1) :: l) j (next (.ok t.1))) / Fintype.card (Str d) :=
            div_nonneg (Finset.sum_nonneg fun t _ => bad_nonneg _ _ d _ _ _) hN.le
          split_ifs <;> linarith
        refine (Finset.sum_le_sum fun K _ => h1 K).trans ?_
        rw [Finset.sum_add_distrib, ← Finset.sum_div, Finset.sum_comm]
        have h2 : (∑ t : Str d, ∑ K, bad (ips K) (ops K) d ((.hash x, t.1) :: l) j (next (.ok t.1))) / Fintype.card (Str d) ≤
            2 * ((qH - 1 : ℕ) : ℚ) + Fintype.card κ * tri j qM / Fintype.card (Str d) := by
          rw [div_le_iff₀ hN]
          refine (Finset.sum_le_sum fun t _ => ih (.ok t.1) ((.hash x, t.1) :: l) j _ _ (hH _) (hM _)).trans ?_
          rw [Finset.sum_const, Finset.card_univ, nsmul_eq_mul, mul_comm]
          rfl
        have h3 : ((qH - 1 : ℕ) : ℚ) = qH - 1 := by
          rw [Nat.cast_sub hq, Nat.cast_one]
        rw [h3] at h2
        linarith
      · simp only
        have hq : 1 ≤ qM := hM1
        rw [← Finset.sum_div, Finset.sum_add_distrib, Finset.sum_const, Finset.card_univ, nsmul_eq_mul, Finset.sum_comm,
          add_div]
        have h2 : (∑ t : Str d, ∑ K, bad (ips K) (ops K) d ((.mac m, t.1) :: l) (j + 1) (next (.ok t.1))) /
            Fintype.card (Str d) ≤ 2 * (qH : ℚ) + Fintype.card κ * tri (j + 1) (qM - 1) / Fintype.card (Str d) := by
          rw [div_le_iff₀ hN]
          refine (Finset.sum_le_sum fun t _ => ih (.ok t.1) ((.mac m, t.1) :: l) (j + 1) _ _ (hH _) (hM _)).trans ?_
          rw [Finset.sum_const, Finset.card_univ, nsmul_eq_mul, mul_comm]
          rfl
        rw [tri_step j qM hq, mul_add, add_div]
        linarith

/-! ### Two independent tables -/

/-- Two tables in one. -/
abbrev Pair (n d : ℕ) : Type := Short n ⊕ Short n → Str d

noncomputable instance (n d : ℕ) : Fintype (Pair n d) := Fintype.ofFinite _

/-- The answers of two tables. -/
def two (g : Pair n d) : HmacAsk → Py Bytes
  | .hash x => .ok (ask (fun s => g (.inl s)) x)
  | .mac m => .ok (ask (fun s => g (.inr s)) m)

/-- The length of what is asked for. -/
def len : HmacAsk → ℕ
  | .hash x => x.length
  | .mac m => m.length

/-- Where the answer is. -/
def spot (v : HmacAsk) (h : len v ≤ n) : Short n ⊕ Short n :=
  match v with
  | .hash x => .inl ⟨x, h⟩
  | .mac m => .inr ⟨m, h⟩

theorem two_spot (g : Pair n d) (v : HmacAsk) (h : len v ≤ n) : two g v = .ok (g (spot v h)).1 := by
  rcases v with x | m
  · rw [two, ask, dif_pos (show x.length ≤ n from h)]; rfl
  · rw [two, ask, dif_pos (show m.length ≤ n from h)]; rfl

open Classical in
theorem two_update (g : Pair n d) (v w : HmacAsk) (h : len v ≤ n) (y : Str d) (hw : w ≠ v) :
    two (update g (spot v h) y) w = two g w := by
  by_cases hl : len w ≤ n
  · rw [two_spot _ w hl, two_spot _ w hl, update_of_ne]
    rcases v with x | m <;> rcases w with x' | m' <;> simp only [spot, ne_eq, reduceCtorEq, not_false_eq_true]
    · exact fun e => hw (congrArg _ (congrArg Subtype.val (Sum.inl.inj e)))
    · exact fun e => hw (congrArg _ (congrArg Subtype.val (Sum.inr.inj e)))
  · rcases w with x' | m'
    · rw [two, two, ask, ask, dif_neg (show ¬ x'.length ≤ n from hl), dif_neg (show ¬ x'.length ≤ n from hl)]
    · rw [two, two, ask, ask, dif_neg (show ¬ m'.length ≤ n from hl), dif_neg (show ¬ m'.length ≤ n from hl)]

/-- The two tables have given these answers. -/
def Gave (l : List (HmacAsk × Bytes)) (g : Pair n d) : Prop := ∀ e ∈ l, two g e.1 = .ok e.2

theorem gave_cons (l : List (HmacAsk × Bytes)) (v : HmacAsk) (y : Bytes) (g : Pair n d) :
    Gave ((v, y) :: l) g ↔ Gave l g ∧ two g v = .ok y := by
  rw [Gave, List.forall_mem_cons]
  exact and_comm

theorem sample_two (l : List (HmacAsk × Bytes)) (v : HmacAsk) (hv : len v ≤ n) (h : ∀ t, (v, t) ∉ l) (y : Str d) :
    Fintype.card (Str d) * cnt (fun g : Pair n d => Gave ((v, y.1) :: l) g) = cnt (fun g : Pair n d => Gave l g) := by
  classical
  rw [← card_resample (fun g : Pair n d => Gave l g) (fun _ => spot v hv) (fun _ => y) fun f hf y' => ⟨?_, rfl, rfl⟩]
  · congr 1
    refine cnt_congr fun f => (gave_cons l v y.1 f).trans (and_congr_right fun _ => ?_)
    rw [two_spot f v hv, Except.ok.injEq, Subtype.ext_iff]
  · intro e he
    rw [two_update f v e.1 hv y' fun e' => h e.2 (e' ▸ he)]
    exact hf e he

theorem two_ok (g : Pair n d) (v : HmacAsk) : ∃ t : Str d, two g v = .ok t.1 := by
  rcases v with x | m
  · exact ⟨⟨_, Chain.length_ask (fun s => g (.inl s)) x⟩, rfl⟩
  · exact ⟨⟨_, Chain.length_ask (fun s => g (.inr s)) m⟩, rfl⟩

theorem ideal {R : Type} (accept : R → Prop) (D : Asker HmacAsk (Py Bytes) R) :
    ∀ l, D.Within (fun v => len v ≤ n) → (cnt (fun g : Pair n d => Gave l g ∧ accept (D.run (two g))) : ℚ) =
      lazyChance d accept l D * cnt (fun g : Pair n d => Gave l g) := by
  classical
  have hN := card_pos d
  induction D with
  | done r =>
    intro l _
    rw [lazyChance]
    simp only [Asker.run]
    split
    · next h => simp [h]
    · next h =>
      rw [cnt_false (fun f x => h x.2)]
      simp
  | ask v next ih =>
    intro l hW
    obtain ⟨hfit, hW⟩ := hW
    rw [lazyChance]
    cases hv : l.lookup v with
    | some t =>
      have hmem := lookup_some l v t hv
      simp only
      rw [← ih _ l (hW _)]
      refine congrArg _ (cnt_congr fun g => and_congr_right fun hg => ?_)
      have := hg _ hmem
      dsimp only at this
      rw [Asker.run, this]
    | none =>
      have hnew := lookup_none l v hv
      simp only
      have e2 : cnt (fun g : Pair n d => Gave l g ∧ accept ((Asker.ask v next).run (two g))) =
          ∑ t : Str d, cnt fun g : Pair n d => Gave ((v, t.1) :: l) g ∧ accept ((next (.ok t.1)).run (two g)) := by
        rw [cnt_split _ fun g : Pair n d => (two_ok g v).choose]
        refine Finset.sum_congr rfl fun t _ => cnt_congr fun g => ?_
        have hc := (two_ok g v).choose_spec
        rw [gave_cons, Asker.run]
        constructor
        · rintro ⟨⟨h1, h2⟩, h3⟩
          rw [h3] at hc
          rw [hc] at h2
          exact ⟨⟨h1, hc⟩, h2⟩
        · rintro ⟨⟨h1, h3⟩, h2⟩
          refine ⟨⟨h1, ?_⟩, ?_⟩
          · rw [h3]
            exact h2
          · exact Subtype.ext (Except.ok.inj (hc.symm.trans h3))
      rw [e2, Nat.cast_sum, div_mul_eq_mul_div, Finset.sum_mul, Finset.sum_div]
      refine Finset.sum_congr rfl fun t _ => ?_
      rw [ih _ _ (hW _), ← sample_two l v hfit hnew t]
      push_cast
      field_simp

end Cryptopy.HmacGame
