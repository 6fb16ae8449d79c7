import Verif.Lemmas.HmacDerive
import Verif.Lemmas.SivPriv

/-!
PBKDF2 over a random hash function: strategies that ask for derived keys as strategies that ask for tags.
-/

namespace Cryptopy
open Spec (Str Asker HmacAsk KeyAsk FreshLabels keyChance pbU pbT beBytes xorBytes)
open Chain (Table ask)

namespace HmacGame

/-- The answer, if there is one; it has `d` octets. -/
def val (d : ℕ) : Py Bytes → Bytes
  | .ok t => t.take d
  | .error _ => []

theorem length_val (d : ℕ) (t : Py Bytes) : (val d t).length ≤ d := by
  rcases t with e | t
  · exact Nat.zero_le _
  · rw [val, List.length_take]
    exact Nat.min_le_left _ _

/-- Ask for the values of a chain, `r` after the first, add them up and carry on. -/
def askChain {R : Type} (d : ℕ) (cont : Bytes → Asker HmacAsk (Py Bytes) R) :
    ℕ → Bytes → Bytes → Asker HmacAsk (Py Bytes) R
  | 0, p, acc => .ask (.mac p) fun t => cont (xorBytes acc (val d t))
  | r + 1, p, acc => .ask (.mac p) fun t => askChain d cont r (val d t) (xorBytes acc (val d t))

/-- Ask for `k` blocks and carry on. -/
def askPb {R : Type} (d : ℕ) (salt : Bytes) (r : ℕ) (cont : Bytes → Asker HmacAsk (Py Bytes) R) :
    ℕ → ℕ → Bytes → Asker HmacAsk (Py Bytes) R
  | _, 0, acc => cont acc
  | i, k + 1, acc =>
    askChain d (fun T => askPb d salt r cont (i + 1) k (acc ++ T)) r (salt ++ beBytes 4 i) (List.replicate d 0)

/-- Strategies that ask for keys as strategies that ask for tags. -/
def expandPb {R : Type} (d r : ℕ) : Asker (KeyAsk Bytes) (Py Bytes) R → Asker HmacAsk (Py Bytes) R
  | .done v => .done v
  | .ask (.hash x) next => .ask (.hash x) fun t => expandPb d r (next t)
  | .ask (.key salt n) next =>
      askPb d salt r (fun s => expandPb d r (next (.ok (s.take n)))) 1 ((n + d - 1) / d) []

section run
variable {R : Type} (g : HmacAsk → Py Bytes) (F : Bytes → Bytes) (hg : ∀ m, g (.mac m) = .ok (F m))
include hg

theorem askChain_run_aux (d : ℕ) (hF : ∀ x, (F x).length = d) (cont : Bytes → Asker HmacAsk (Py Bytes) R) (salt : Bytes) (i r : ℕ) :
    ∀ j, (askChain d cont r (pbU F salt i j) (pbT F salt i j)).run g = (cont (pbT F salt i (j + r + 1))).run g := by
  have hv : ∀ x, val d (.ok (F x)) = F x := fun x => List.take_of_length_le (hF x).le
  induction r with
  | zero =>
    intro j
    rw [askChain, Asker.run, hg, hv]
    rfl
  | succ r ih =>
    intro j
    rw [askChain, Asker.run, hg, hv]
    have := ih (j + 1)
    rw [show j + 1 + r + 1 = j + (r + 1) + 1 by omega] at this
    exact this

theorem askChain_run (d : ℕ) (hF : ∀ x, (F x).length = d) (cont : Bytes → Asker HmacAsk (Py Bytes) R) (salt : Bytes)
    (i r : ℕ) :
    (askChain d cont r (salt ++ beBytes 4 i) (List.replicate d 0)).run g = (cont (pbT F salt i r)).run g := by
  have h0 : xorBytes (List.replicate d 0) (F (salt ++ beBytes 4 i)) = pbT F salt i 0 := Prf.xorBytes_zeros _ _ (hF _)
  have hv : ∀ x, val d (.ok (F x)) = F x := fun x => List.take_of_length_le (hF x).le
  cases r with
  | zero => rw [askChain, Asker.run, hg, hv, h0]
  | succ r =>
    rw [askChain, Asker.run, hg, hv, h0]
    have := askChain_run_aux g F hg d hF cont salt i r 0
    rw [Nat.zero_add] at this
    exact this

theorem askPb_run (d : ℕ) (hF : ∀ x, (F x).length = d) (cont : Bytes → Asker HmacAsk (Py Bytes) R) (salt : Bytes)
    (r k : ℕ) : ∀ i acc, (askPb d salt r cont i k acc).run g =
      (cont (acc ++ (List.range k).flatMap fun j => pbT F salt (i + j) r)).run g := by
  induction k with
  | zero => intro i acc; simp [askPb]
  | succ k ih =>
    intro i acc
    rw [askPb, askChain_run g F hg d hF, ih, List.range_succ_eq_map, List.flatMap_cons, List.flatMap_map, List.append_assoc]
    simp only [Nat.add_zero, Nat.succ_eq_add_one, Nat.add_assoc, Nat.add_comm 1]

end run

/-! ### Chances -/

theorem key_range {L R : Type} (d : ℕ) (accept : R → Prop) (D : Asker (KeyAsk L) (Py Bytes) R) :
    ∀ l, 0 ≤ keyChance d accept l D ∧ keyChance d accept l D ≤ 1 := by
  classical
  have avg_range : ∀ (n : ℕ) (g : Str n → ℚ), (∀ t, 0 ≤ g t ∧ g t ≤ 1) →
      0 ≤ (∑ t, g t) / Fintype.card (Str n) ∧ (∑ t, g t) / Fintype.card (Str n) ≤ 1 := by
    intro n g hg
    have hp := card_pos n
    refine ⟨div_nonneg (Finset.sum_nonneg fun t _ => (hg t).1) hp.le, ?_⟩
    rw [div_le_one hp]
    refine (Finset.sum_le_sum fun t _ => (hg t).2).trans ?_
    simp
  induction D with
  | done r =>
    intro l
    rw [keyChance]
    split <;> norm_num
  | ask v next ih =>
    intro l
    rcases v with x | ⟨a, n⟩
    · rw [keyChance]
      split
      · exact ih _ l
      · exact avg_range d _ fun t => ih _ _
    · rw [keyChance]
      exact avg_range n _ fun t => ih _ _

theorem avg_range (n : ℕ) (g : Bytes → ℚ) (hg : ∀ t, 0 ≤ g t ∧ g t ≤ 1) : 0 ≤ avg n g ∧ avg n g ≤ 1 := by
  have hp := card_pos n
  refine ⟨div_nonneg (Finset.sum_nonneg fun t _ => (hg _).1) hp.le, ?_⟩
  rw [avg, div_le_one hp]
  refine (Finset.sum_le_sum fun t _ => (hg _).2).trans ?_
  simp

theorem avg_sub_le (n : ℕ) (g g' e : Bytes → ℚ) (h : ∀ t, t.length = n → |g t - g' t| ≤ e t) :
    |avg n g - avg n g'| ≤ avg n e := by
  have hp := card_pos n
  rw [avg, avg, avg, ← sub_div, ← Finset.sum_sub_distrib, abs_div, abs_of_pos hp]
  exact div_le_div_of_nonneg_right ((Finset.abs_sum_le_sum_abs _ _).trans (Finset.sum_le_sum fun t _ => h t.1 t.2)) hp.le

theorem avg_xor (d : ℕ) (acc : Bytes) (ha : acc.length = d) (g : Bytes → ℚ) :
    avg d (fun t => g (xorBytes acc t)) = avg d g := by
  have inv : ∀ t : Bytes, t.length = d → xorBytes acc (xorBytes acc t) = t := fun t ht => by
    rw [xorBytes_comm acc, xorBytes_comm acc, xorBytes_self_right t acc (by omega)]
  let e : Str d ≃ Str d := ⟨fun t => ⟨xorBytes acc t.1, by rw [length_xorBytes, ha, t.2, Nat.min_self]⟩,
    fun t => ⟨xorBytes acc t.1, by rw [length_xorBytes, ha, t.2, Nat.min_self]⟩,
    fun t => Subtype.ext (inv t.1 t.2), fun t => Subtype.ext (inv t.1 t.2)⟩
  rw [avg, avg]
  exact congrArg (· / _) (Equiv.sum_comp e fun t => g t.1)

open Classical in
theorem avg_mem (d : ℕ) (G : List Bytes) (c : ℚ) :
    avg d (fun t => (if t ∈ G then 1 else 0) + c) ≤ G.length / Fintype.card (Str d) + c := by
  have hp := card_pos d
  have hins : (∑ i : Str d, if i.1 ∈ G then (1 : ℚ) else 0) ≤ G.length := by
    rw [Finset.sum_boole, Nat.cast_le]
    have h1 : ((Finset.univ.filter fun i : Str d => i.1 ∈ G).map ⟨Subtype.val, Subtype.val_injective⟩) ⊆ G.toFinset := by
      intro x hx
      obtain ⟨i, hi, rfl⟩ := Finset.mem_map.mp hx
      exact List.mem_toFinset.mpr (Finset.mem_filter.mp hi).2
    have h2 := Finset.card_le_card h1
    rw [Finset.card_map] at h2
    exact h2.trans (List.toFinset_card_le G)
  rw [avg, Finset.sum_add_distrib, add_div, Finset.sum_const, Finset.card_univ, nsmul_eq_mul, mul_div_cancel_left₀ _ hp.ne']
  have := div_le_div_of_nonneg_right hins hp.le
  linarith

variable {d : ℕ} (P : List Bytes)

/-- What the values asked for have to do with the hash values asked for; `L` are the places where tags have been asked for,
those of them where a chain can begin are in `U`. -/
structure Rel2 (l : List (Bytes × Bytes)) (U : Bytes → Prop) (l' : List (HmacAsk × Bytes)) (L : List Bytes) : Prop where
  hash : ∀ x, l'.lookup (.hash x) = l.lookup x
  mac : ∀ m t, (.mac m, t) ∈ l' → m ∈ L
  start : ∀ p ∈ P, p ∈ L → U p

variable {P}

theorem Rel2.cons {l U l' L} (h : Rel2 P l U l' L) (p t : Bytes) (hp : p ∈ P → U p) :
    Rel2 P l U ((.mac p, t) :: l') (p :: L) := by
  refine ⟨fun x => ?_, fun m s hm => ?_, fun q hq hqL => ?_⟩
  · rw [List.lookup_cons, beq_false_of_ne (by simp)]
    exact h.hash x
  · rcases List.mem_cons.mp hm with e | hm
    · rw [HmacAsk.mac.inj (Prod.mk.inj e).1]
      exact List.mem_cons_self
    · exact List.mem_cons_of_mem _ (h.mac m s hm)
  · rcases List.mem_cons.mp hqL with rfl | hqL
    · exact hp hq
    · exact h.start q hq hqL

theorem abs_sub_le_one {a b : ℚ} (ha : 0 ≤ a ∧ a ≤ 1) (hb : 0 ≤ b ∧ b ≤ 1) : |a - b| ≤ 1 := by
  rw [abs_le]
  constructor <;> linarith

theorem askChain_chance {R : Type} (accept : R → Prop) (cont : Bytes → Asker HmacAsk (Py Bytes) R) (V : Bytes → ℚ)
    (hV : ∀ t, 0 ≤ V t ∧ V t ≤ 1) (l : List (Bytes × Bytes)) (U : Bytes → Prop) (β E : ℚ) (hE : 0 ≤ E) (M : ℕ)
    (hβ : ((M : ℚ) + P.length) / Fintype.card (Str d) ≤ β)
    (hc : ∀ l'' L'' T, Rel2 P l U l'' L'' → L''.length = M → T.length = d → |lazyChance d accept l'' (cont T) - V T| ≤ E)
    (r : ℕ) :
    ∀ p acc l' L, Rel2 P l U l' L → p ∉ L → (p ∈ P → U p) → acc.length = d → L.length + r + 1 = M →
      |lazyChance d accept l' (askChain d cont r p acc) - avg d V| ≤ r * β + E := by
  classical
  have hN := card_pos d
  have hβ0 : 0 ≤ β := le_trans (by positivity) hβ
  induction r with
  | zero =>
    intro p acc l' L hR hp hU ha hM
    rw [askChain, lazyChance]
    cases hv : l'.lookup (.mac p) with
    | some t => exact absurd (hR.mac p t (lookup_some l' _ _ hv)) hp
    | none =>
      have hvt : ∀ t : Str d, val d (.ok t.1) = t.1 := fun t => List.take_of_length_le t.2.le
      simp only [hvt]
      rw [← avg_xor d acc ha V, Nat.cast_zero, zero_mul, zero_add]
      change |avg d (fun t => lazyChance d accept ((.mac p, t) :: l') (cont (xorBytes acc t))) - _| ≤ _
      have h1 : ∀ t : Bytes, t.length = d →
          |lazyChance d accept ((.mac p, t) :: l') (cont (xorBytes acc t)) - V (xorBytes acc t)| ≤ E := by
        intro t ht
        refine hc _ (p :: L) (xorBytes acc t) (hR.cons p t hU) ?_ ?_
        · rw [List.length_cons]
          omega
        · rw [length_xorBytes, ha, ht, Nat.min_self]
      generalize hgg : (fun t => lazyChance d accept ((.mac p, t) :: l') (cont (xorBytes acc t))) = g
      have h1' : ∀ t : Bytes, t.length = d → |g t - V (xorBytes acc t)| ≤ E := by
        intro t ht
        rw [← hgg]
        exact h1 t ht
      have h2 := avg_sub_le d g (fun t => V (xorBytes acc t)) (fun _ => E) h1'
      rw [avg_const] at h2
      exact h2
  | succ r ih =>
    intro p acc l' L hR hp hU ha hM
    rw [askChain, lazyChance]
    cases hv : l'.lookup (.mac p) with
    | some t => exact absurd (hR.mac p t (lookup_some l' _ _ hv)) hp
    | none =>
      have hvt : ∀ t : Str d, val d (.ok t.1) = t.1 := fun t => List.take_of_length_le t.2.le
      simp only [hvt]
      rw [← avg_const d (avg d V)]
      change |avg d (fun t => lazyChance d accept ((.mac p, t) :: l') (askChain d cont r t (xorBytes acc t))) - _| ≤ _
      refine (avg_sub_le d (fun t => lazyChance d accept ((.mac p, t) :: l') (askChain d cont r t (xorBytes acc t)))
        (fun _ => avg d V) (fun t => (if t ∈ p :: L ++ P then 1 else 0) + (r * β + E)) fun t ht => ?_).trans ?_
      · by_cases hb : t ∈ p :: L ++ P
        · rw [if_pos hb]
          refine (abs_sub_le_one (lazy_range _ _ _ _) (avg_range d V hV)).trans ?_
          have : 0 ≤ r * β := by positivity
          linarith
        · rw [if_neg hb, zero_add]
          have hb1 : t ∉ p :: L := fun h => hb (List.mem_append_left _ h)
          have hb2 : t ∉ P := fun h => hb (List.mem_append_right _ h)
          refine ih t _ _ (p :: L) (hR.cons p t hU) hb1 (fun h => absurd h hb2) ?_ ?_
          · rw [length_xorBytes, ha, ht, Nat.min_self]
          · rw [List.length_cons]
            omega
      · refine (avg_mem d _ _).trans ?_
        have h1 : ((p :: L ++ P).length : ℚ) ≤ M + P.length := by
          rw [List.length_append, List.length_cons]
          exact_mod_cast (by omega : L.length + 1 + P.length ≤ M + P.length)
        have h2 := (div_le_div_of_nonneg_right h1 hN.le).trans hβ
        push_cast
        linarith

theorem beBytes_inj (i j : ℕ) (hi : i < 2 ^ 32) (hj : j < 2 ^ 32) (h : beBytes 4 i = beBytes 4 j) : i = j := by
  have := congrArg Spec.beValue h
  rw [beValue_beBytes, beValue_beBytes] at this
  omega

theorem askPb_chance {R : Type} (accept : R → Prop) (salt : Bytes) (r : ℕ) (cont : Bytes → Asker HmacAsk (Py Bytes) R)
    (V : Bytes → ℚ) (hV : ∀ t, 0 ≤ V t ∧ V t ≤ 1) (l : List (Bytes × Bytes)) (U : Bytes → Prop) (β E : ℚ) (hE : 0 ≤ E)
    (Q b : ℕ) (hb : b < 2 ^ 32) (hβ : ((Q : ℚ) + P.length) / Fintype.card (Str d) ≤ β)
    (hP : ∀ i, 1 ≤ i → i ≤ b → salt ++ beBytes 4 i ∈ P) (hU : ∀ i, ¬ U (salt ++ beBytes 4 i)) (k : ℕ) :
    ∀ i acc l' L M, M ≤ Q → 1 ≤ i → i + k ≤ b + 1 →
      Rel2 P l (fun p => U p ∨ ∃ j, j < i ∧ p = salt ++ beBytes 4 j) l' L → L.length + (r + 1) * k = M →
      (∀ l'' L'' s, Rel2 P l (fun p => U p ∨ ∃ j, p = salt ++ beBytes 4 j) l'' L'' → L''.length = M →
        |lazyChance d accept l'' (cont s) - V s| ≤ E) →
      |lazyChance d accept l' (askPb d salt r cont i k acc) - avg (d * k) fun s => V (acc ++ s)| ≤ k * (r * β) + E := by
  have hN := card_pos d
  have hβ0 : 0 ≤ β := le_trans (by positivity) hβ
  induction k with
  | zero =>
    intro i acc l' L M hM hi hk hR hL hc
    rw [askPb, avg_congr (d * 0) _ (fun _ => V acc) fun t ht => ?_, avg_const, Nat.cast_zero, zero_mul, zero_add]
    · refine hc l' L acc ⟨hR.hash, hR.mac, fun p hp hpL => ?_⟩ (by omega)
      rcases hR.start p hp hpL with h | ⟨j, -, h⟩
      · exact Or.inl h
      · exact Or.inr ⟨j, h⟩
    · have : t = [] := List.length_eq_zero_iff.mp (by simpa using ht)
      rw [this, List.append_nil]
  | succ k ih =>
    intro i acc l' L M hM hi hk hR hL hc
    rw [askPb, show d * (k + 1) = d + d * k by rw [Nat.mul_succ, Nat.add_comm], avg_split]
    have hM' : L.length + r + 1 ≤ Q := by nlinarith
    have hβ' : ((L.length + r + 1 : ℕ) + (P.length : ℚ)) / Fintype.card (Str d) ≤ β := by
      refine le_trans (div_le_div_of_nonneg_right ?_ hN.le) hβ
      have : ((L.length + r + 1 : ℕ) : ℚ) ≤ Q := by exact_mod_cast hM'
      linarith
    have hE' : 0 ≤ k * (r * β) + E := by positivity
    have h := askChain_chance (P := P) (d := d) accept (fun T => askPb d salt r cont (i + 1) k (acc ++ T))
      (fun T => avg (d * k) fun s => V (acc ++ (T ++ s))) (fun T => avg_range _ _ fun s => hV _) l
      (fun p => U p ∨ ∃ j, j < i + 1 ∧ p = salt ++ beBytes 4 j) β (k * (r * β) + E) hE' (L.length + r + 1) hβ'
      (fun l'' L'' T hR'' hL'' hT => by
        have := ih (i + 1) (acc ++ T) l'' L'' M hM (by omega) (by omega) hR'' (by rw [hL'', ← hL]; ring) hc
        simp only [List.append_assoc] at this
        exact this) r (salt ++ beBytes 4 i) (List.replicate d 0) l' L
      ⟨hR.hash, hR.mac, fun p hp hpL => by
        rcases hR.start p hp hpL with h | ⟨j, hj, h⟩
        · exact Or.inl h
        · exact Or.inr ⟨j, by omega, h⟩⟩
      (fun hmem => by
        rcases hR.start _ (hP i hi (by omega)) hmem with h | ⟨j, hj, h⟩
        · exact hU i h
        · have := beBytes_inj i j (by omega) (by omega) (List.append_cancel_left h)
          omega)
      (fun _ => Or.inr ⟨i, by omega, rfl⟩) (by simp) rfl
    refine h.trans (le_of_eq ?_)
    push_cast
    ring

/-! ### Costs and lengths -/

theorem askChain_within {R : Type} (B n d : ℕ) (hn : B + d ≤ n) (cont : Bytes → Asker HmacAsk (Py Bytes) R)
    (hc : ∀ s, (cont s).Within (HmacFits B n)) (r : ℕ) :
    ∀ p acc, B + p.length ≤ n → (askChain d cont r p acc).Within (HmacFits B n) := by
  induction r with
  | zero => exact fun p acc hp => ⟨hp, fun t => hc _⟩
  | succ r ih =>
    refine fun p acc hp => ⟨hp, fun t => ih _ _ ?_⟩
    have := length_val d t
    omega

theorem askPb_within {R : Type} (B n d : ℕ) (hn : B + d ≤ n) (salt : Bytes) (hs : B + (salt.length + 4) ≤ n) (r : ℕ)
    (cont : Bytes → Asker HmacAsk (Py Bytes) R) (hc : ∀ s, (cont s).Within (HmacFits B n)) (k : ℕ) :
    ∀ i acc, (askPb d salt r cont i k acc).Within (HmacFits B n) := by
  induction k with
  | zero => exact fun i acc => hc acc
  | succ k ih =>
    refine fun i acc => askChain_within B n d hn _ (fun T => ih _ _) r _ _ ?_
    rw [List.length_append, length_beBytes]
    exact hs

theorem askChain_cost {R : Type} (d : ℕ) (cont : Bytes → Asker HmacAsk (Py Bytes) R) (cost : HmacAsk → ℕ) (c q : ℕ)
    (hcost : ∀ m, cost (.mac m) = c) (hc : ∀ s, (cont s).CostLe cost (fun _ => 0) q) (r : ℕ) :
    ∀ p acc, (askChain d cont r p acc).CostLe cost (fun _ => 0) (c * (r + 1) + q) := by
  induction r with
  | zero =>
    intro p acc
    refine ⟨by rw [hcost]; omega, fun t => ?_⟩
    rw [hcost, show c * (0 + 1) + q - c = q by omega]
    exact hc _
  | succ r ih =>
    intro p acc
    refine ⟨by rw [hcost]; nlinarith, fun t => ?_⟩
    rw [hcost, show c * (r + 1 + 1) + q - c = c * (r + 1) + q by rw [Nat.mul_succ]; omega]
    exact ih _ _

theorem askPb_cost {R : Type} (d : ℕ) (salt : Bytes) (r : ℕ) (cont : Bytes → Asker HmacAsk (Py Bytes) R)
    (cost : HmacAsk → ℕ) (c q : ℕ) (hcost : ∀ m, cost (.mac m) = c) (hc : ∀ s, (cont s).CostLe cost (fun _ => 0) q) (k : ℕ) :
    ∀ i acc, (askPb d salt r cont i k acc).CostLe cost (fun _ => 0) (c * (r + 1) * k + q) := by
  induction k with
  | zero =>
    intro i acc
    rw [Nat.mul_zero, Nat.zero_add]
    exact hc acc
  | succ k ih =>
    intro i acc
    have := askChain_cost d (fun T => askPb d salt r cont (i + 1) k (acc ++ T)) cost c (c * (r + 1) * k + q) hcost
      (fun T => ih _ _) r (salt ++ beBytes 4 i) (List.replicate d 0)
    rw [show c * (r + 1) * (k + 1) + q = c * (r + 1) + (c * (r + 1) * k + q) by ring]
    exact this

end HmacGame

/-- The salt is one of `G`, the password prefix and the salt fit in the tables, the key has at most `b` blocks. -/
def SaltFits (G : List Bytes) (B N d b : ℕ) : KeyAsk Bytes → Prop
  | .hash x => x.length ≤ N
  | .key salt n => salt ∈ G ∧ B + (salt.length + 4) ≤ N ∧ n ≤ 10000 ∧ (n + d - 1) / d ≤ b

/-- The number of tags that a key needs. -/
def saltBlocks (d c : ℕ) : KeyAsk Bytes → ℕ
  | .hash _ => 0
  | .key _ n => c * ((n + d - 1) / d)

namespace HmacGame

/-- Where chains can begin. -/
def starts (G : List Bytes) (b : ℕ) : List Bytes :=
  G.flatMap fun salt => (List.range b).map fun i => salt ++ beBytes 4 (i + 1)

theorem length_starts (G : List Bytes) (b : ℕ) : (starts G b).length = G.length * b := by
  induction G with
  | nil => simp [starts]
  | cons a G ih =>
    rw [starts, List.flatMap_cons, List.length_append, List.length_map, List.length_range, List.length_cons, Nat.succ_mul]
    rw [starts] at ih
    omega

theorem mem_starts {G : List Bytes} {b : ℕ} {salt : Bytes} (h : salt ∈ G) (i : ℕ) (h1 : 1 ≤ i) (h2 : i ≤ b) :
    salt ++ beBytes 4 i ∈ starts G b := by
  refine List.mem_flatMap.mpr ⟨salt, h, List.mem_map.mpr ⟨i - 1, List.mem_range.mpr (by omega), ?_⟩⟩
  rw [Nat.sub_add_cancel h1]

theorem expandPb_chance {R : Type} (accept : R → Prop) (G : List Bytes) (B N d b r Q : ℕ) (hd : 0 < d) (hb : b < 2 ^ 32)
    (β : ℚ) (hβ : ((Q : ℚ) + (starts G b).length) / Fintype.card (Str d) ≤ β) (D : Asker (KeyAsk Bytes) (Py Bytes) R) :
    ∀ l S l' L q, Rel2 (starts G b) l (fun p => ∃ A ∈ S, ∃ j, p = A ++ beBytes 4 j) l' L → FreshLabels S D →
      D.Within (SaltFits G B N d b) → D.CostLe (saltBlocks d (r + 1)) (fun _ => 0) q → L.length + q ≤ Q →
      |lazyChance d accept l' (expandPb d r D) - keyChance d accept l D| ≤ q * β := by
  have hN := card_pos d
  have hβ0 : 0 ≤ β := le_trans (by positivity) hβ
  induction D with
  | done v =>
    intro l S l' L q _ _ _ _ _
    rw [expandPb, lazyChance, keyChance, sub_self, abs_zero]
    positivity
  | ask v next ih =>
    intro l S l' L q hR hF hW hq hQ
    obtain ⟨hfit, hW⟩ := hW
    rcases v with x | ⟨salt, n⟩
    · rw [expandPb, lazyChance, keyChance, hR.hash x]
      cases hv : l.lookup x with
      | some t => exact ih _ l S l' L q hR (hF _) (hW _) (hq.2 _) hQ
      | none =>
        simp only
        generalize hg : (fun t => lazyChance d accept ((.hash x, t) :: l') (expandPb d r (next (.ok t)))) = g
        generalize hg' : (fun t => keyChance d accept ((x, t) :: l) (next (.ok t))) = g'
        have h1 : ∀ t : Bytes, t.length = d → |g t - g' t| ≤ q * β := by
          intro t _
          rw [← hg, ← hg']
          refine ih _ _ S _ L q ⟨?_, ?_, hR.start⟩ (hF _) (hW _) (hq.2 _) hQ
          · intro y
            rw [List.lookup_cons, List.lookup_cons, ← hR.hash y]
            by_cases h : y = x
            · subst h; simp
            · rw [beq_false_of_ne h, beq_false_of_ne fun e => h (HmacAsk.hash.inj e)]
          · intro m s hm
            rcases List.mem_cons.mp hm with e | hm
            · exact absurd (Prod.mk.inj e).1 (by simp)
            · exact hR.mac m s hm
        have h2 := avg_sub_le d g g' (fun _ => q * β) h1
        rw [avg_const, ← hg, ← hg'] at h2
        exact h2
    · obtain ⟨hG, hs, hn, hk⟩ := hfit
      set k := (n + d - 1) / d with hkd
      have hnk : n ≤ d * k := by
        have := Nat.lt_mul_div_succ (n + d - 1) hd
        rw [← hkd, Nat.mul_add] at this
        omega
      have hq1 : (r + 1) * k ≤ q := hq.1
      have hq2 : ∀ t, (next t).CostLe (saltBlocks d (r + 1)) (fun _ => 0) (q - (r + 1) * k) := hq.2
      rw [expandPb, keyChance, ← hkd]
      have h := askPb_chance (P := starts G b) (d := d) accept salt r (fun s => expandPb d r (next (.ok (s.take n))))
        (fun s => keyChance d accept l (next (.ok (s.take n)))) (fun s => key_range _ _ _ _) l
        (fun p => ∃ A ∈ S, ∃ j, p = A ++ beBytes 4 j) β ((q - (r + 1) * k : ℕ) * β) (by positivity) Q b hb hβ
        (fun i => mem_starts hG i) (fun i ⟨A, hA, j, e⟩ => by
          have := List.append_inj_left' e (by rw [length_beBytes, length_beBytes])
          exact hF.1 (this ▸ hA)) k 1 [] l' L (L.length + (r + 1) * k) (by omega) le_rfl (by omega)
        ⟨hR.hash, hR.mac, fun p hp hpL => Or.inl (hR.start p hp hpL)⟩ rfl
        (fun l'' L'' s hR'' hL'' => by
          refine ih _ l (salt :: S) l'' L'' _ ⟨hR''.hash, hR''.mac, fun p hp hpL => ?_⟩ (hF.2 _) (hW _) (hq2 _) (by omega)
          rcases hR''.start p hp hpL with ⟨A, hA, j, e⟩ | ⟨j, e⟩
          · exact ⟨A, List.mem_cons_of_mem _ hA, j, e⟩
          · exact ⟨salt, List.mem_cons_self, j, e⟩)
      simp only [List.nil_append] at h
      rw [avg_take n (d * k) hnk fun s => keyChance d accept l (next (.ok s))] at h
      refine h.trans ?_
      rw [Nat.cast_sub hq1]
      have : (0 : ℚ) ≤ k * β := by positivity
      push_cast
      nlinarith

theorem expandPb_within {R : Type} (G : List Bytes) (B N d b r : ℕ) (hn : B + d ≤ N) (D : Asker (KeyAsk Bytes) (Py Bytes) R) :
    D.Within (SaltFits G B N d b) → (expandPb d r D).Within (HmacFits B N) := by
  induction D with
  | done r => exact id
  | ask v next ih =>
    intro hW
    rcases v with x | ⟨salt, n⟩
    · exact ⟨hW.1, fun t => ih t (hW.2 t)⟩
    · obtain ⟨⟨hG, hs, -⟩, hW⟩ := hW
      exact askPb_within B N d hn salt hs r _ (fun s => ih _ (hW _)) _ _ _

theorem expandPb_hashes {R : Type} (d r : ℕ) (D : Asker (KeyAsk Bytes) (Py Bytes) R) :
    ∀ q, D.CostLe KeyAsk.hashes (fun _ => 0) q → (expandPb d r D).CostLe HmacAsk.hashes (fun _ => 0) q := by
  induction D with
  | done r => exact fun q h => h
  | ask v next ih =>
    intro q h
    rcases v with x | ⟨salt, n⟩
    · exact ⟨h.1, fun t => ih t _ (h.2 t)⟩
    · have := askPb_cost d salt r (fun s => expandPb d r (next (.ok (s.take n)))) HmacAsk.hashes 0 q (fun _ => rfl)
        (fun s => ih _ _ (h.2 _)) ((n + d - 1) / d) 1 []
      rw [Nat.zero_mul, Nat.zero_mul, Nat.zero_add] at this
      exact this

theorem expandPb_macs {R : Type} (d r : ℕ) (D : Asker (KeyAsk Bytes) (Py Bytes) R) :
    ∀ q, D.CostLe (saltBlocks d (r + 1)) (fun _ => 0) q → (expandPb d r D).CostLe HmacAsk.macs (fun _ => 0) q := by
  induction D with
  | done r => exact fun q h => h
  | ask v next ih =>
    intro q h
    rcases v with x | ⟨salt, n⟩
    · exact ⟨h.1, fun t => ih t _ (h.2 t)⟩
    · have h1 : (r + 1) * ((n + d - 1) / d) ≤ q := h.1
      have := askPb_cost d salt r (fun s => expandPb d r (next (.ok (s.take n)))) HmacAsk.macs 1
        (q - (r + 1) * ((n + d - 1) / d)) (fun _ => rfl) (fun s => ih _ _ (h.2 _)) ((n + d - 1) / d) 1 []
      rw [Nat.one_mul, Nat.add_sub_cancel' h1] at this
      exact this

end HmacGame
end Cryptopy
