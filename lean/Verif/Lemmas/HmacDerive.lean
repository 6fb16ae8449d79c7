import Verif.Spec.DerivedKeys
import Verif.Props.HmacRandom
import Verif.Props.HmacKeys

/-!
The 802.11 PRF over a random hash function: strategies that ask for derived keys as strategies that ask for tags.
-/

namespace Cryptopy
open Spec (Str Asker HmacAsk KeyAsk FreshLabels keyChance)
open Chain (Table ask)

/-- The labels are pairs of strings. -/
abbrev LabelAsk : Type := KeyAsk (Bytes × Bytes)

namespace HmacGame

/-- The average over all strings. -/
noncomputable def avg (n : ℕ) (g : Bytes → ℚ) : ℚ := (∑ t : Str n, g t.1) / Fintype.card (Str n)

/-- A string in two pieces. -/
def splitEquiv (a b : ℕ) : Str a × Str b ≃ Str (a + b) where
  toFun x := ⟨x.1.1 ++ x.2.1, by rw [List.length_append, x.1.2, x.2.2]⟩
  invFun s := (⟨s.1.take a, by rw [List.length_take, s.2]; omega⟩, ⟨s.1.drop a, by rw [List.length_drop, s.2]; omega⟩)
  left_inv x := by
    refine Prod.ext (Subtype.ext ?_) (Subtype.ext ?_)
    · exact List.take_left' x.1.2
    · exact List.drop_left' x.1.2
  right_inv s := Subtype.ext (List.take_append_drop a s.1)

theorem card_split (a b : ℕ) : (Fintype.card (Str (a + b)) : ℚ) = Fintype.card (Str a) * Fintype.card (Str b) := by
  rw [Cpoly.card_str, Cpoly.card_str, Cpoly.card_str]
  push_cast
  rw [pow_add]

theorem avg_split (a b : ℕ) (g : Bytes → ℚ) : avg (a + b) g = avg a fun s => avg b fun t => g (s ++ t) := by
  rw [avg, avg, ← Equiv.sum_comp (splitEquiv a b), Fintype.sum_prod_type, card_split]
  simp only [avg]
  rw [← Finset.sum_div, div_div, mul_comm (Fintype.card (Str a) : ℚ)]
  rfl

theorem avg_const (n : ℕ) (c : ℚ) : avg n (fun _ => c) = c := by
  have := card_pos n
  rw [avg, Finset.sum_const, Finset.card_univ, nsmul_eq_mul]
  field_simp

theorem avg_congr (n : ℕ) (g g' : Bytes → ℚ) (h : ∀ t, t.length = n → g t = g' t) : avg n g = avg n g' := by
  rw [avg, avg, Finset.sum_congr rfl fun t _ => h t.1 t.2]

theorem avg_take (n m : ℕ) (h : n ≤ m) (g : Bytes → ℚ) : avg m (fun t => g (t.take n)) = avg n g := by
  obtain ⟨b, rfl⟩ := Nat.exists_eq_add_of_le h
  rw [avg_split]
  refine avg_congr n _ _ fun t ht => ?_
  simp only [List.take_left' ht]
  exact avg_const b _

/-- Ask for `k` blocks and carry on. -/
def askBlocks {R : Type} (m : Bytes) (cont : Bytes → Asker HmacAsk (Py Bytes) R) :
    ℕ → ℕ → Bytes → Asker HmacAsk (Py Bytes) R
  | _, 0, acc => cont acc
  | i, k + 1, acc => .ask (.mac (m ++ [UInt8.ofNat i])) fun t =>
      askBlocks m cont (i + 1) k (acc ++ match t with | .ok t => t | .error _ => [])

/-- Strategies that ask for keys as strategies that ask for tags. -/
def expand {R : Type} : Asker LabelAsk (Py Bytes) R → Asker HmacAsk (Py Bytes) R
  | .done r => .done r
  | .ask (.hash x) next => .ask (.hash x) fun t => expand (next t)
  | .ask (.key (A, B) n) next =>
      askBlocks (A ++ [0] ++ B) (fun s => expand (next (.ok (s.take n)))) 0 (n / 20 + 1) []

theorem askBlocks_run {R : Type} (m : Bytes) (cont : Bytes → Asker HmacAsk (Py Bytes) R) (g : HmacAsk → Py Bytes)
    (F : Bytes → Bytes) (hg : ∀ m, g (.mac m) = .ok (F m)) (k : ℕ) :
    ∀ i acc, (askBlocks m cont i k acc).run g =
      (cont (acc ++ (List.range k).flatMap fun j => F (m ++ [UInt8.ofNat (i + j)]))).run g := by
  induction k with
  | zero => intro i acc; simp [askBlocks]
  | succ k ih =>
    intro i acc
    rw [askBlocks, Asker.run, hg, ih, List.range_succ_eq_map, List.flatMap_cons, List.flatMap_map, List.append_assoc]
    simp only [Nat.add_zero, Nat.succ_eq_add_one, Nat.add_assoc, Nat.add_comm 1]

theorem askBlocks_within {R : Type} (m : Bytes) (cont : Bytes → Asker HmacAsk (Py Bytes) R) (B n : ℕ)
    (hm : B + (m.length + 1) ≤ n) (hc : ∀ s, (cont s).Within (HmacFits B n)) (k : ℕ) :
    ∀ i acc, (askBlocks m cont i k acc).Within (HmacFits B n) := by
  induction k with
  | zero => exact fun i acc => hc acc
  | succ k ih =>
    intro i acc
    refine ⟨?_, fun t => ih _ _⟩
    change B + (m ++ [_]).length ≤ n
    rw [List.length_append]
    exact hm

theorem askBlocks_cost {R : Type} (m : Bytes) (cont : Bytes → Asker HmacAsk (Py Bytes) R) (cost : HmacAsk → ℕ) (c q : ℕ)
    (hcost : ∀ m, cost (.mac m) = c) (hc : ∀ s, (cont s).CostLe cost (fun _ => 0) q) (k : ℕ) :
    ∀ i acc, (askBlocks m cont i k acc).CostLe cost (fun _ => 0) (c * k + q) := by
  induction k with
  | zero =>
    intro i acc
    rw [Nat.mul_zero, Nat.zero_add]
    exact hc acc
  | succ k ih =>
    intro i acc
    refine ⟨?_, fun t => ?_⟩
    · rw [hcost]
      nlinarith
    · rw [hcost, show c * (k + 1) + q - c = c * k + q by rw [Nat.mul_succ]; omega]
      exact ih _ _

theorem askBlocks_chance {R : Type} (accept : R → Prop) (m : Bytes) (cont : Bytes → Asker HmacAsk (Py Bytes) R)
    (V : Bytes → ℚ) (Ok : List (HmacAsk × Bytes) → Prop)
    (hOk : ∀ l, Ok l → ∀ i t, Ok ((.mac (m ++ [i]), t) :: l))
    (hV : ∀ l, Ok l → ∀ s, lazyChance 20 accept l (cont s) = V s) (k : ℕ) :
    ∀ i acc l, i + k ≤ 256 → Ok l → (∀ j t, i ≤ j → j < 256 → (.mac (m ++ [UInt8.ofNat j]), t) ∉ l) →
      lazyChance 20 accept l (askBlocks m cont i k acc) = avg (20 * k) fun s => V (acc ++ s) := by
  induction k with
  | zero =>
    intro i acc l _ hl _
    rw [askBlocks, hV l hl, avg_congr (20 * 0) _ (fun _ => V acc) fun t ht => ?_, avg_const]
    rw [List.length_eq_zero_iff.mp ht, List.append_nil]
  | succ k ih =>
    intro i acc l hi hl hnew
    rw [askBlocks, lazyChance]
    cases hv : l.lookup (.mac (m ++ [UInt8.ofNat i])) with
    | some t => exact absurd (lookup_some l _ _ hv) (hnew i t le_rfl (by omega))
    | none =>
      simp only
      rw [show 20 * (k + 1) = 20 + 20 * k by omega, avg_split]
      change avg 20 (fun t => lazyChance 20 accept ((.mac (m ++ [UInt8.ofNat i]), t) :: l)
        (askBlocks m cont (i + 1) k (acc ++ t))) = _
      refine avg_congr 20 _ _ fun t ht => ?_
      rw [ih (i + 1) _ _ (by omega) (hOk l hl _ t)]
      · simp only [List.append_assoc]
      · intro j s hij hj hmem
        rcases List.mem_cons.mp hmem with e | hmem
        · have := congrArg UInt8.toNat (List.cons.inj (List.append_cancel_left (HmacAsk.mac.inj (Prod.mk.inj e).1))).1
          rw [UInt8.toNat_ofNat_of_lt' (show j < 256 by omega), UInt8.toNat_ofNat_of_lt' (show i < 256 by omega)] at this
          omega
        · exact hnew j s (by omega) hj hmem

end HmacGame

/-- The label has no zero octet, the key is not too long for the counter, and the tables are large enough. -/
def KeyFits (N : ℕ) : LabelAsk → Prop
  | .hash x => x.length ≤ N
  | .key (A, B) n => (0 : UInt8) ∉ A ∧ 64 + (A.length + 1 + B.length + 1) ≤ N ∧ n < 5120

/-- The number of tags that a key needs. -/
def keyBlocks : LabelAsk → ℕ
  | .hash _ => 0
  | .key _ n => n / 20 + 1

namespace HmacGame

/-- What the values asked for have to do with the hash values and labels asked for. -/
structure Rel (l : List (Bytes × Bytes)) (S : List (Bytes × Bytes)) (l' : List (HmacAsk × Bytes)) : Prop where
  hash : ∀ x, l'.lookup (.hash x) = l.lookup x
  mac : ∀ m t, (.mac m, t) ∈ l' → ∃ A B i, (A, B) ∈ S ∧ (0 : UInt8) ∉ A ∧ m = A ++ [0] ++ B ++ [i]

theorem expand_chance {R : Type} (accept : R → Prop) (N : ℕ) (D : Asker LabelAsk (Py Bytes) R) :
    ∀ l S l', Rel l S l' → FreshLabels S D → D.Within (KeyFits N) →
      lazyChance 20 accept l' (expand D) = keyChance 20 accept l D := by
  induction D with
  | done r => intro l S l' _ _ _; rw [expand, lazyChance, keyChance]
  | ask v next ih =>
    intro l S l' hR hF hW
    obtain ⟨hfit, hW⟩ := hW
    rcases v with x | ⟨⟨A, B⟩, n⟩
    · rw [expand, lazyChance, keyChance, hR.hash x]
      cases hv : l.lookup x with
      | some t => exact ih _ l S l' hR (hF _) (hW _)
      | none =>
        simp only
        refine congrArg (· / _) (Finset.sum_congr rfl fun t _ => ih _ _ S _ ⟨?_, ?_⟩ (hF _) (hW _))
        · intro y
          rw [List.lookup_cons, List.lookup_cons, ← hR.hash y]
          by_cases h : y = x
          · subst h; simp
          · rw [beq_false_of_ne h, beq_false_of_ne fun e => h (HmacAsk.hash.inj e)]
        · intro m s hm
          rcases List.mem_cons.mp hm with e | hm
          · exact absurd (Prod.mk.inj e).1 (by simp)
          · exact hR.mac m s hm
    · obtain ⟨hA, hl, hn⟩ := hfit
      rw [expand, keyChance, askBlocks_chance accept _ _ (fun s => keyChance 20 accept l (next (.ok (s.take n))))
        (Rel l ((A, B) :: S)) ?_ ?_ (n / 20 + 1) 0 [] l' (by omega) ⟨hR.hash, ?_⟩ ?_]
      · simp only [List.nil_append]
        exact avg_take n (20 * (n / 20 + 1)) (by omega) fun s => keyChance 20 accept l (next (.ok s))
      · refine fun l'' h i t => ⟨fun x => ?_, fun m s hm => ?_⟩
        · rw [List.lookup_cons, beq_false_of_ne (by simp)]
          exact h.hash x
        · rcases List.mem_cons.mp hm with e | hm
          · exact ⟨A, B, i, List.mem_cons_self, hA, HmacAsk.mac.inj (Prod.mk.inj e).1⟩
          · exact h.mac m s hm
      · exact fun l'' h s => ih _ l _ l'' h (hF.2 _) (hW _)
      · intro m t hm
        obtain ⟨A', B', i, h1, h2, h3⟩ := hR.mac m t hm
        exact ⟨A', B', i, List.mem_cons_of_mem _ h1, h2, h3⟩
      · intro j t _ _ hm
        obtain ⟨A', B', i, h1, h2, h3⟩ := hR.mac _ t hm
        obtain ⟨rfl, rfl, -⟩ := C116_separated A B A' B' _ _ hA h2 h3
        exact hF.1 h1

theorem expand_within {R : Type} (N : ℕ) (D : Asker LabelAsk (Py Bytes) R) :
    D.Within (KeyFits N) → (expand D).Within (HmacFits 64 N) := by
  induction D with
  | done r => exact id
  | ask v next ih =>
    intro hW
    rcases v with x | ⟨⟨A, B⟩, n⟩
    · exact ⟨hW.1, fun t => ih t (hW.2 t)⟩
    · obtain ⟨⟨hA, hl, hn⟩, hW⟩ := hW
      refine askBlocks_within _ _ 64 N ?_ (fun s => ih _ (hW _)) _ _ _
      simp only [List.length_append, List.length_singleton]
      exact hl

theorem expand_hashes {R : Type} (D : Asker LabelAsk (Py Bytes) R) :
    ∀ q, D.CostLe KeyAsk.hashes (fun _ => 0) q → (expand D).CostLe HmacAsk.hashes (fun _ => 0) q := by
  induction D with
  | done r => exact fun q h => h
  | ask v next ih =>
    intro q h
    rcases v with x | ⟨⟨A, B⟩, n⟩
    · exact ⟨h.1, fun t => ih t _ (h.2 t)⟩
    · have := askBlocks_cost (A ++ [0] ++ B) (fun s => expand (next (.ok (s.take n)))) HmacAsk.hashes 0 q (fun _ => rfl)
        (fun s => ih _ _ (h.2 _)) (n / 20 + 1) 0 []
      rw [Nat.zero_mul, Nat.zero_add] at this
      exact this

theorem expand_macs {R : Type} (D : Asker LabelAsk (Py Bytes) R) :
    ∀ q, D.CostLe keyBlocks (fun _ => 0) q → (expand D).CostLe HmacAsk.macs (fun _ => 0) q := by
  induction D with
  | done r => exact fun q h => h
  | ask v next ih =>
    intro q h
    rcases v with x | ⟨⟨A, B⟩, n⟩
    · exact ⟨h.1, fun t => ih t _ (h.2 t)⟩
    · have h1 : n / 20 + 1 ≤ q := h.1
      have := askBlocks_cost (A ++ [0] ++ B) (fun s => expand (next (.ok (s.take n)))) HmacAsk.macs 1 (q - (n / 20 + 1))
        (fun _ => rfl) (fun s => ih _ _ (h.2 _)) (n / 20 + 1) 0 []
      rw [Nat.one_mul, Nat.add_sub_cancel' h1] at this
      exact this

end HmacGame
end Cryptopy
