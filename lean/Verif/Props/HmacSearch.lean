import Verif.Props.HmacRandom

/-!
C198: trying keys of HMAC.
-/

namespace Cryptopy
open Model (HashLib)
open Spec (Str Asker HmacAsk)
open Chain (Table ask)
open Prf (cnt cnt_congr cnt_true cnt_prod cnt_equiv cnt_eq cnt_mono cnt_exists)
open HmacGame (pad length_pad Agree agree_cons sample answers_eq ans)

/-- The octets of an answer. -/
private def octets : Py Bytes → Bytes
  | .ok u => u
  | .error _ => []

/-- Compute the tags of the messages with one key and compare them with the given ones. -/
private def tryKey (B d : ℕ) (K : Bytes) (next : Asker HmacAsk (Py Bytes) Bool) : List (Bytes × Bytes) → Bool → Asker HmacAsk (Py Bytes) Bool
  | [], good => if good then .done true else next
  | (m, t) :: l, good => .ask (.hash (pad B 0x36 K ++ m)) fun u =>
      .ask (.hash (pad B 0x5c K ++ (octets u).take d)) fun v => tryKey B d K next l (good && decide (octets v = t))

/-- Try one key after the other. -/
private def tryKeys (B d : ℕ) (l : List (Bytes × Bytes)) : List Bytes → Asker HmacAsk (Py Bytes) Bool
  | [] => .done false
  | K :: L => tryKey B d K (tryKeys B d l L) l true

/-- Ask for the tags of the messages and go on with messages and tags. -/
private def collect (next : List (Bytes × Bytes) → Asker HmacAsk (Py Bytes) Bool) :
    List Bytes → List (Bytes × Bytes) → Asker HmacAsk (Py Bytes) Bool
  | [], l => next l
  | m :: ms, l => .ask (.mac m) fun t => collect next ms ((m, octets t) :: l)

private theorem tryKey_within {B d n : ℕ} (hn : B + d ≤ n) (K : Bytes) (hK : K.length ≤ B) (next : Asker HmacAsk (Py Bytes) Bool)
    (hw : next.Within (HmacFits B n)) : ∀ (l : List (Bytes × Bytes)) (good : Bool), (∀ e ∈ l, B + e.1.length ≤ n) →
      (tryKey B d K next l good).Within (HmacFits B n)
  | [], good, _ => by
    rw [tryKey]
    split
    · trivial
    · exact hw
  | (m, t) :: l, good, h => by
    refine ⟨?_, fun u => ⟨?_, fun v => tryKey_within hn K hK next hw l _ fun e he => h e (by simp [he])⟩⟩
    · change (pad B 0x36 K ++ m).length ≤ n
      rw [List.length_append, length_pad hK]
      exact h (m, t) (by simp)
    · change (pad B 0x5c K ++ (octets u).take d).length ≤ n
      rw [List.length_append, length_pad hK, List.length_take]
      omega

private theorem tryKeys_within {B d n : ℕ} (hn : B + d ≤ n) (l : List (Bytes × Bytes)) (h : ∀ e ∈ l, B + e.1.length ≤ n) :
    ∀ L : List Bytes, (∀ K ∈ L, K.length ≤ B) → (tryKeys B d l L).Within (HmacFits B n)
  | [], _ => trivial
  | K :: L, hL => tryKey_within hn K (hL K (by simp)) _ (tryKeys_within hn l h L fun K' hK' => hL K' (by simp [hK'])) l true h

private theorem collect_within {B n : ℕ} (next : List (Bytes × Bytes) → Asker HmacAsk (Py Bytes) Bool)
    (hw : ∀ l, (∀ e ∈ l, B + e.1.length ≤ n) → (next l).Within (HmacFits B n)) : ∀ (ms : List Bytes) (l : List (Bytes × Bytes)),
      (∀ m ∈ ms, B + m.length ≤ n) → (∀ e ∈ l, B + e.1.length ≤ n) → (collect next ms l).Within (HmacFits B n)
  | [], l, _, hl => hw l hl
  | m :: ms, l, hm, hl => ⟨hm m (by simp), fun t => collect_within next hw ms _ (fun x hx => hm x (by simp [hx])) (by
      intro e he
      rcases List.mem_cons.mp he with rfl | he
      · exact hm m (by simp)
      · exact hl e he)⟩

private theorem tryKey_hashes (B d : ℕ) (K : Bytes) (next : Asker HmacAsk (Py Bytes) Bool) (q : ℕ)
    (hq : next.CostLe HmacAsk.hashes (fun _ => 0) q) : ∀ (l : List (Bytes × Bytes)) (good : Bool),
      (tryKey B d K next l good).CostLe HmacAsk.hashes (fun _ => 0) (2 * l.length + q)
  | [], good => by
    rw [tryKey, List.length_nil, Nat.mul_zero, Nat.zero_add]
    split
    · exact Nat.zero_le _
    · exact hq
  | (m, t) :: l, good => by
    have ih := tryKey_hashes B d K next q hq l
    rw [List.length_cons]
    refine ⟨show 1 ≤ _ by omega, fun u => ⟨show 1 ≤ 2 * (l.length + 1) + q - 1 by omega, fun v => ?_⟩⟩
    have e : 2 * (l.length + 1) + q - HmacAsk.hashes (.hash (pad B 0x36 K ++ m)) -
        HmacAsk.hashes (.hash (pad B 0x5c K ++ (octets u).take d)) = 2 * l.length + q := by
      change 2 * (l.length + 1) + q - 1 - 1 = _
      omega
    rw [e]
    exact ih _

private theorem tryKeys_hashes (B d : ℕ) (l : List (Bytes × Bytes)) : ∀ L : List Bytes,
    (tryKeys B d l L).CostLe HmacAsk.hashes (fun _ => 0) (2 * l.length * L.length)
  | [] => Nat.zero_le _
  | K :: L => by
    have := tryKey_hashes B d K _ _ (tryKeys_hashes B d l L) l true
    rwa [show 2 * l.length + 2 * l.length * L.length = 2 * l.length * (K :: L).length by rw [List.length_cons]; ring] at this

private theorem collect_hashes (next : List (Bytes × Bytes) → Asker HmacAsk (Py Bytes) Bool) (w q : ℕ)
    (hq : ∀ l, l.length = w → (next l).CostLe HmacAsk.hashes (fun _ => 0) q) : ∀ (ms : List Bytes) (l : List (Bytes × Bytes)),
      ms.length + l.length = w → (collect next ms l).CostLe HmacAsk.hashes (fun _ => 0) q
  | [], l, h => hq l (by simpa using h)
  | m :: ms, l, h => ⟨Nat.zero_le _, fun t => collect_hashes next w q hq ms _ (by
      rw [List.length_cons] at h ⊢
      omega)⟩

private theorem tryKey_macs (B d : ℕ) (K : Bytes) (next : Asker HmacAsk (Py Bytes) Bool)
    (hq : next.CostLe HmacAsk.macs (fun _ => 0) 0) : ∀ (l : List (Bytes × Bytes)) (good : Bool),
      (tryKey B d K next l good).CostLe HmacAsk.macs (fun _ => 0) 0
  | [], good => by
    rw [tryKey]
    split
    · exact Nat.zero_le _
    · exact hq
  | _ :: l, _ => ⟨Nat.zero_le _, fun _ => ⟨Nat.zero_le _, fun _ => tryKey_macs B d K next hq l _⟩⟩

private theorem tryKeys_macs (B d : ℕ) (l : List (Bytes × Bytes)) : ∀ L : List Bytes,
    (tryKeys B d l L).CostLe HmacAsk.macs (fun _ => 0) 0
  | [] => Nat.zero_le _
  | K :: L => tryKey_macs B d K _ (tryKeys_macs B d l L) l true

private theorem collect_macs (next : List (Bytes × Bytes) → Asker HmacAsk (Py Bytes) Bool)
    (hq : ∀ l, (next l).CostLe HmacAsk.macs (fun _ => 0) 0) : ∀ (ms : List Bytes) (l : List (Bytes × Bytes)),
      (collect next ms l).CostLe HmacAsk.macs (fun _ => 0) ms.length
  | [], l => hq l
  | _ :: ms, _ => ⟨Nat.succ_le_succ (Nat.zero_le _), fun _ => collect_macs next hq ms _⟩

/-- The tag of a message computed from the function. -/
private def tagOf (B : ℕ) (H : Bytes → Bytes) (K m : Bytes) : Bytes := H (pad B 0x5c K ++ H (pad B 0x36 K ++ m))

private theorem tryKey_run {B d : ℕ} {g : HmacAsk → Py Bytes} {H : Bytes → Bytes} (hg : ∀ x, g (.hash x) = .ok (H x))
    (hH : ∀ x, (H x).length = d) (K : Bytes) (next : Asker HmacAsk (Py Bytes) Bool) : ∀ (l : List (Bytes × Bytes)) (good : Bool),
      (tryKey B d K next l good).run g = true ↔
        (good = true ∧ ∀ e ∈ l, tagOf B H K e.1 = e.2) ∨ (¬ (good = true ∧ ∀ e ∈ l, tagOf B H K e.1 = e.2) ∧ next.run g = true)
  | [], good => by
    rw [tryKey]
    cases good
    · simp
    · simp [Asker.run]
  | (m, t) :: l, good => by
    rw [tryKey, Asker.run, Asker.run, hg, hg, octets, octets, List.take_of_length_le (hH _).le, tryKey_run hg hH K next l, Bool.and_eq_true,
      decide_eq_true_eq, List.forall_mem_cons, and_assoc]
    rfl

private theorem tryKeys_run {B d : ℕ} {g : HmacAsk → Py Bytes} {H : Bytes → Bytes} (hg : ∀ x, g (.hash x) = .ok (H x))
    (hH : ∀ x, (H x).length = d) (l : List (Bytes × Bytes)) : ∀ L : List Bytes,
      (tryKeys B d l L).run g = true ↔ ∃ K ∈ L, ∀ e ∈ l, tagOf B H K e.1 = e.2
  | [] => by simp [tryKeys, Asker.run]
  | K :: L => by
    have e : (∃ K' ∈ K :: L, ∀ e ∈ l, tagOf B H K' e.1 = e.2) ↔
        (∀ e ∈ l, tagOf B H K e.1 = e.2) ∨ ∃ K' ∈ L, ∀ e ∈ l, tagOf B H K' e.1 = e.2 := List.exists_mem_cons_iff _ _ _
    rw [tryKeys, tryKey_run hg hH, tryKeys_run hg hH l L, e]
    tauto

private theorem collect_run {g : HmacAsk → Py Bytes} {F : Bytes → Bytes} (hg : ∀ m, g (.mac m) = .ok (F m))
    (next : List (Bytes × Bytes) → Asker HmacAsk (Py Bytes) Bool) : ∀ (ms : List Bytes) (l : List (Bytes × Bytes)),
      (collect next ms l).run g = (next ((ms.map fun m => (m, F m)).reverse ++ l)).run g
  | [], l => by rw [collect]; rfl
  | m :: ms, l => by
    rw [collect, Asker.run, hg, collect_run hg next ms, octets, List.map_cons, List.reverse_cons, List.append_assoc]
    rfl

/-- The strategy: ask for the tags of the messages and look for a key that gives them. -/
private def search (B d : ℕ) (ms L : List Bytes) : Asker HmacAsk (Py Bytes) Bool := collect (fun l => tryKeys B d l L) ms []

private theorem search_run {B d : ℕ} {g : HmacAsk → Py Bytes} {H F : Bytes → Bytes} (hg : ∀ x, g (.hash x) = .ok (H x))
    (hm : ∀ m, g (.mac m) = .ok (F m)) (hH : ∀ x, (H x).length = d) (ms L : List Bytes) :
    (search B d ms L).run g = true ↔ ∃ K ∈ L, ∀ m ∈ ms, tagOf B H K m = F m := by
  rw [search, collect_run hm, tryKeys_run hg hH]
  simp

/-- Different places of a table have independent values. -/
private theorem places {n d : ℕ} (y : Bytes → Str d) : ∀ ms : List Bytes, ms.Nodup → (∀ m ∈ ms, m.length ≤ n) →
    Fintype.card (Str d) ^ ms.length * cnt (fun f : Table n d => Agree (ms.map fun m => (m, (y m).1)) f) = Fintype.card (Table n d)
  | [], _, _ => by
    rw [List.length_nil, pow_zero, one_mul, ← cnt_true]
    exact cnt_congr fun f => by simp [Agree]
  | m :: ms, hnd, hl => by
    rw [← places y ms hnd.of_cons fun x hx => hl x (by simp [hx]), List.length_cons, pow_succ, mul_assoc, List.map_cons,
      sample _ m (hl m (by simp)) _ (y m)]
    rw [List.map_map]
    intro h
    obtain ⟨x, hx, e⟩ := List.mem_map.mp h
    exact (List.nodup_cons.mp hnd).1 ((show x = m from e) ▸ hx)

/-- C198: somebody who gets the tags of `w` messages and computes them with each of a set of keys, for `2 w` hash values each, recognizes
HMAC for at least the share of these keys among all keys, and takes another random function for HMAC at most as often as one of the keys
happens to give all its values; C170 says that nobody does better than `4 w` times that with as many questions, but for coincidences. -/
theorem C198_search (B k d n : ℕ) (hB : 0 < B) (hk : k ≤ B) (hn : B + d ≤ n) (G : Finset (Str k)) (ms : List Bytes) (hms : ms.Nodup)
    (hl : ∀ m ∈ ms, B + m.length ≤ n) :
    ∃ D : Asker HmacAsk (Py Bytes) Bool, D.Within (HmacFits B n) ∧ D.CostLe HmacAsk.hashes (fun _ => 0) (2 * ms.length * G.card) ∧
      D.CostLe HmacAsk.macs (fun _ => 0) ms.length ∧
      (G.card : ℚ) / 256 ^ k ≤ (Nat.card {x : Str k × Table n d // D.run (hmacAnswers ⟨B, d, ask x.2⟩ x.1.1) = true} : ℚ) /
        Nat.card (Str k × Table n d) ∧
      (Nat.card {x : Table n d × Table n d // D.run (twoAnswers (ask x.1) (ask x.2)) = true} : ℚ) /
        Nat.card (Table n d × Table n d) ≤ G.card / 256 ^ (d * ms.length) ∧
      (Nat.card {x : Str k × Table n d // D.run (hmacAnswers ⟨B, d, ask x.2⟩ x.1.1) = true} : ℚ) / Nat.card (Str k × Table n d) -
        (Nat.card {x : Table n d × Table n d // D.run (twoAnswers (ask x.1) (ask x.2)) = true} : ℚ) /
          Nat.card (Table n d × Table n d) ≤
        4 * ms.length * (G.card / 256 ^ k) + ms.length * (ms.length - 1) / 2 / 256 ^ d := by
  classical
  obtain ⟨L, hL⟩ : ∃ L, L = G.toList.map Subtype.val := ⟨_, rfl⟩
  have hLc : L.length = G.card := by rw [hL, List.length_map, Finset.length_toList]
  have hLm : ∀ K, K ∈ L ↔ ∃ x ∈ G, x.1 = K := fun K => by rw [hL]; simp
  have hLB : ∀ K ∈ L, K.length ≤ B := fun K hK => by
    obtain ⟨x, _, rfl⟩ := (hLm K).mp hK
    exact x.2.trans_le hk
  have hT : (0 : ℚ) < Fintype.card (Table n d) := by
    have : Nonempty (Table n d) := ⟨fun _ => ⟨List.replicate d 0, by simp⟩⟩
    exact_mod_cast Fintype.card_pos
  have hW : (search B d ms L).Within (HmacFits B n) :=
    collect_within _ (fun l h => tryKeys_within hn l h L hLB) ms [] hl (by simp)
  have hH : (search B d ms L).CostLe HmacAsk.hashes (fun _ => 0) (2 * ms.length * G.card) := by
    rw [← hLc]
    exact collect_hashes _ ms.length _ (fun l h => h ▸ tryKeys_hashes B d l L) ms [] (by simp)
  have hM : (search B d ms L).CostLe HmacAsk.macs (fun _ => 0) ms.length := collect_macs _ (fun l => tryKeys_macs B d l L) ms []
  refine ⟨search B d ms L, hW, hH, hM, ?_, ?_, ?_⟩
  · have h : G.card * Fintype.card (Table n d) ≤
        Nat.card {x : Str k × Table n d // (search B d ms L).run (hmacAnswers ⟨B, d, ask x.2⟩ x.1.1) = true} := by
      obtain ⟨P, hP⟩ : ∃ P : Str k × Table n d → Prop, P = fun x => (search B d ms L).run (hmacAnswers ⟨B, d, ask x.2⟩ x.1.1) = true :=
        ⟨_, rfl⟩
      change _ ≤ cnt fun x : Str k × Table n d => (search B d ms L).run (hmacAnswers ⟨B, d, ask x.2⟩ x.1.1) = true
      rw [← hP, cnt_eq, ← Finset.card_univ, ← Finset.card_product]
      refine Finset.card_le_card fun x hx => ?_
      rw [Finset.mem_filter]
      refine ⟨Finset.mem_univ _, ?_⟩
      rw [hP]
      change (search B d ms L).run (hmacAnswers ⟨B, d, ask x.2⟩ x.1.1) = true
      rw [answers_eq hk, search_run (H := ask x.2) (F := fun m => tagOf B (ask x.2) x.1.1 m) (fun _ => rfl) (fun _ => rfl)
        (Chain.length_ask _)]
      exact ⟨x.1.1, (hLm _).mpr ⟨x.1, (Finset.mem_product.mp hx).1, rfl⟩, fun _ _ => rfl⟩
    rw [Nat.card_prod, Nat.card_eq_fintype_card (α := Str k), Nat.card_eq_fintype_card (α := Table n d), Cpoly.card_str]
    push_cast
    rw [div_le_div_iff₀ (by positivity) (by positivity)]
    have h' : (G.card : ℚ) * Fintype.card (Table n d) ≤
        Nat.card {x : Str k × Table n d // (search B d ms L).run (hmacAnswers ⟨B, d, ask x.2⟩ x.1.1) = true} := by exact_mod_cast h
    calc (G.card : ℚ) * (256 ^ k * Fintype.card (Table n d)) = G.card * Fintype.card (Table n d) * 256 ^ k := by ring
      _ ≤ _ := mul_le_mul_of_nonneg_right h' (by positivity)
  · have h : 256 ^ (d * ms.length) * Nat.card {x : Table n d × Table n d // (search B d ms L).run (twoAnswers (ask x.1) (ask x.2)) = true} ≤
        G.card * (Fintype.card (Table n d) * Fintype.card (Table n d)) := by
      have e := cnt_equiv (Equiv.prodComm (Table n d) (Table n d)) fun x : Table n d × Table n d =>
        (search B d ms L).run (twoAnswers (ask x.2) (ask x.1)) = true
      change _ * cnt (fun x : Table n d × Table n d => (search B d ms L).run (twoAnswers (ask x.1) (ask x.2)) = true) ≤ _
      rw [show cnt (fun x : Table n d × Table n d => (search B d ms L).run (twoAnswers (ask x.1) (ask x.2)) = true) = _ from e, cnt_prod,
        Finset.mul_sum]
      refine (Finset.sum_le_card_nsmul _ _ (G.card * Fintype.card (Table n d)) fun H _ => ?_).trans (le_of_eq ?_)
      swap
      · rw [Finset.card_univ, smul_eq_mul]; ring
      calc _ ≤ 256 ^ (d * ms.length) * ∑ K ∈ G, cnt fun f : Table n d => ∀ m ∈ ms, tagOf B (ask H) K.1 m = ask f m := by
            refine Nat.mul_le_mul_left _ (le_trans (cnt_mono fun f hf => ?_) (cnt_exists G _))
            obtain ⟨K, hK, h⟩ := (search_run (fun _ => rfl) (fun _ => rfl) (Chain.length_ask _) ms L).mp hf
            obtain ⟨x, hx, rfl⟩ := (hLm K).mp hK
            exact ⟨x, hx, h⟩
        _ = ∑ _K ∈ G, Fintype.card (Table n d) := by
            rw [Finset.mul_sum]
            refine Finset.sum_congr rfl fun K _ => ?_
            rw [← places (fun m => (⟨tagOf B (ask H) K.1 m, Chain.length_ask _ _⟩ : Str d)) ms hms fun m hm => by have := hl m hm; omega,
              Cpoly.card_str, ← pow_mul]
            refine congrArg _ (cnt_congr fun f => ?_)
            simp only [Agree, List.forall_mem_map]
            exact forall₂_congr fun m _ => eq_comm
        _ = G.card * Fintype.card (Table n d) := by rw [Finset.sum_const, smul_eq_mul]
    rw [Nat.card_prod, Nat.card_eq_fintype_card (α := Table n d)]
    push_cast
    rw [div_le_div_iff₀ (by positivity) (by positivity), mul_comm]
    exact_mod_cast h
  · refine (le_abs_self _).trans ((C170_hmac_random_function B k d n hB hk hn (fun b => b = true) _ hW _ _ hH hM).trans (le_of_eq ?_))
    push_cast
    ring
-- All keys of 16 octets that end in 12 zeros, one tag of SHA-1's size.
example := C198_search 64 16 20 200 (by decide) (by decide) (by decide)
  ((Finset.univ : Finset (Str 4)).image fun s => ⟨s.1 ++ List.replicate 12 0, by simp [s.2]⟩) [[1, 2, 3]] (by simp) (by simp)

end Cryptopy
