import Verif.Lemmas.NonceGame
import Verif.Props.ChaCha
import Mathlib.Data.Fintype.CardEmbedding

/-!
C175: messages encrypted by `ChaCha` objects that draw their nonces.
-/

namespace Cryptopy
open Model (ChaCha drawAndEncrypt testRandomNonce testNonceLoop)
open Spec (Str xorBytes Asker drawChance freshChance)
open Cpoly (Table look nonceBits blocks scramble answer draw_eq drawn Told)
open Prf (cnt)

/-- C175: with the block function of the model this is encryption by a new object; the nonce returned is the string drawn; and an
object with this nonce decrypts the ciphertext. -/
theorem C175_model (key rand pt : Bytes) (hk : key.length = 32) (hr : rand.length = 12) :
    ∃ o o' : ChaCha, ChaCha.new rand key = .ok o ∧ o.nonce = rand ∧
      drawAndEncrypt ChaCha.block key rand pt = .ok (rand, (o.encrypt pt).2) ∧
      (∀ rand', ChaCha.new rand' key 0 (some rand) = .ok o') ∧ (o'.decrypt (o.encrypt pt).2).2 = pt := by
  have h : ∀ (pt : Bytes) (k j : ℕ) (c : ChaCha) (out : Bytes),
      ChaCha.encryptLoopWith ChaCha.block pt j k c out = ChaCha.encryptLoop pt j k c out := by
    intro pt k
    induction k with
    | zero => exact fun _ _ _ => rfl
    | succ k ih =>
      intro j c out
      rw [ChaCha.encryptLoopWith, ChaCha.encryptLoop]
      exact ih _ _ _
  have hnew : ChaCha.new rand key = .ok (initNat key 0 rand) := initialize_eq key rand 0 hk hr
  refine ⟨_, initNat key 0 rand, hnew, Cpoly.nonce_init key rand 0 hk hr, ?_, fun rand' => Cpoly.new_eq rand' key rand 0 hk hr, ?_⟩
  · rw [drawAndEncrypt, hnew]
    simp only [Cpoly.nonce_init key rand 0 hk hr, ChaCha.encryptWith, ChaCha.encrypt, h]
  · exact (C20_self_inverse rand key pt none 0 _ hnew).2

example := C175_model (List.replicate 32 1) (List.replicate 12 2) [3, 4] (by simp) (by simp)

/-- C175: somebody asks for `q` encryptions, each by a new object with the same key and a nonce of its own drawing.  With a random
function in place of the block function of ChaCha20, the chance of any result differs by at most `q (q - 1) / 2^97` from the
chance when each ciphertext is a fresh random string. -/
theorem C175_random_nonces (key : Bytes) (hk : key.length = 32) (q : ℕ) {R : Type} (accept : R → Prop)
    (D : Asker Bytes (Py (Bytes × Bytes)) R) (hW : D.Within fun m => m.length ≤ 2 ^ 38) (hC : D.CostLe (fun _ => 1) (fun _ => 0) q) :
    |(∑ f : Table, drawChance 12 (fun ν m => drawAndEncrypt (look f) key ν.1 m) accept D) / Nat.card Table -
      freshChance 12 accept D| ≤ q * (q - 1) / 2 ^ 97 := by
  classical
  have hW' : D.Within (fun m => blocks m ≤ 2 ^ 32) := by
    induction D generalizing q with
    | done r => trivial
    | ask m next ih =>
      refine ⟨?_, fun t => ih t _ (hW.2 t) (hC.2 t)⟩
      have h1 : m.length ≤ 2 ^ 38 := hW.1
      change (m.length + 63) / 64 ≤ 2 ^ 32
      omega
  have h := drawn accept D [] q hW' hC
  have hT : cnt (Told []) = Nat.card Table := by
    rw [Nat.card_eq_fintype_card, ← Prf.cnt_true]
    exact Prf.cnt_congr fun f => by simp [Told]
  have hF : Finset.univ.filter (Told []) = Finset.univ := by
    ext f
    simp [Told]
  have hpos : (0 : ℚ) < Nat.card Table := by
    rw [Nat.cast_pos]
    have : Nonempty Table := ⟨fun _ => ⟨List.replicate 64 0, by simp⟩⟩
    exact Nat.card_pos
  have hA : ∀ f : Table, (fun (ν : Str 12) m => drawAndEncrypt (look f) key ν.1 m) = fun ν m => answer f ν m := fun f => by
    funext ν m
    exact draw_eq f key ν m hk
  rw [hT, hF, List.length_nil, Nat.cast_zero, zero_mul, zero_add] at h
  simp only [hA]
  rw [← mul_le_mul_iff_of_pos_right hpos, ← abs_of_pos hpos, ← abs_mul, abs_of_pos hpos, sub_mul,
    div_mul_cancel₀ _ hpos.ne']
  refine h.trans (le_of_eq ?_)
  ring

/-! ### The bound is sharp up to a factor of two -/

/-- 64 zero octets. -/
def zeros64 : Bytes := List.replicate 64 0

/-- Somebody who asks `q` times for the encryption of 64 zero octets; the result tells whether two answers, or an answer and one in
the list, are equal. -/
def repeatAsker : ℕ → List (Py (Bytes × Bytes)) → Asker Bytes (Py (Bytes × Bytes)) Bool
  | 0, seen => .done (!decide seen.Nodup)
  | q + 1, seen => .ask zeros64 fun a => repeatAsker q (a :: seen)

private theorem card12 : (Fintype.card (Str 12) : ℚ) = 2 ^ 96 := by rw [Cpoly.card_str]; norm_num

private theorem repeat_old (g : Str 12 → Bytes → Py (Bytes × Bytes)) (q : ℕ) :
    ∀ seen, ¬ seen.Nodup → drawChance 12 g (· = true) (repeatAsker q seen) = 1 := by
  induction q with
  | zero =>
    intro seen h
    rw [repeatAsker, drawChance, if_pos (by simp [h])]
  | succ q ih =>
    intro seen h
    have hc : (Fintype.card (Str 12) : ℚ) ≠ 0 := by rw [card12]; positivity
    rw [repeatAsker, drawChance, Finset.sum_congr rfl fun ν _ => ih _ (fun h' => h (List.nodup_cons.mp h').2)]
    rw [Finset.sum_const, Finset.card_univ, nsmul_eq_mul, mul_one, div_self hc]

private theorem answer_inj (f : Table) (m : Bytes) (ν μ : Str 12) (h : answer f ν m = answer f μ m) : ν = μ := by
  rw [answer, answer] at h
  exact Subtype.ext (Prod.mk.inj (Except.ok.inj h)).1

/-- The chance of a repetition. -/
private theorem repeat_chance (f : Table) (q : ℕ) :
    ∀ S : List (Str 12), S.Nodup → drawChance 12 (fun ν m => answer f ν m) (· = true)
        (repeatAsker q (S.map fun ν => answer f ν zeros64)) =
      1 - ∏ i ∈ Finset.range q, (1 - ((S.length : ℚ) + i) / 2 ^ 96) := by
  classical
  induction q with
  | zero =>
    intro S hS
    have : (S.map fun ν => answer f ν zeros64).Nodup := hS.map fun ν μ h => answer_inj f _ ν μ h
    rw [repeatAsker, drawChance, decide_eq_true this, if_neg (by simp)]
    simp
  | succ q ih =>
    intro S hS
    set P : ℚ := ∏ i ∈ Finset.range q, (1 - ((S.length : ℚ) + 1 + i) / 2 ^ 96) with hP
    have hone : ∀ ν : Str 12, drawChance 12 (fun ν m => answer f ν m) (· = true)
        (repeatAsker q (answer f ν zeros64 :: S.map fun ν => answer f ν zeros64)) =
        (1 - P) + if ν ∈ S.toFinset then P else 0 := by
      intro ν
      by_cases h : ν ∈ S
      · rw [if_pos (List.mem_toFinset.mpr h)]
        have hold := repeat_old (fun ν m => answer f ν m) q
          (answer f ν zeros64 :: S.map fun ν => answer f ν zeros64)
          fun h' => (List.nodup_cons.mp h').1 (List.mem_map.mpr ⟨ν, h, rfl⟩)
        refine hold.trans ?_
        ring
      · rw [if_neg (fun h' => h (List.mem_toFinset.mp h'))]
        have := ih (ν :: S) (List.nodup_cons.mpr ⟨h, hS⟩)
        rw [List.map_cons, List.length_cons] at this
        rw [this, hP]
        push_cast
        ring
    rw [repeatAsker, drawChance, Finset.sum_congr rfl fun ν _ => hone ν, Finset.sum_add_distrib, Finset.sum_ite_mem,
      Finset.univ_inter, Finset.sum_const, Finset.sum_const, Finset.card_univ, nsmul_eq_mul, nsmul_eq_mul, card12,
      List.toFinset_card_of_nodup hS, Finset.prod_range_succ']
    have e : ∏ i ∈ Finset.range q, (1 - ((S.length : ℚ) + ((i + 1 : ℕ) : ℚ)) / 2 ^ 96) = P := by
      rw [hP]
      refine Finset.prod_congr rfl fun i _ => ?_
      push_cast
      ring
    rw [e]
    field_simp
    push_cast
    ring

private theorem birthday (q : ℕ) (hq : q ≤ 2 ^ 96) :
    0 ≤ ∏ i ∈ Finset.range q, (1 - ((0 : ℚ) + i) / 2 ^ 96) ∧
    (1 + (q : ℚ) * (q - 1) / 2 ^ 97) * ∏ i ∈ Finset.range q, (1 - ((0 : ℚ) + i) / 2 ^ 96) ≤ 1 := by
  induction q with
  | zero => simp
  | succ q ih =>
    obtain ⟨h0, h1⟩ := ih (by omega)
    rw [Finset.prod_range_succ]
    set P := ∏ i ∈ Finset.range q, (1 - ((0 : ℚ) + i) / 2 ^ 96)
    have hx : (q : ℚ) / 2 ^ 96 ≤ 1 := by
      rw [div_le_one (by positivity)]
      have : (q : ℚ) ≤ (2 ^ 96 : ℕ) := by exact_mod_cast (show q ≤ 2 ^ 96 by omega)
      push_cast at this
      exact this
    rw [zero_add]
    have hx0 : (0 : ℚ) ≤ q / 2 ^ 96 := by positivity
    set x : ℚ := q / 2 ^ 96
    have hs : (0 : ℚ) ≤ q * (q - 1) / 2 ^ 97 := by
      cases q with
      | zero => simp
      | succ q => push_cast; rw [add_sub_cancel_right]; positivity
    have e : ((q + 1 : ℕ) : ℚ) * (((q + 1 : ℕ) : ℚ) - 1) / 2 ^ 97 = q * (q - 1) / 2 ^ 97 + x := by
      simp only [x]
      push_cast
      ring
    rw [e]
    set s : ℚ := q * (q - 1) / 2 ^ 97
    refine ⟨mul_nonneg h0 (by linarith), ?_⟩
    have : (1 + (s + x)) * (P * (1 - x)) = (1 + s) * P - (x * s + x * x) * P := by ring
    rw [this]
    have : 0 ≤ (x * s + x * x) * P := by positivity
    linarith

/-- The chance of a repetition among random answers. -/
private theorem repeat_fresh (M : ℚ) (hM0 : 0 < M) (hM : (Fintype.card (Str 12 × Str zeros64.length) : ℚ) = M) (q : ℕ) : ∀ seen : List (Py (Bytes × Bytes)), seen.Nodup →
    freshChance 12 (· = true) (repeatAsker q seen) ≤ ((seen.length : ℚ) * q + q * (q - 1) / 2) / M := by
  classical
  induction q with
  | zero =>
    intro seen h
    rw [repeatAsker, freshChance, if_neg (by simp [h])]
    simp
  | succ q ih =>
    intro seen h
    rw [repeatAsker, freshChance]
    rw [hM, div_le_div_iff_of_pos_right hM0]
    set ε : ℚ := ((seen.length + 1 : ℚ) * q + q * (q - 1) / 2) / M with hε
    have hε0 : 0 ≤ ε := by
      have : (0 : ℚ) ≤ q * (q - 1) := by
        cases q with
        | zero => simp
        | succ q => push_cast; rw [add_sub_cancel_right]; positivity
      positivity
    let T : Finset (Str 12 × Str zeros64.length) :=
      Finset.univ.filter fun t => (Except.ok (t.1.1, t.2.1) : Py (Bytes × Bytes)) ∈ seen
    have hmem : ∀ t, t ∈ T ↔ (Except.ok (t.1.1, t.2.1) : Py (Bytes × Bytes)) ∈ seen := fun t => by simp [T]
    have hone : ∀ t : Str 12 × Str zeros64.length,
        freshChance 12 (· = true) (repeatAsker q (.ok (t.1.1, t.2.1) :: seen)) ≤ ε + if t ∈ T then 1 else 0 := by
      intro t
      by_cases ht : (Except.ok (t.1.1, t.2.1) : Py (Bytes × Bytes)) ∈ seen
      · rw [if_pos ((hmem t).mpr ht)]
        have := (Cpoly.fresh_bounds (· = true) 12 (repeatAsker q (.ok (t.1.1, t.2.1) :: seen))).2
        linarith
      · rw [if_neg (fun h' => ht ((hmem t).mp h')), add_zero]
        have := ih (.ok (t.1.1, t.2.1) :: seen) (List.nodup_cons.mpr ⟨ht, h⟩)
        rw [List.length_cons] at this
        push_cast at this
        exact this
    have hT : (T.card : ℚ) ≤ seen.length := by
      have h1 : T.card ≤ seen.toFinset.card := by
        refine Finset.card_le_card_of_injOn (fun t => (Except.ok (t.1.1, t.2.1) : Py (Bytes × Bytes))) ?_ ?_
        · intro t ht
          exact List.mem_toFinset.mpr (Finset.mem_filter.mp ht).2
        · intro t _ t' _ e
          have := Prod.mk.inj (Except.ok.inj e)
          exact Prod.ext (Subtype.ext this.1) (Subtype.ext this.2)
      exact_mod_cast h1.trans (List.toFinset_card_le _)
    refine (Finset.sum_le_sum fun t _ => hone t).trans ?_
    rw [Finset.sum_add_distrib, Finset.sum_ite_mem, Finset.univ_inter, Finset.sum_const, Finset.sum_const, Finset.card_univ,
      nsmul_eq_mul, nsmul_eq_mul, hM, mul_one]
    have e : M * ε = (seen.length + 1 : ℚ) * q + q * (q - 1) / 2 := by
      rw [hε]
      field_simp
    rw [e]
    push_cast
    linarith

/-- C175: for up to `2^48` encryptions, somebody who encrypts zeros and looks for equal answers reaches half of this bound. -/
theorem C175_sharp (key : Bytes) (hk : key.length = 32) (q : ℕ) (hq : q ≤ 2 ^ 48) :
    (q * (q - 1) / 2 ^ 98 : ℚ) ≤
      (∑ f : Table, drawChance 12 (fun ν m => drawAndEncrypt (look f) key ν.1 m) (· = true) (repeatAsker q [])) / Nat.card Table -
        freshChance 12 (· = true) (repeatAsker q []) := by
  have hpos : (0 : ℚ) < Nat.card Table := by
    rw [Nat.cast_pos]
    have : Nonempty Table := ⟨fun _ => ⟨List.replicate 64 0, by simp⟩⟩
    exact Nat.card_pos
  have hA : ∀ f : Table, (fun (ν : Str 12) m => drawAndEncrypt (look f) key ν.1 m) = fun ν m => answer f ν m := fun f => by
    funext ν m
    exact draw_eq f key ν m hk
  have hone : ∀ f : Table, drawChance 12 (fun ν m => drawAndEncrypt (look f) key ν.1 m) (· = true) (repeatAsker q []) =
      1 - ∏ i ∈ Finset.range q, (1 - ((0 : ℚ) + i) / 2 ^ 96) := by
    intro f
    have := repeat_chance f q [] List.nodup_nil
    rw [List.length_nil, Nat.cast_zero] at this
    rw [hA]
    exact this
  rw [Finset.sum_congr rfl fun f _ => hone f, Finset.sum_const, Finset.card_univ, nsmul_eq_mul, ← Nat.card_eq_fintype_card,
    mul_div_cancel_left₀ _ hpos.ne']
  obtain ⟨h0, h1⟩ := birthday q (le_trans hq (by norm_num))
  have hM : (2 : ℚ) ^ 100 ≤ (Fintype.card (Str 12 × Str zeros64.length) : ℚ) := by
    rw [Fintype.card_prod, Cpoly.card_str, Cpoly.card_str, show zeros64.length = 64 by decide]
    norm_num
  have h2 := repeat_fresh _ (lt_of_lt_of_le (by positivity) hM) rfl q [] List.nodup_nil
  rw [List.length_nil, Nat.cast_zero, zero_mul, zero_add] at h2
  set P := ∏ i ∈ Finset.range q, (1 - ((0 : ℚ) + i) / 2 ^ 96)
  have hq' : (q : ℚ) ≤ 2 ^ 48 := by
    have : (q : ℚ) ≤ (2 ^ 48 : ℕ) := by exact_mod_cast hq
    push_cast at this
    exact this
  have hs0 : (0 : ℚ) ≤ q * (q - 1) := by
    cases q with
    | zero => simp
    | succ q => push_cast; rw [add_sub_cancel_right]; positivity
  have hs1 : (q : ℚ) * (q - 1) ≤ 2 ^ 96 := by
    have : (0 : ℚ) ≤ q := by positivity
    nlinarith
  set s : ℚ := q * (q - 1) with hs
  have hsmall : s / 2 ^ 97 ≤ 1 / 2 := by
    rw [div_le_iff₀ (by positivity)]
    linarith
  have hs97 : 0 ≤ s / 2 ^ 97 := by positivity
  have hP : P ≤ 1 - 2 / 3 * (s / 2 ^ 97) := by
    have h3 : (1 + s / 2 ^ 97) * (1 - 2 / 3 * (s / 2 ^ 97)) ≥ 1 := by nlinarith
    by_contra hc
    rw [not_le] at hc
    have h4 := mul_lt_mul_of_pos_left hc (show (0 : ℚ) < 1 + s / 2 ^ 97 by linarith)
    linarith
  have hf : s / 2 / (Fintype.card (Str 12 × Str zeros64.length) : ℚ) ≤ s / 2 ^ 97 / 8 := by
    rw [div_div, div_div]
    exact div_le_div_of_nonneg_left hs0 (by positivity) (by linarith)
  have e : s / 2 ^ 98 = s / 2 ^ 97 / 2 := by ring
  rw [e]
  linarith

private theorem repeat_within (q : ℕ) : ∀ seen, (repeatAsker q seen).Within (fun m => m.length ≤ 2 ^ 38) ∧
    (repeatAsker q seen).CostLe (fun _ => 1) (fun _ => 0) q := by
  induction q with
  | zero => exact fun _ => ⟨trivial, Nat.le_refl 0⟩
  | succ q ih =>
    intro seen
    refine ⟨⟨?_, fun a => (ih _).1⟩, ⟨Nat.le_add_left 1 q, fun a => (ih _).2⟩⟩
    change zeros64.length ≤ 2 ^ 38
    rw [zeros64, List.length_replicate]
    norm_num

example (q : ℕ) := C175_random_nonces (List.replicate 32 1) (by simp) q (· = true) (repeatAsker q []) (repeat_within q []).1
  (repeat_within q []).2

example := C175_sharp (List.replicate 32 1) (by simp) 100000 (by norm_num)

/-! ### The test of the repository -/

private theorem loop_ok (key : Bytes) (hk : key.length = 32) (draws : List Bytes) :
    ∀ seen, seen.Nodup → (∀ d ∈ draws, d.length = 12) →
      testNonceLoop key seen draws = if (draws.reverse ++ seen).Nodup then .ok () else .error .value := by
  induction draws with
  | nil =>
    intro seen hs _
    simp [testNonceLoop, hs]
  | cons d draws ih =>
    intro seen hs hd
    have hd12 := hd d (List.mem_cons_self)
    have hnew : ChaCha.new d key = .ok (initNat key 0 d) := initialize_eq key d 0 hk hd12
    rw [testNonceLoop, hnew]
    dsimp only
    rw [Cpoly.nonce_init key d 0 hk hd12]
    have e : (d :: draws).reverse ++ seen = draws.reverse ++ d :: seen := by simp
    rw [e]
    by_cases h : d ∈ seen
    · rw [if_pos h, if_neg]
      intro hn
      exact (List.nodup_cons.mp hn.of_append_right).1 h
    · rw [if_neg h]
      exact ih _ (List.nodup_cons.mpr ⟨h, hs⟩) fun x hx => hd x (List.mem_cons_of_mem _ hx)

/-- C175: `test_random_nonce` fails, with `ValueError`, exactly if `urandom` returns the same string twice. -/
theorem C175_test (draws : List Bytes) (hd : ∀ d ∈ draws, d.length = 12) :
    (draws.Nodup → testRandomNonce draws = .ok ()) ∧ (¬ draws.Nodup → testRandomNonce draws = .error .value) := by
  have h := loop_ok [0x00, 0x01, 0x00, 0x00, 0x00, 0x00, 0x00, 0x00, 0x00, 0xff, 0x00, 0x00, 0x00, 0x00, 0x00, 0x01,
      0x01, 0x00, 0x00, 0x00, 0x00, 0x00, 0x00, 0x00, 0x00, 0x00, 0x00, 0x00, 0x01, 0x00, 0x00, 0x00] rfl draws [] List.nodup_nil hd
  rw [testRandomNonce, h]
  simp only [List.append_nil, List.nodup_reverse]
  exact ⟨fun h => if_pos h, fun h => if_neg h⟩

example : testRandomNonce [List.replicate 12 1, List.replicate 12 2, List.replicate 12 1] = .error .value :=
  (C175_test _ (by simp)).2 (by decide)

private theorem pair_count {A : Type} [Fintype A] [DecidableEq A] {n : ℕ} (i j : Fin n) (hij : i ≠ j) :
    (Finset.univ.filter fun t : Fin n → A => t i = t j).card * Fintype.card A ≤ Fintype.card (Fin n → A) := by
  rw [← Fintype.card_subtype, ← Fintype.card_prod]
  refine Fintype.card_le_of_injective (fun p => Function.update p.1.1 j p.2) ?_
  rintro ⟨⟨t, ht⟩, a⟩ ⟨⟨u, hu⟩, b⟩ h
  have h : Function.update t j a = Function.update u j b := h
  have hk : ∀ k, k ≠ j → t k = u k := fun k hk => by
    have := congrFun h k
    rwa [Function.update_of_ne hk, Function.update_of_ne hk] at this
  have hab : a = b := by
    have := congrFun h j
    rwa [Function.update_self, Function.update_self] at this
  have htu : t = u := by
    funext k
    by_cases e : k = j
    · rw [e, ← ht, ← hu]
      exact hk i hij
    · exact hk k e
  subst hab
  subst htu
  rfl

private theorem repeat_count {A : Type} [Fintype A] [DecidableEq A] (n : ℕ) :
    (Finset.univ.filter fun t : Fin n → A => ∃ j i : Fin n, i < j ∧ t i = t j).card * Fintype.card A * 2 ≤
      n * (n - 1) * Fintype.card (Fin n → A) := by
  have hsub : (Finset.univ.filter fun t : Fin n → A => ∃ j i : Fin n, i < j ∧ t i = t j) ⊆
      Finset.univ.biUnion fun j : Fin n => (Finset.Iio j).biUnion fun i =>
        Finset.univ.filter fun t : Fin n → A => t i = t j := by
    intro t ht
    obtain ⟨j, i, hij, e⟩ := (Finset.mem_filter.mp ht).2
    exact Finset.mem_biUnion.mpr ⟨j, Finset.mem_univ _, Finset.mem_biUnion.mpr
      ⟨i, Finset.mem_Iio.mpr hij, Finset.mem_filter.mpr ⟨Finset.mem_univ _, e⟩⟩⟩
  have h1 : (Finset.univ.filter fun t : Fin n → A => ∃ j i : Fin n, i < j ∧ t i = t j).card * Fintype.card A ≤
      ∑ j : Fin n, (j : ℕ) * Fintype.card (Fin n → A) := by
    refine (Nat.mul_le_mul_right _ ((Finset.card_le_card hsub).trans Finset.card_biUnion_le)).trans ?_
    rw [Finset.sum_mul]
    refine Finset.sum_le_sum fun j _ => ?_
    refine (Nat.mul_le_mul_right _ Finset.card_biUnion_le).trans ?_
    rw [Finset.sum_mul]
    refine (Finset.sum_le_sum fun i hi => pair_count i j (Finset.mem_Iio.mp hi).ne).trans ?_
    rw [Finset.sum_const, Fin.card_Iio, smul_eq_mul]
  rw [← Finset.sum_mul, Fin.sum_univ_eq_sum_range (fun k => k) n] at h1
  calc _ ≤ (∑ k ∈ Finset.range n, k) * Fintype.card (Fin n → A) * 2 := Nat.mul_le_mul_right _ h1
    _ = (∑ k ∈ Finset.range n, k) * 2 * Fintype.card (Fin n → A) := by ring
    _ = _ := by rw [Finset.sum_range_id_mul_two]

private theorem fails_iff (n : ℕ) (t : Fin n → Str 12) : testRandomNonce (List.ofFn fun i => (t i).1) ≠ .ok () ↔
    ∃ j i : Fin n, i < j ∧ t i = t j := by
  have hl : ∀ d ∈ List.ofFn fun i => (t i).1, d.length = 12 := by
    intro d hd
    obtain ⟨i, rfl⟩ := List.mem_ofFn.mp hd
    exact (t i).2
  obtain ⟨h1, h2⟩ := C175_test _ hl
  have hn : (List.ofFn fun i => (t i).1).Nodup ↔ ∀ i j, t i = t j → i = j := by
    rw [List.nodup_ofFn]
    exact ⟨fun h i j e => h (congrArg Subtype.val e), fun h i j e => h i j (Subtype.ext e)⟩
  constructor
  · intro h
    by_contra hc
    refine h (h1 (hn.mpr fun i j e => ?_))
    by_contra hij
    rcases lt_or_gt_of_ne hij with hlt | hlt
    · exact hc ⟨j, i, hlt, e⟩
    · exact hc ⟨i, j, hlt, e.symm⟩
  · rintro ⟨j, i, hij, e⟩ h
    have : ¬ (List.ofFn fun i => (t i).1).Nodup := fun h' => hij.ne (hn.mp h' i j e)
    rw [h2 this] at h
    cases h

/-- C175: with `n` calls of `urandom` at most a share of `n (n - 1) / 2^97` of their possible results lets the test
fail. -/
theorem C175_test_fails (n : ℕ) :
    2 ^ 97 * Nat.card {t : Fin n → Str 12 // testRandomNonce (List.ofFn fun i => (t i).1) ≠ .ok ()} ≤
      n * (n - 1) * Nat.card (Fin n → Str 12) := by
  classical
  have h := repeat_count (A := Str 12) n
  have hc : Fintype.card (Str 12) = 2 ^ 96 := by rw [Cpoly.card_str]; norm_num
  have e : Nat.card {t : Fin n → Str 12 // testRandomNonce (List.ofFn fun i => (t i).1) ≠ .ok ()} =
      (Finset.univ.filter fun t : Fin n → Str 12 => ∃ j i : Fin n, i < j ∧ t i = t j).card := by
    rw [Nat.card_congr (Equiv.subtypeEquivRight (fails_iff n)), Nat.card_eq_fintype_card, Fintype.card_subtype]
  rw [e, Nat.card_eq_fintype_card]
  rw [hc] at h
  linarith

/-- C175: the 100000 calls of the test let it fail for fewer than one in `10^19` of their possible results. -/
theorem C175_test_rarely_fails :
    10 ^ 19 * Nat.card {t : Fin 100000 → Str 12 // testRandomNonce (List.ofFn fun i => (t i).1) ≠ .ok ()} <
      Nat.card (Fin 100000 → Str 12) := by
  have h := C175_test_fails 100000
  have h0 : 0 < Nat.card (Fin 100000 → Str 12) := by
    have : Nonempty (Str 12) := ⟨⟨List.replicate 12 0, rfl⟩⟩
    exact Nat.card_pos
  generalize Nat.card (Fin 100000 → Str 12) = N at h h0 ⊢
  generalize Nat.card {t : Fin 100000 → Str 12 // testRandomNonce (List.ofFn fun i => (t i).1) ≠ .ok ()} = B at h ⊢
  omega

end Cryptopy
