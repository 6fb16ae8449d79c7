import Verif.Model.RandomNonce
import Verif.Spec.NonceChance
import Verif.Lemmas.AeadForge
import Mathlib.Tactic.Linarith
import Mathlib.Tactic.FieldSimp
import Mathlib.Algebra.Order.BigOperators.Group.Finset
import Mathlib.Algebra.Order.BigOperators.Ring.Finset
import Mathlib.Algebra.BigOperators.Field

/-!
Encryption under random nonces, over all functions in place of the block function of ChaCha20.
-/

namespace Cryptopy.Cpoly
open Model (ChaCha drawAndEncrypt)
open Spec (Str xorBytes leValue Asker drawChance freshChance)
open Prf (cnt cnt_split cnt_mono cnt_congr cnt_exists cnt_true cnt_eq)

/-- `n` blocks of key stream, from counter 0. -/
def stream (f : Table) (ν : BitVec 96) (n : ℕ) : Bytes :=
  (List.range n).flatMap fun j => (f (BitVec.ofNat 32 j, ν)).1

theorem length_stream (f : Table) (ν : BitVec 96) (n : ℕ) : (stream f ν n).length = 64 * n := by
  rw [stream, length_flatMap_const _ _ 64 fun j => (f _).2, List.length_range]

/-- The ciphertext. -/
def scramble (f : Table) (ν : BitVec 96) (pt : Bytes) : Bytes := xorBytes pt (stream f ν (blocks pt))

theorem length_scramble (f : Table) (ν : BitVec 96) (pt : Bytes) : (scramble f ν pt).length = pt.length := by
  rw [scramble, length_xorBytes, length_stream, blocks]
  omega

theorem pack_four (a b c d : UInt8) :
    Model.packLE32 (a.toNat + 256 * b.toNat + 65536 * c.toNat + 16777216 * d.toNat) = [a, b, c, d] := by
  have ha := a.toNat_lt
  have hb := b.toNat_lt
  have hc := c.toNat_lt
  have hd := d.toNat_lt
  have h : ∀ (x : UInt8) (n : ℕ), n = x.toNat → UInt8.ofNat n = x := fun x n h => by rw [h]; simp
  rw [Model.packLE32, h a _ (by omega), h b _ (by omega), h c _ (by omega), h d _ (by omega)]

theorem nonce_init (key nonce : Bytes) (c : ℕ) (hk : key.length = 32) (hn : nonce.length = 12) :
    (initNat key c nonce).nonce = nonce := by
  have h8 := length_unpackLE32 key 8 (by omega)
  match nonce, hn with
  | [a0, a1, a2, a3, b0, b1, b2, b3, c0, c1, c2, c3], _ =>
    have e : (initNat key c [a0, a1, a2, a3, b0, b1, b2, b3, c0, c1, c2, c3]).state =
        ([0x61707865, 0x3320646e, 0x79622d32, 0x6b206574] ++ Model.unpackLE32 key) ++
          (c :: Model.unpackLE32 [a0, a1, a2, a3, b0, b1, b2, b3, c0, c1, c2, c3]) := by
      simp only [initNat, List.append_assoc, List.cons_append, List.nil_append]
    have hl : ([0x61707865, 0x3320646e, 0x79622d32, 0x6b206574] ++ Model.unpackLE32 key).length = 12 := by
      simp [h8]
    have g : ∀ (l r : List ℕ) (i : ℕ), l.length = 12 → (l ++ r).getD (12 + i) 0 = r.getD i 0 := by
      intro l r i h
      rw [List.getD_eq_getElem?_getD, List.getElem?_append_right (by omega), h,
        Nat.add_sub_cancel_left, ← List.getD_eq_getElem?_getD]
    rw [ChaCha.nonce, e, g _ _ 1 hl, g _ _ 2 hl, g _ _ 3 hl]
    simp only [Model.unpackLE32, List.getD_cons_zero, List.getD_cons_succ]
    rw [pack_four, pack_four, pack_four]
    rfl

theorem draw_eq (f : Table) (key : Bytes) (ν : Str 12) (pt : Bytes) (hk : key.length = 32) :
    drawAndEncrypt (look f) key ν.1 pt = .ok (ν.1, scramble f (nonceBits ν.1) pt) := by
  have hb : (if pt.length % 64 > 0 then pt.length / 64 + 1 else pt.length / 64) =
      (pt.length + 63) / 64 := by split <;> omega
  have hnew : ChaCha.new ν.1 key = .ok (initNat key 0 ν.1) := initialize_eq key ν.1 0 hk ν.2
  rw [drawAndEncrypt, hnew]
  simp only [nonce_init key ν.1 0 hk ν.2, ChaCha.encryptWith, hb, loop_eq f _ _ _ hk ν.2]
  simp only [Nat.zero_mul, List.drop_zero, List.nil_append, Nat.zero_add]
  rfl

/-! ### All ciphertexts are equally frequent -/

/-- The table with the blocks of a nonce changed so that another ciphertext comes out. -/
def shift (ν : BitVec 96) (ct ct' : Bytes) (f : Table) : Table := fun x =>
  if x.2 = ν then xorBlock (f x) (chunk (xorBytes ct ct') x.1.toNat) else f x

theorem shift_scramble (ν : BitVec 96) (pt : Bytes) (ct ct' : Str pt.length) (hpt : blocks pt ≤ 2 ^ 32) (f : Table)
    (h : scramble f ν pt = ct.1) : scramble (shift ν ct.1 ct'.1 f) ν pt = ct'.1 := by
  have e : stream (shift ν ct.1 ct'.1 f) ν (blocks pt) =
      xorBytes (stream f ν (blocks pt)) ((List.range (blocks pt)).flatMap fun j => (chunk (xorBytes ct.1 ct'.1) j).1) := by
    rw [stream, stream, ← flat_xor]
    refine List.flatMap_congr fun j hj => ?_
    have hj := List.mem_range.mp hj
    rw [shift, if_pos rfl]
    have : (BitVec.ofNat 32 j).toNat = j := by rw [BitVec.toNat_ofNat, Nat.mod_eq_of_lt (by omega)]
    rw [this]
    rfl
  obtain ⟨z, hz⟩ := chunks_eq (xorBytes ct.1 ct'.1) (blocks pt) (by
    rw [length_xorBytes, ct.2, ct'.2, blocks]; omega)
  rw [scramble, e, hz, ← Prf.xorBytes_assoc]
  change xorBytes (scramble f ν pt) _ = _
  rw [h]
  have h4 : ∀ a b c : Bytes, a.length = b.length → xorBytes a (b ++ c) = xorBytes a b := fun a b c h => by
    have := Prf.xorBytes_append (b := []) (d := c) h
    simpa [xorBytes] using this
  rw [h4 _ _ _ (by rw [length_xorBytes, ct.2, ct'.2]; omega), ← Prf.xorBytes_assoc]
  have h3 : ∀ a b : Bytes, a.length = b.length → xorBytes (xorBytes a a) b = b := by
    intro a b hab
    induction a generalizing b with
    | nil =>
      rw [List.length_eq_zero_iff.mp hab.symm]
      rfl
    | cons x a ih =>
      cases b with
      | nil => simp at hab
      | cons z b =>
        have := ih b (by simpa using hab)
        simp only [xorBytes, List.zipWith_cons_cons] at this ⊢
        rw [this]
        simp
  exact h3 _ _ (by rw [ct.2, ct'.2])

theorem shift_inj (ν : BitVec 96) (ct ct' : Bytes) (f g : Table) (h : shift ν ct ct' f = shift ν ct ct' g) : f = g := by
  funext x
  have hx := congrFun h x
  rw [shift, shift] at hx
  by_cases hν : x.2 = ν
  · rw [if_pos hν, if_pos hν] at hx
    exact xorBlock_inj _ _ _ hx
  · rwa [if_neg hν, if_neg hν] at hx

theorem scramble_le (ν : BitVec 96) (A : Table → Prop) (hA : Off ν A) (pt : Bytes) (hpt : blocks pt ≤ 2 ^ 32)
    (t t' : Str pt.length) :
    cnt (fun f => A f ∧ scramble f ν pt = t.1) ≤ cnt (fun f => A f ∧ scramble f ν pt = t'.1) := by
  rw [cnt, cnt]
  refine Nat.card_le_card_of_injective (fun f => ⟨shift ν t.1 t'.1 f.1, ?_, ?_⟩) ?_
  · refine hA f.1 _ (fun x hx => ?_) f.2.1
    rw [shift, if_neg hx]
  · exact shift_scramble ν pt t t' hpt f.1 f.2.2
  · rintro ⟨f, hf⟩ ⟨g, hg⟩ h
    exact Subtype.ext (shift_inj ν _ _ f g (Subtype.mk.inj h))

theorem cnt_scramble (ν : BitVec 96) (P : Table → Prop) (pt : Bytes) :
    cnt P = ∑ t : Str pt.length, cnt fun f => P f ∧ scramble f ν pt = t.1 := by
  rw [cnt_split P fun f => (⟨scramble f ν pt, length_scramble f ν pt⟩ : Str pt.length)]
  refine Finset.sum_congr rfl fun t _ => cnt_congr fun f => and_congr_right fun _ => ?_
  exact ⟨fun e => congrArg Subtype.val e, fun e => Subtype.ext e⟩

theorem scramble_card (ν : BitVec 96) (A : Table → Prop) (hA : Off ν A) (pt : Bytes) (hpt : blocks pt ≤ 2 ^ 32)
    (t : Str pt.length) : Fintype.card (Str pt.length) * cnt (fun f => A f ∧ scramble f ν pt = t.1) = cnt A := by
  rw [cnt_scramble ν A pt, Finset.sum_congr rfl fun t' _ => le_antisymm (scramble_le ν A hA pt hpt t' t)
    (scramble_le ν A hA pt hpt t t'), Finset.sum_const, Finset.card_univ, smul_eq_mul]

/-! ### The game -/

/-- Nonces, messages and ciphertexts. -/
abbrev Seen : Type := List (Str 12 × Bytes × Bytes)

/-- What they say about the table. -/
def Told (L : Seen) (f : Table) : Prop := ∀ e ∈ L, scramble f (nonceBits e.1.1) e.2.1 = e.2.2

theorem told_off (L : Seen) (ν : Str 12) (h : ν ∉ L.map Prod.fst) : Off (nonceBits ν.1) (Told L) := by
  intro f g e hf x hx
  rw [← hf x hx, scramble, scramble, stream, stream]
  congr 1
  refine List.flatMap_congr fun j _ => ?_
  rw [e]
  intro h'
  refine h (List.mem_map.mpr ⟨x, hx, Subtype.ext ?_⟩)
  exact nonceBits_inj _ _ x.1.2 ν.2 h'

variable {R : Type} (accept : R → Prop)

theorem draw_bounds {M T : Type} (n : ℕ) (g : Str n → M → T) (D : Asker M T R) :
    0 ≤ drawChance n g accept D ∧ drawChance n g accept D ≤ 1 := by
  induction D with
  | done r =>
    rw [drawChance]
    split <;> norm_num
  | ask m next ih =>
    have hc : (0 : ℚ) < Fintype.card (Str n) := by rw [card_str]; positivity
    rw [drawChance, div_le_one hc]
    refine ⟨div_nonneg (Finset.sum_nonneg fun ν _ => (ih _).1) hc.le, ?_⟩
    refine (Finset.sum_le_sum fun ν _ => (ih _).2).trans ?_
    simp

theorem fresh_bounds (n : ℕ) (D : Asker Bytes (Py (Bytes × Bytes)) R) :
    0 ≤ freshChance n accept D ∧ freshChance n accept D ≤ 1 := by
  induction D with
  | done r =>
    rw [freshChance]
    split <;> norm_num
  | ask m next ih =>
    have hc : (0 : ℚ) < Fintype.card (Str n × Str m.length) := by rw [Fintype.card_prod, card_str, card_str]; positivity
    rw [freshChance, div_le_one hc]
    refine ⟨div_nonneg (Finset.sum_nonneg fun ν _ => (ih _).1) hc.le, ?_⟩
    refine (Finset.sum_le_sum fun ν _ => (ih _).2).trans ?_
    simp

/-- The answers with a table. -/
def answer (f : Table) (ν : Str 12) (m : Bytes) : Py (Bytes × Bytes) := .ok (ν.1, scramble f (nonceBits ν.1) m)

open Classical in
theorem drawn (D : Asker Bytes (Py (Bytes × Bytes)) R) :
    ∀ (L : Seen) (q : ℕ), D.Within (fun m => blocks m ≤ 2 ^ 32) → D.CostLe (fun _ => 1) (fun _ => 0) q →
      |(∑ f ∈ Finset.univ.filter (Told L), drawChance 12 (fun ν m => answer f ν m) accept D) -
          freshChance 12 accept D * cnt (Told L)| ≤
        (L.length * q + q * (q - 1) / 2) / 2 ^ 96 * cnt (Told L) := by
  induction D with
  | done r =>
    intro L q _ _
    have hq : (0 : ℚ) ≤ q * (q - 1) := by
      cases q with
      | zero => norm_num
      | succ q => push_cast; rw [add_sub_cancel_right]; positivity
    simp only [drawChance, freshChance, Finset.sum_const, nsmul_eq_mul]
    rw [cnt_eq, mul_comm, sub_self, abs_zero]
    positivity
  | ask m next ih =>
    intro L q hW hC
    obtain ⟨hm, hW⟩ := hW
    obtain ⟨hq, hC⟩ := hC
    have hq : 1 ≤ q := hq
    have hC : ∀ t, (next t).CostLe (fun _ => 1) (fun _ => 0) (q - 1) := hC
    obtain ⟨q, rfl⟩ := Nat.exists_eq_succ_of_ne_zero (show q ≠ 0 by omega)
    rw [Nat.succ_sub_one] at hC
    set K : ℚ := ((cnt (Told L) : ℕ) : ℚ) with hKdef
    have hK : 0 ≤ K := by positivity
    have hN : (Fintype.card (Str 12) : ℚ) = 2 ^ 96 := by rw [card_str]; norm_num
    set C : ℚ := ((Fintype.card (Str m.length) : ℕ) : ℚ) with hCdef
    have hCpos : 0 < C := by rw [hCdef, card_str]; positivity
    simp only [drawChance]
    rw [← Finset.sum_div, Finset.sum_comm, freshChance, Fintype.card_prod, Nat.cast_mul, hN, ← hCdef, Fintype.sum_prod_type]
    -- for one nonce
    set W : Str 12 → ℚ := fun ν => ∑ f ∈ Finset.univ.filter (Told L), drawChance 12
      (fun ν m => answer f ν m) accept (next (answer f ν m)) with hWdef
    set I : Str 12 → ℚ := fun ν => ∑ t : Str m.length, freshChance 12 accept (next (.ok (ν.1, t.1))) with hIdef
    have e0 : (∑ ν, W ν) / 2 ^ 96 - (∑ ν, I ν) / (2 ^ 96 * C) * K = (∑ ν, (W ν - I ν / C * K)) / 2 ^ 96 := by
      rw [Finset.sum_sub_distrib, ← Finset.sum_mul, ← Finset.sum_div]
      field_simp
    have hI : ∀ ν, 0 ≤ I ν / C ∧ I ν / C ≤ 1 := by
      intro ν
      refine ⟨div_nonneg (Finset.sum_nonneg fun t _ => (fresh_bounds accept 12 _).1) hCpos.le, ?_⟩
      rw [div_le_one hCpos]
      refine (Finset.sum_le_sum fun t _ => (fresh_bounds accept 12 _).2).trans ?_
      simp [hCdef]
    have hWb : ∀ ν, 0 ≤ W ν ∧ W ν ≤ K := by
      intro ν
      refine ⟨Finset.sum_nonneg fun f _ => (draw_bounds accept 12 _ _).1, ?_⟩
      refine (Finset.sum_le_sum fun f _ => (draw_bounds accept 12 _ _).2).trans ?_
      rw [Finset.sum_const, nsmul_eq_mul, mul_one, hKdef, cnt_eq]
    set ε : ℚ := ((L.length + 1) * q + q * (q - 1) / 2) / 2 ^ 96 with hε
    have hold : ∀ ν ∈ L.map Prod.fst, |W ν - I ν / C * K| ≤ K := by
      intro ν _
      have h1 := hWb ν
      have h2 := hI ν
      have h3 : 0 ≤ I ν / C * K := mul_nonneg h2.1 hK
      have h4 : I ν / C * K ≤ K := mul_le_of_le_one_left hK h2.2
      rw [abs_le]
      constructor <;> linarith
    have hnew : ∀ ν ∉ L.map Prod.fst, |W ν - I ν / C * K| ≤ ε * K := by
      intro ν hν
      have ho := told_off L ν hν
      have hcons : ∀ (t : Str m.length) f, Told ((ν, m, t.1) :: L) f ↔ Told L f ∧ scramble f (nonceBits ν.1) m = t.1 := by
        intro t f
        rw [Told, List.forall_mem_cons]
        exact and_comm
      have e1 : ∀ t : Str m.length, C * cnt (Told ((ν, m, t.1) :: L)) = K := by
        intro t
        rw [hKdef, ← scramble_card (nonceBits ν.1) (Told L) ho m hm t, Nat.cast_mul, ← hCdef]
        congr 2
        exact cnt_congr (hcons t)
      have e2 : W ν = ∑ t : Str m.length, ∑ f ∈ Finset.univ.filter (Told ((ν, m, t.1) :: L)), drawChance 12
          (fun ν m => answer f ν m) accept (next (.ok (ν.1, t.1))) := by
        rw [hWdef]
        dsimp only
        rw [← Finset.sum_fiberwise (Finset.univ.filter (Told L))
          (fun f => (⟨scramble f (nonceBits ν.1) m, length_scramble f _ m⟩ : Str m.length))]
        refine Finset.sum_congr rfl fun t _ => ?_
        rw [Finset.filter_filter]
        refine Finset.sum_congr ?_ fun f hf => ?_
        · ext f
          simp only [Finset.mem_filter, Finset.mem_univ, true_and]
          rw [hcons]
          exact and_congr_right fun _ => ⟨fun e => congrArg Subtype.val e, fun e => Subtype.ext e⟩
        · have := ((hcons t f).mp (Finset.mem_filter.mp hf).2).2
          rw [answer, this]
      have e3 : I ν / C * K = ∑ t : Str m.length, freshChance 12 accept (next (.ok (ν.1, t.1))) *
          cnt (Told ((ν, m, t.1) :: L)) := by
        rw [hIdef, div_mul_eq_mul_div, Finset.sum_mul, Finset.sum_div]
        refine Finset.sum_congr rfl fun t _ => ?_
        rw [← e1 t]
        field_simp
      have e4 : K = ∑ t : Str m.length, (cnt (Told ((ν, m, t.1) :: L)) : ℚ) := by
        rw [hKdef, cnt_scramble (nonceBits ν.1) _ m, Nat.cast_sum]
        exact Finset.sum_congr rfl fun t _ => congrArg _ (cnt_congr fun f => (hcons t f).symm)
      rw [e2, e3, ← Finset.sum_sub_distrib]
      refine (Finset.abs_sum_le_sum_abs _ _).trans ?_
      rw [e4, Finset.mul_sum]
      refine Finset.sum_le_sum fun t _ => ?_
      have := ih (.ok (ν.1, t.1)) ((ν, m, t.1) :: L) q (hW _) (hC _)
      rw [List.length_cons] at this
      push_cast at this
      exact this
    rw [e0, abs_div, abs_of_pos (show (0 : ℚ) < 2 ^ 96 by positivity), div_le_iff₀ (by positivity)]
    refine (Finset.abs_sum_le_sum_abs _ _).trans ?_
    have hqq : (0 : ℚ) ≤ q * (q - 1) := by
      cases q with
      | zero => norm_num
      | succ q => push_cast; rw [add_sub_cancel_right]; positivity
    have hε0 : 0 ≤ ε := by positivity
    have hone : ∀ ν, |W ν - I ν / C * K| ≤ (if ν ∈ (L.map Prod.fst).toFinset then K else 0) + ε * K := by
      intro ν
      by_cases h : ν ∈ L.map Prod.fst
      · rw [if_pos (List.mem_toFinset.mpr h)]
        have := hold ν h
        have := mul_nonneg hε0 hK
        linarith
      · rw [if_neg (fun h' => h (List.mem_toFinset.mp h')), zero_add]
        exact hnew ν h
    refine (Finset.sum_le_sum fun ν _ => hone ν).trans ?_
    rw [Finset.sum_add_distrib, Finset.sum_ite_mem, Finset.univ_inter, Finset.sum_const, Finset.sum_const, Finset.card_univ,
      nsmul_eq_mul, nsmul_eq_mul, hN]
    have hcard : (((L.map Prod.fst).toFinset.card : ℕ) : ℚ) ≤ L.length := by
      have := List.toFinset_card_le (L.map Prod.fst)
      rw [List.length_map] at this
      exact_mod_cast this
    have h5 := mul_le_mul_of_nonneg_right hcard hK
    have h6 : ((L.length : ℚ) * ((q.succ : ℕ) : ℚ) + ((q.succ : ℕ) : ℚ) * (((q.succ : ℕ) : ℚ) - 1) / 2) / 2 ^ 96 * K * 2 ^ 96 =
        L.length * K + 2 ^ 96 * (ε * K) := by
      rw [hε]
      push_cast
      field_simp
      ring
    rw [h6]
    linarith

end Cryptopy.Cpoly
