import Verif.Lemmas.DictionaryUsers
import Verif.Lemmas.Generic
import Verif.Props.Reuse

/-!
C194: what keys derived by `pbkdf2` from the passwords of several users tell somebody who has a dictionary.
-/

namespace Cryptopy
open Model (PrfLib dot11PassPhraseToPSK)
open Spec (Str Asker pbT pbU beBytes xorBytes)
open Dict (Pw Big look)
open Prf (cnt)

namespace Users
open Reuse (chains cut)

/-- The password of a user. -/
def pw {G : Finset Pw} {u : ℕ} (P : Fin u → G) (v : ℕ) : Pw := if h : v < u then (P ⟨v, h⟩).1 else ⟨[], Nat.zero_le _⟩

theorem pw_fin {G : Finset Pw} {u : ℕ} (P : Fin u → G) (v : Fin u) : pw P v = (P v).1 := by
  rw [pw, dif_pos v.2]

/-- All choices of passwords for all users but one are alike. -/
theorem sum_one {G : Finset Pw} {u : ℕ} (v : Fin u) (f : G → ℚ) :
    (G.card : ℚ) * ∑ P : Fin u → G, f (P v) = Fintype.card (Fin u → G) * ∑ p, f p := by
  classical
  have e1 : ∑ P : Fin u → G, f (P v) = Fintype.card ({j : Fin u // j ≠ v} → G) * ∑ p, f p := by
    rw [Fintype.sum_equiv (Equiv.funSplitAt v G) (fun P => f (P v)) (fun x => f x.1) fun P => rfl, Fintype.sum_prod_type,
      Finset.mul_sum]
    refine Finset.sum_congr rfl fun p _ => ?_
    simp only [Finset.sum_const, Finset.card_univ, nsmul_eq_mul]
  have e2 : Fintype.card (Fin u → G) = G.card * Fintype.card ({j : Fin u // j ≠ v} → G) := by
    rw [Fintype.card_congr (Equiv.funSplitAt v G), Fintype.card_prod, Fintype.card_coe]
  rw [e1, e2, Nat.cast_mul, mul_assoc]

variable {n d : ℕ} (hd : d ≤ n) (c b u B : ℕ) (σ : ℕ → Bytes × ℕ) (hs : ∀ i, (σ i).1.length + 4 ≤ n) {R : Type}
  (D : Bytes → Asker (Bytes × Bytes) Bytes R)

/-- How often a last value is asked for, over all passwords of all users. -/
theorem sum_users (hc : 0 < c) (hb : b = u * B) (hb0 : 0 < b)
    (hb' : ∀ i < b, ∀ j < b, start σ hs i = start σ hs j → i = j) (q : ℕ)
    (hq : ∀ t, (D t).CostLe (fun _ => 1) (fun _ => 0) q) (G : Finset Pw) (hG : G.Nonempty) (t : Str (b * d)) :
    (∑ P : Fin u → G, (cnt (fun F : Big n d => ¬ Good hd c b σ hs (fun i => pw P (i / B)) D t F) : ℚ)) ≤
      Fintype.card (Fin u → G) * (q / (c * G.card) +
        ((u + 1) * ((b * c - 1 : ℕ) * (b * c) / 2 + (b * c - 1 : ℕ) * b) + b * c * q) / Fintype.card (Str d)) *
          Fintype.card (Big n d) := by
  classical
  have hN := HmacGame.card_pos d
  have hc0 : (0 : ℚ) < c := by exact_mod_cast hc
  have hg : (0 : ℚ) < G.card := by exact_mod_cast hG.card_pos
  have hB0 : 0 < B := Nat.pos_of_ne_zero fun e => by rw [e] at hb; omega
  let E : ℚ := (b * c - 1 : ℕ) * (b * c) / 2 + (b * c - 1 : ℕ) * b
  have h1 (P : Fin u → G) := cnt_not_good hd c b σ hs (fun i => pw P (i / B)) D hc hb0
    (fun i hi j hj h => hb' i hi j hj (Prod.mk.inj h).2) q hq t
  refine (Finset.sum_le_sum fun P _ => h1 P).trans ?_
  -- the chains of which all places are asked for
  let W : G → Fin u → ℚ := fun p v => cnt (fun F : Big n d => Done hd c (start σ hs) (D t.1) B p.1 v F)
  have h2 (P : Fin u → G) : (cnt (fun F : Big n d => ∃ i < b, Whole hd c (start σ hs) (fun i => pw P (i / B)) (D t.1) i F) : ℚ) ≤
      ∑ v : Fin u, W (P v) v := by
    have e : cnt (fun F : Big n d => ∃ i < b, Whole hd c (start σ hs) (fun i => pw P (i / B)) (D t.1) i F) ≤
        ∑ v : Fin u, cnt (fun F : Big n d => Done hd c (start σ hs) (D t.1) B (P v).1 v F) := by
      refine le_trans (Prf.cnt_mono ?_) (Prf.cnt_exists Finset.univ _)
      rintro F ⟨i, hi, hw⟩
      have hv : i / B < u := (Nat.div_lt_iff_lt_mul hB0).mpr (by omega)
      refine ⟨⟨i / B, hv⟩, Finset.mem_univ _, i % B, Nat.mod_lt i hB0, ?_⟩
      rw [whole_iff, pw, dif_pos hv] at hw
      rw [show i / B * B + i % B = i by rw [Nat.mul_comm]; exact Nat.div_add_mod i B]
      exact hw
    have e := Nat.cast_le (α := ℚ).mpr e
    push_cast at e
    exact e
  have h3 : (G.card : ℚ) * ∑ P : Fin u → G, ∑ v : Fin u, W (P v) v = Fintype.card (Fin u → G) * ∑ p : G, ∑ v : Fin u, W p v := by
    rw [Finset.sum_comm, Finset.mul_sum, Finset.sum_comm (f := fun (p : G) (v : Fin u) => W p v), Finset.mul_sum]
    exact Finset.sum_congr rfl fun v _ => sum_one v fun p => W p v
  have h4 (p : G) : (c : ℚ) * ∑ v : Fin u, W p v ≤ ∑ F : Big n d, (Dict.times p.1 (D t.1) F : ℚ) +
      c * u * (E / Fintype.card (Str d) * Fintype.card (Big n d)) := by
    have e1 := sum_done (d := d) hd c b (start σ hs) (D t.1) u B hb p.1
    have e2 := dis_rat c b hb0 hc (not_dis (d := d) hd c b (start σ hs) (fun _ => p.1) hc
      (fun i hi j hj h => hb' i hi j hj (Prod.mk.inj h).2) (b * c - 1) (Nat.sub_lt (Nat.mul_pos hb0 hc) Nat.one_pos))
    have e3 : (cnt (fun F : Big n d => ¬ Dis hd c b (start σ hs) (fun _ => p.1) (b * c - 1) F) : ℚ) ≤
        E / Fintype.card (Str d) * Fintype.card (Big n d) := by
      rw [div_mul_eq_mul_div, le_div_iff₀ hN, mul_comm]
      exact e2
    have e1 := Nat.cast_le (α := ℚ).mpr e1
    rw [← Fin.sum_univ_eq_sum_range (fun v => cnt (fun F : Big n d => Done hd c (start σ hs) (D t.1) B p.1 v F))] at e1
    push_cast at e1
    refine e1.trans (add_le_add_right (mul_le_mul_of_nonneg_left e3 (by positivity)) _)
  have h5 : ∑ p : G, ∑ F : Big n d, (Dict.times p.1 (D t.1) F : ℚ) ≤ q * Fintype.card (Big n d) := by
    rw [Finset.sum_comm]
    refine (Finset.sum_le_sum (g := fun _ => (q : ℚ)) fun F _ => ?_).trans (le_of_eq (by
      rw [Finset.sum_const, Finset.card_univ, nsmul_eq_mul, mul_comm]))
    rw [Finset.sum_coe_sort G fun p => (Dict.times p (D t.1) F : ℚ)]
    exact_mod_cast Dict.sum_times (D t.1) G q (hq _) F
  have h6 : (c : ℚ) * ∑ p : G, ∑ v : Fin u, W p v ≤ q * Fintype.card (Big n d) +
      G.card * (c * u * (E / Fintype.card (Str d) * Fintype.card (Big n d))) := by
    rw [Finset.mul_sum]
    refine (Finset.sum_le_sum fun p _ => h4 p).trans ?_
    rw [Finset.sum_add_distrib, Finset.sum_const, Finset.card_univ, Fintype.card_coe, nsmul_eq_mul]
    exact add_le_add_left h5 _
  have h7 : ∑ P : Fin u → G, (cnt (fun F : Big n d => ∃ i < b, Whole hd c (start σ hs) (fun i => pw P (i / B)) (D t.1) i F) : ℚ) ≤
      Fintype.card (Fin u → G) * (q / (c * G.card) + u * (E / Fintype.card (Str d))) * Fintype.card (Big n d) := by
    refine (Finset.sum_le_sum fun P _ => h2 P).trans ?_
    have hpos : (0 : ℚ) < c * G.card := mul_pos hc0 hg
    refine le_of_mul_le_mul_left ?_ hpos
    have e : (c * G.card : ℚ) * ∑ P : Fin u → G, ∑ v : Fin u, W (P v) v =
        Fintype.card (Fin u → G) * (c * ∑ p : G, ∑ v : Fin u, W p v) := by
      rw [mul_assoc, h3]
      ring
    rw [e]
    refine (mul_le_mul_of_nonneg_left h6 (Nat.cast_nonneg _)).trans (le_of_eq ?_)
    field_simp
  rw [Finset.sum_add_distrib, Finset.sum_const, Finset.card_univ, nsmul_eq_mul]
  refine (add_le_add_right h7 _).trans (le_of_eq ?_)
  simp only [E]
  ring

/-- One of the pieces. -/
theorem cut_getD (k L : ℕ) (u : ℕ) : ∀ (t : Bytes) (v : ℕ), v < u → (cut k L u t).getD v [] = (Dict.piece L t v).take k := by
  induction u with
  | zero => intro t v hv; omega
  | succ u ih =>
    intro t v hv
    rw [cut]
    cases v with
    | zero => rw [Dict.piece, Nat.zero_mul, List.drop_zero]; rfl
    | succ v =>
      rw [List.getD_cons_succ, ih _ v (by omega), Dict.piece, Dict.piece, List.drop_drop, Nat.succ_mul, Nat.add_comm L]

theorem flatMap_blocks (f : ℕ → Bytes) (u B : ℕ) :
    (List.range (u * B)).flatMap f = (List.range u).flatMap fun v => (List.range B).flatMap fun j => f (v * B + j) := by
  induction u with
  | zero => simp
  | succ u ih =>
    rw [Nat.succ_mul, List.range_add, List.flatMap_append, ih, List.range_succ, List.flatMap_append, List.flatMap_singleton,
      List.flatMap_map]

/-- The keys of the users are the pieces of all blocks. -/
theorem piece_full (hB : 0 < B) (salts : Fin u → Bytes) {G : Finset Pw} (P : Fin u → G) (hb : b = u * B) (F : Big n d) (v : Fin u) :
    Dict.piece (B * d) (full c b (chains (List.ofFn salts) B) (fun i => pw P (i / B)) F).1 v =
      (Dict.full c B (Dict.one (salts v)) (P v).1 F).1 := by
  have e := (full c b (chains (List.ofFn salts) B) (fun i => pw P (i / B)) F).2
  have h := (Dict.pieces (d := B * d) (fun v => (List.range B).flatMap fun j =>
    blk c (chains (List.ofFn salts) B) (fun i => pw P (i / B)) F (v * B + j)) (fun v => by
      rw [List.length_flatMap, List.map_congr_left (g := fun _ => d) fun j _ => length_blk c _ _ F _]
      simp) u _ (by rw [e, hb, Nat.mul_assoc])).mp (by
      rw [← flatMap_blocks, ← hb]
      rfl) v v.2
  rw [← h]
  refine List.flatMap_congr fun j hj => ?_
  have hj := List.mem_range.mp hj
  have e1 : (v * B + j) / B = (v : ℕ) := by
    rw [Nat.add_comm, Nat.add_mul_div_right _ _ hB, Nat.div_eq_of_lt hj, Nat.zero_add]
  have e2 : (v * B + j) % B = j := by rw [Nat.mul_add_mod_self_right, Nat.mod_eq_of_lt hj]
  have e3 : chains (List.ofFn salts) B (v * B + j) = (salts v, j + 1) := by
    rw [chains, e1, e2, Reuse.getD_lt _ _ (by rw [List.length_ofFn]; exact v.2), List.getElem_ofFn]
  rw [blk, Dict.blk, Dict.blk, e3, e1, pw_fin]

end Users

open Users
open Reuse (chains cut chains_length chains_inj avg_cut)

/-- C194: put random tables in place of the pseudorandom functions under all passwords.  Each of `u` users takes a password at
random from a dictionary `G`, and somebody gets the keys that `pbkdf2` derives from them with `c` iterations and different
salts.  They may then ask for `q` values of the tables.  Up to the given difference, what comes out is what comes out for
somebody with independent random strings in place of the keys; `B` is the number of blocks of a key. -/
theorem C194_users (n d c keySize B u M : ℕ) (hd : 0 < d) (hn : d ≤ n) (hc : 1 ≤ c) (hk : 0 < keySize) (hk' : keySize ≤ 10000)
    (hB : B = (keySize + d - 1) / d) (hu : 0 < u) (hM : M = u * B * c) (salts : Fin u → Bytes)
    (hinj : Function.Injective salts) (hs : ∀ i, (salts i).length + 4 ≤ n) (G : Finset Pw) (hG : G.Nonempty) {R : Type}
    (accept : (Fin u → Bytes) → R → Prop) (D : (Fin u → Bytes) → Asker (Bytes × Bytes) Bytes R) (q : ℕ)
    (hq : ∀ keys, (D keys).CostLe (fun _ => 1) (fun _ => 0) q) :
    |(Nat.card {x : Big n d × (Fin u → G) // ∃ keys : Fin u → Bytes,
          (∀ i, Model.pbkdf2 true (bigPrf x.1) (x.2 i).1.1 (salts i) c keySize = .ok (keys i)) ∧
          accept (fun i => (x.2 i).1.1) ((D keys).run (look x.1))} : ℚ) / Nat.card (Big n d × (Fin u → G)) -
        (Nat.card {x : Big n d × (Fin u → G) × (Fin u → Str keySize) //
            accept (fun i => (x.2.1 i).1.1) ((D fun i => (x.2.2 i).1).run (look x.1))} : ℚ) /
          Nat.card (Big n d × (Fin u → G) × (Fin u → Str keySize))| ≤
      q / (c * G.card) + ((u + 1) * (M * (M - 1) / 2 + (M - 1) * (u * B)) + M * q) / 256 ^ d := by
  classical
  have hB2 : B = (keySize - 1) / d + 1 := by
    rw [hB, show keySize + d - 1 = keySize - 1 + d by omega, Nat.add_div_right _ hd]
  have hB0 : 0 < B := by rw [hB2]; exact Nat.succ_pos _
  have hB1 : B < 2 ^ 32 := by
    have := Nat.div_le_self (keySize - 1) d
    rw [hB2]
    omega
  have hle : keySize ≤ B * d := by
    have h1 := Nat.mod_add_div (keySize - 1) d
    have h2 := Nat.mod_lt (keySize - 1) hd
    rw [hB2, Nat.succ_mul, Nat.mul_comm]
    omega
  have hn4 : 4 ≤ n := by
    have := hs ⟨0, hu⟩
    omega
  have hs' := chains_length (List.ofFn salts) B n hn4 fun salt h => by
    obtain ⟨i, rfl⟩ := List.mem_ofFn.mp h
    exact hs i
  obtain ⟨b, hb⟩ : ∃ b, b = u * B := ⟨_, rfl⟩
  have hb0 : 0 < b := by rw [hb]; exact Nat.mul_pos hu hB0
  have hg : (0 : ℚ) < G.card := by exact_mod_cast hG.card_pos
  have hGu : (0 : ℚ) < Fintype.card (Fin u → G) := by
    rw [Fintype.card_fun, Fintype.card_coe, Nat.cast_pow]
    exact pow_pos hg _
  have hF : (0 : ℚ) < Fintype.card (Big n d) := by
    have : Nonempty (Big n d) := ⟨fun _ => ⟨List.replicate d 0, by simp⟩⟩
    exact_mod_cast Fintype.card_pos
  have hbd := HmacGame.card_pos (b * d)
  have hpow : (Fintype.card (Str (b * d)) : ℚ) = (Fintype.card (Str d) : ℚ) ^ b := by
    rw [Dict.card_pow, Nat.cast_pow]
  have hK : (0 : ℚ) < Fintype.card (Fin u → Str keySize) := by
    rw [Fintype.card_fun, Nat.cast_pow]
    exact pow_pos (HmacGame.card_pos keySize) _
  -- the two sides for given passwords
  let σ := chains (List.ofFn salts) B
  let real : (Fin u → G) → ℚ := fun P => cnt fun F : Big n d =>
    accept (fun i => (P i).1.1) ((D fun i => (Dict.full c B (Dict.one (salts i)) (P i).1 F).1.take keySize).run (look F))
  let some : (Fin u → G) → (Fin u → Bytes) → ℚ := fun P keys => cnt fun F : Big n d =>
    accept (fun i => (P i).1.1) ((D keys).run (look F))
  let ideal : (Fin u → G) → ℚ := fun P => (∑ t : Fin u → Str keySize, some P fun i => (t i).1) /
    Fintype.card (Fin u → Str keySize)
  let D' : Bytes → Asker (Bytes × Bytes) Bytes R := fun t => D fun i => (cut keySize (B * d) u t).getD i []
  have hone (P : Fin u → G) : |real P - ideal P| ≤ (∑ t, (cnt (fun F : Big n d =>
      ¬ Users.Good hn c b σ hs' (fun i => pw P (i / B)) D' t F) : ℚ)) / Fintype.card (Str (b * d)) := by
    have h := Users.real_ideal hn c b σ hs' (fun i => pw P (i / B)) D' hc (accept fun i => (P i).1.1)
    have e1 : (cnt (fun F : Big n d => accept (fun i => (P i).1.1) ((D' (Users.full c b σ (fun i => pw P (i / B)) F).1).run (look F))) : ℚ) =
        real P := by
      refine congrArg _ (Prf.cnt_congr fun F => ?_)
      have e : (fun i : Fin u => (cut keySize (B * d) u (Users.full c b σ (fun i => pw P (i / B)) F).1).getD i []) =
          fun i => (Dict.full c B (Dict.one (salts i)) (P i).1 F).1.take keySize := by
        funext i
        rw [cut_getD _ _ _ _ _ i.2, piece_full c b u B hB0 salts P hb F i]
      simp only [D', e]
    have e2 : (∑ t : Str (b * d), (cnt (fun F : Big n d => accept (fun i => (P i).1.1) ((D' t.1).run (look F))) : ℚ)) /
        Fintype.card (Str (b * d)) = ideal P := by
      have h := avg_cut keySize (B * d) hle u fun l => some P fun i => l.getD i []
      rw [show u * (B * d) = b * d by rw [hb, Nat.mul_assoc]] at h
      refine Eq.trans h (congrArg (· / (Fintype.card (Fin u → Str keySize) : ℚ)) (Finset.sum_congr rfl fun t _ => ?_))
      refine congrArg (some P) (funext fun i => ?_)
      rw [Reuse.getD_lt _ _ (by rw [List.length_ofFn]; exact i.2), List.getElem_ofFn]
    have h1 := Nat.cast_le (α := ℚ).mpr h.1
    have h2 := Nat.cast_le (α := ℚ).mpr h.2
    push_cast at h1 h2
    rw [← hpow, e1] at h1 h2
    rw [← e2]
    generalize real P = x at h1 h2 ⊢
    generalize (∑ t : Str (b * d), (cnt (fun F : Big n d => accept (fun i => (P i).1.1) ((D' t.1).run (look F))) : ℚ)) = y at h1 h2 ⊢
    generalize (∑ t, (cnt (fun F : Big n d => ¬ Users.Good hn c b σ hs' (fun i => pw P (i / B)) D' t F) : ℚ)) = z at h1 h2 ⊢
    have e : x - y / (Fintype.card (Str (b * d)) : ℚ) = (Fintype.card (Str (b * d)) * x - y) / Fintype.card (Str (b * d)) := by
      field_simp
    rw [e, abs_div, abs_of_pos hbd]
    refine div_le_div_of_nonneg_right ?_ hbd.le
    rw [abs_le]
    constructor <;> linarith
  have hE1 : (Nat.card {x : Big n d × (Fin u → G) // ∃ keys : Fin u → Bytes,
      (∀ i, Model.pbkdf2 true (bigPrf x.1) (x.2 i).1.1 (salts i) c keySize = .ok (keys i)) ∧
        accept (fun i => (x.2 i).1.1) ((D keys).run (look x.1))} : ℚ) = ∑ P, real P := by
    change ((cnt fun x : Big n d × (Fin u → G) => ∃ keys : Fin u → Bytes,
      (∀ i, Model.pbkdf2 true (bigPrf x.1) (x.2 i).1.1 (salts i) c keySize = .ok (keys i)) ∧
        accept (fun i => (x.2 i).1.1) ((D keys).run (look x.1)) : ℕ) : ℚ) = _
    rw [Prf.cnt_prod, Nat.cast_sum]
    refine Finset.sum_congr rfl fun P _ => congrArg _ (Prf.cnt_congr fun F => ?_)
    have e (i : Fin u) := bigPrf_key hd F (P i).1 (salts i) c keySize B hc hk' hB
    constructor
    · rintro ⟨keys, h1, h2⟩
      have : keys = fun i => (Dict.full c B (Dict.one (salts i)) (P i).1 F).1.take keySize :=
        funext fun i => Except.ok.inj ((h1 i).symm.trans (e i))
      rw [← this]
      exact h2
    · exact fun h => ⟨_, e, h⟩
  have hE2 : (Nat.card {x : Big n d × (Fin u → G) × (Fin u → Str keySize) //
      accept (fun i => (x.2.1 i).1.1) ((D fun i => (x.2.2 i).1).run (look x.1))} : ℚ) =
      Fintype.card (Fin u → Str keySize) * ∑ P, ideal P := by
    change ((cnt fun x : Big n d × (Fin u → G) × (Fin u → Str keySize) =>
      accept (fun i => (x.2.1 i).1.1) ((D fun i => (x.2.2 i).1).run (look x.1)) : ℕ) : ℚ) = _
    rw [Prf.cnt_prod, Nat.cast_sum, Fintype.sum_prod_type, Finset.mul_sum]
    refine Finset.sum_congr rfl fun P _ => ?_
    rw [mul_div_cancel₀ _ hK.ne']
  have hcard1 : (Nat.card (Big n d × (Fin u → G)) : ℚ) = Fintype.card (Big n d) * Fintype.card (Fin u → G) := by
    rw [Nat.card_prod, Nat.card_eq_fintype_card, Nat.card_eq_fintype_card, Nat.cast_mul]
  have hcard2 : (Nat.card (Big n d × (Fin u → G) × (Fin u → Str keySize)) : ℚ) =
      Fintype.card (Fin u → Str keySize) * (Fintype.card (Big n d) * Fintype.card (Fin u → G)) := by
    rw [Nat.card_prod, Nat.card_prod, Nat.card_eq_fintype_card, Nat.card_eq_fintype_card, Nat.card_eq_fintype_card,
      Nat.cast_mul, Nat.cast_mul]
    ring
  have hsum : |∑ P, real P - ∑ P, ideal P| ≤ Fintype.card (Fin u → G) * (q / (c * G.card) +
      ((u + 1) * ((b * c - 1 : ℕ) * (b * c) / 2 + (b * c - 1 : ℕ) * b) + b * c * q) / Fintype.card (Str d)) *
        Fintype.card (Big n d) := by
    rw [← Finset.sum_sub_distrib]
    refine (Finset.abs_sum_le_sum_abs _ _).trans ((Finset.sum_le_sum fun P _ => hone P).trans ?_)
    rw [← Finset.sum_div, Finset.sum_comm, div_le_iff₀ hbd]
    refine (Finset.sum_le_sum fun t _ => sum_users hn c b u B σ hs' D' hc hb hb0 ?_ q (fun t => hq _) G hG t).trans (le_of_eq ?_)
    · have h := chains_inj (List.ofFn salts) (List.nodup_ofFn.mpr hinj) B hB1 hs'
      rw [List.length_ofFn, ← hb] at h
      exact h
    · rw [Finset.sum_const, Finset.card_univ, nsmul_eq_mul, mul_comm]
  have hM1 : ((b * c - 1 : ℕ) : ℚ) = M - 1 := by
    rw [Nat.cast_sub (Nat.mul_pos hb0 hc), hM, hb, Nat.cast_one]
  have hM2 : (b : ℚ) * c = M := by rw [hM, hb, Nat.cast_mul (u * B)]
  have hb2 : (b : ℚ) = u * B := by rw [hb, Nat.cast_mul]
  have h256 : (Fintype.card (Str d) : ℚ) = 256 ^ d := by
    rw [Cpoly.card_str]
    push_cast
    rfl
  rw [hM1, hM2, h256, hb2] at hsum
  rw [hE1, hE2, hcard1, hcard2, mul_div_mul_left _ _ hK.ne', ← sub_div, abs_div, abs_of_pos (mul_pos hF hGu),
    div_le_iff₀ (mul_pos hF hGu)]
  refine hsum.trans (le_of_eq ?_)
  ring

/-- Two passwords, three users, 4096 iterations, and somebody who asks for one value and compares. -/
example := C194_users 30 20 4096 32 2 3 24576 (by norm_num) (by norm_num) (by norm_num) (by norm_num) (by norm_num) (by norm_num)
  (by norm_num) (by norm_num) ![[3, 4], [5], []] (by decide) (by decide) {⟨[1], by decide⟩, ⟨[2], by decide⟩} (by simp)
  (fun P r => r = P 0)
  (fun keys => .ask ([1], [3, 4, 0, 0, 0, 1]) fun u => .done (if u = (keys 0).take 20 then [1] else [2])) 1
  (fun _ => ⟨show 1 ≤ 1 by decide, fun _ => Nat.zero_le _⟩)

/-- C194: the password of some user is named with a chance of not much more than one for each `c` questions, and one, out of
the size of the dictionary, however many users there are. -/
theorem C194_name_password (n d c keySize B u M : ℕ) (hd : 0 < d) (hn : d ≤ n) (hc : 1 ≤ c) (hk : 0 < keySize)
    (hk' : keySize ≤ 10000) (hB : B = (keySize + d - 1) / d) (hu : 0 < u) (hM : M = u * B * c) (salts : Fin u → Bytes)
    (hinj : Function.Injective salts) (hs : ∀ i, (salts i).length + 4 ≤ n) (G : Finset Pw) (hG : G.Nonempty)
    (D : (Fin u → Bytes) → Asker (Bytes × Bytes) Bytes (Fin u × Bytes)) (q : ℕ)
    (hq : ∀ keys, (D keys).CostLe (fun _ => 1) (fun _ => 0) q) :
    (Nat.card {x : Big n d × (Fin u → G) // ∃ keys : Fin u → Bytes,
          (∀ i, Model.pbkdf2 true (bigPrf x.1) (x.2 i).1.1 (salts i) c keySize = .ok (keys i)) ∧
          ((D keys).run (look x.1)).2 = (x.2 ((D keys).run (look x.1)).1).1.1} : ℚ) / Nat.card (Big n d × (Fin u → G)) ≤
      (q / c + 1) / G.card + ((u + 1) * (M * (M - 1) / 2 + (M - 1) * (u * B)) + M * q) / 256 ^ d := by
  classical
  have h := C194_users n d c keySize B u M hd hn hc hk hk' hB hu hM salts hinj hs G hG (fun P r => r.2 = P r.1) D q hq
  have hg : (0 : ℚ) < G.card := by exact_mod_cast hG.card_pos
  have hi : (Nat.card {x : Big n d × (Fin u → G) × (Fin u → Str keySize) //
      ((D fun i => (x.2.2 i).1).run (look x.1)).2 = (x.2.1 ((D fun i => (x.2.2 i).1).run (look x.1)).1).1.1} : ℚ) /
      Nat.card (Big n d × (Fin u → G) × (Fin u → Str keySize)) ≤ 1 / G.card := by
    have hGne : Nonempty G := hG.to_subtype
    have : Nonempty (Big n d) := ⟨fun _ => ⟨List.replicate d 0, by simp⟩⟩
    have : Nonempty (Fin u → Str keySize) := ⟨fun _ => ⟨List.replicate keySize 0, by simp⟩⟩
    have hpos : (0 : ℚ) < Nat.card (Big n d × (Fin u → G) × (Fin u → Str keySize)) := by exact_mod_cast Nat.card_pos
    rw [div_le_div_iff₀ hpos hg, one_mul]
    -- put any password in the place of the one that is named
    have hle : Nat.card ({x : Big n d × (Fin u → G) × (Fin u → Str keySize) //
        ((D fun i => (x.2.2 i).1).run (look x.1)).2 = (x.2.1 ((D fun i => (x.2.2 i).1).run (look x.1)).1).1.1} × G) ≤
        Nat.card (Big n d × (Fin u → G) × (Fin u → Str keySize)) := by
      refine Nat.card_le_card_of_injective (fun y => (y.1.1.1,
        Function.update y.1.1.2.1 ((D fun i => (y.1.1.2.2 i).1).run (look y.1.1.1)).1 y.2, y.1.1.2.2)) ?_
      rintro ⟨⟨⟨F, P, t⟩, hx⟩, g⟩ ⟨⟨⟨F', P', t'⟩, hy⟩, g'⟩ e
      obtain ⟨rfl, e⟩ := Prod.mk.inj e
      obtain ⟨e, rfl⟩ := Prod.mk.inj e
      simp only at hx hy e
      have eg : g = g' := by
        have := congrFun e ((D fun i => (t i).1).run (look F)).1
        rwa [Function.update_self, Function.update_self] at this
      have eP : P = P' := by
        funext i
        by_cases hi : i = ((D fun i => (t i).1).run (look F)).1
        · rw [hi]
          exact Subtype.ext (Subtype.ext (hx.symm.trans hy))
        · have := congrFun e i
          rwa [Function.update_of_ne hi, Function.update_of_ne hi] at this
      subst eg eP
      rfl
    rw [Nat.card_prod, Nat.card_eq_fintype_card (α := G), Fintype.card_coe] at hle
    exact_mod_cast hle
  have h2 := (abs_le.mp h).2
  have e : ((q : ℚ) / c + 1) / G.card = q / (c * G.card) + 1 / G.card := by
    rw [add_div, div_div]
  rw [e]
  linarith

/-- Somebody who tries one of three passwords for two users. -/
example := C194_name_password 30 20 2 20 1 2 4 (by norm_num) (by norm_num) (by norm_num) (by norm_num) (by norm_num)
  (by norm_num) (by norm_num) (by norm_num) ![[3, 4], [5]] (by decide) (by decide)
  {⟨[1], by decide⟩, ⟨[2], by decide⟩, ⟨[5], by decide⟩} (by simp)
  (fun keys => .ask ([1], [3, 4, 0, 0, 0, 1]) fun u => .ask ([1], u) fun v =>
    .done (if xorBytes u v = keys 0 then (0, [1]) else (1, [2]))) 2
  (fun _ => ⟨show 1 ≤ 2 by decide, fun _ => ⟨show 1 ≤ 1 by decide, fun _ => Nat.zero_le _⟩⟩)

/-- C194: for the pre-shared keys of up to `2^30` networks of 802.11 with different names and pass phrases of their own, the
pass phrase of one of them is named with a chance of at most one for each 4096 questions, and one, out of the size of the
dictionary, up to one in `2^40`, as long as questions times networks are not more than `2^100`. -/
theorem C194_psk (n : ℕ) (hn : 20 ≤ n) (u : ℕ) (hu : 0 < u) (hu' : u ≤ 2 ^ 30) (ssids : Fin u → Bytes)
    (hinj : Function.Injective ssids) (hs : ∀ i, (ssids i).length + 4 ≤ n) (G : Finset Pw) (hG : G.Nonempty)
    (hp : ∀ p ∈ G, 8 ≤ p.1.length) (D : (Fin u → Bytes) → Asker (Bytes × Bytes) Bytes (Fin u × Bytes)) (q : ℕ)
    (hq100 : u * q ≤ 2 ^ 100) (hq : ∀ keys, (D keys).CostLe (fun _ => 1) (fun _ => 0) q) :
    (Nat.card {x : Big n 20 × (Fin u → G) // ∃ keys : Fin u → Bytes,
          (∀ i, dot11PassPhraseToPSK true (bigPrf x.1) (x.2 i).1.1 (ssids i) = .ok (keys i)) ∧
          ((D keys).run (look x.1)).2 = (x.2 ((D keys).run (look x.1)).1).1.1} : ℚ) / Nat.card (Big n 20 × (Fin u → G)) ≤
      (q / 4096 + 1) / G.card + 1 / 2 ^ 40 := by
  have h := C194_name_password n 20 4096 32 2 u (u * 2 * 4096) (by norm_num) hn (by norm_num) (by norm_num)
    (by norm_num) (by norm_num) hu rfl ssids hinj hs G hG D q hq
  have e : ∀ (F : Big n 20) (p : G) (ssid : Bytes), dot11PassPhraseToPSK true (bigPrf F) p.1.1 ssid =
      Model.pbkdf2 true (bigPrf F) p.1.1 ssid (4096 : ℕ) (32 : ℕ) := fun F p ssid => by
    rw [dot11PassPhraseToPSK, if_pos ⟨by have := hp p.1 p.2; omega, by have := p.1.2; omega⟩]
    rfl
  simp only [e]
  refine h.trans ?_
  have hq' : (u : ℚ) * q ≤ 2 ^ 100 := by exact_mod_cast hq100
  have hu' : (u : ℚ) ≤ 2 ^ 30 := by exact_mod_cast hu'
  have hu0 : (1 : ℚ) ≤ u := by exact_mod_cast hu
  have hsq : (u : ℚ) * u ≤ 2 ^ 30 * 2 ^ 30 := mul_le_mul hu' hu' (by linarith) (by norm_num)
  have hcu : (u : ℚ) * u * u ≤ 2 ^ 30 * 2 ^ 30 * 2 ^ 30 := mul_le_mul hsq hu' (by linarith) (by norm_num)
  have h2 : ((u + 1) * ((u * 2 * 4096 : ℕ) * ((u * 2 * 4096 : ℕ) - 1) / 2 +
      ((u * 2 * 4096 : ℕ) - 1) * (u * (2 : ℕ))) + (u * 2 * 4096 : ℕ) * q) / 256 ^ 20 ≤
      (1 : ℚ) / 2 ^ 40 := by
    push_cast
    rw [div_le_iff₀ (by norm_num)]
    norm_num at hq' hsq hcu ⊢
    nlinarith
  push_cast at h2 ⊢
  linarith

/-- Two pass phrases and two networks, and somebody who names the first for the second network. -/
example := C194_psk 40 (by norm_num) 2 (by norm_num) (by norm_num) ![[3], [4, 5]] (by decide) (by decide)
  {⟨List.replicate 8 97, by decide⟩, ⟨List.replicate 9 97, by decide⟩} (by simp)
  (by simp) (fun _ => .done (1, List.replicate 8 97)) 0 (by norm_num) (fun _ => Nat.zero_le _)

/-- C194: if all users have the same salt, `c` questions for each password of a list find a password for every user at once,
however many there are: one in the list whose key begins like the one of the user, whatever the functions are. -/
theorem C194_same_salt (salt : Bytes) (c : ℕ) (hc : 1 ≤ c) (d : ℕ) (hd : 0 < d) (L : List Pw) (u : ℕ) :
    ∃ D : (Fin u → Bytes) → Asker (Bytes × Bytes) Bytes (Fin u → Bytes),
      (∀ keys, (D keys).CostLe (fun _ => 1) (fun _ => 0) (c * L.length)) ∧
      ∀ (n : ℕ) (F : Big n d) (keySize : ℕ), d ≤ keySize → keySize ≤ 10000 → ∀ P : Fin u → Pw, (∀ i, P i ∈ L) →
        ∃ keys : Fin u → Bytes, (∀ i, Model.pbkdf2 true (bigPrf F) (P i).1 salt c keySize = .ok (keys i)) ∧
          ∀ i, ∃ p' ∈ L, (D keys).run (look F) i = p'.1 ∧
            ∃ key', Model.pbkdf2 true (bigPrf F) p'.1 salt c keySize = .ok key' ∧ key'.take d = (keys i).take d := by
  obtain ⟨D1, find, h1, h2⟩ := C190_table salt c hc d hd L
  refine ⟨fun keys => Core.andThen D1 fun l => .done fun i => find (keys i) l, fun keys => ?_, ?_⟩
  · exact Core.andThen_cost (b' := 0) _ _ _ h1 fun _ => Nat.zero_le _
  · intro n F keySize hk hk' P hP
    choose keys h3 h4 using fun i => h2 n F keySize hk hk' (P i) (hP i)
    refine ⟨keys, h3, fun i => ?_⟩
    rw [Core.andThen_run]
    exact h4 i

/-- Two passwords, three iterations and 1000 users. -/
example := C194_same_salt [3] 3 (by norm_num) 20 (by norm_num) [⟨[1], by decide⟩, ⟨[2], by decide⟩] 1000

namespace Users

/-- Two users rarely get the same salt. -/
theorem few_equal {S : Finset Bytes} {u : ℕ} (i j : Fin u) (h : i ≠ j) :
    {k : Fin u → S | k i = k j}.ncard ≤ S.card ^ (u - 1) := by
  classical
  have e : S.card ^ (u - 1) = Nat.card ({l : Fin u // l ≠ i} → S) := by
    rw [Nat.card_eq_fintype_card, Fintype.card_fun, Fintype.card_coe, Fintype.card_subtype_compl, Fintype.card_fin,
      Fintype.card_subtype_eq]
  rw [e, ← Nat.card_coe_set_eq]
  refine Nat.card_le_card_of_injective (fun k l => k.1 l.1) ?_
  rintro ⟨k, hk⟩ ⟨k', hk'⟩ e
  refine Subtype.ext (funext fun l => ?_)
  have hj : k j = k' j := congrFun e ⟨j, h.symm⟩
  by_cases hl : l = i
  · rw [hl]
    exact (show k i = k j from hk).trans (hj.trans (show k' i = k' j from hk').symm)
  · exact congrFun e ⟨l, hl⟩

end Users

/-- C194: if every user takes a salt at random from a set `S`, the chance grows by at most `u (u - 1) / 2` in the number of
salts. -/
theorem C194_random_salts (n d c keySize B u M : ℕ) (hd : 0 < d) (hn : d ≤ n) (hc : 1 ≤ c) (hk : 0 < keySize)
    (hk' : keySize ≤ 10000) (hB : B = (keySize + d - 1) / d) (hu : 0 < u) (hM : M = u * B * c) (S : Finset Bytes)
    (hS : S.Nonempty) (hs : ∀ salt ∈ S, salt.length + 4 ≤ n) (G : Finset Pw) (hG : G.Nonempty)
    (D : (Fin u → Bytes) → (Fin u → Bytes) → Asker (Bytes × Bytes) Bytes (Fin u × Bytes)) (q : ℕ)
    (hq : ∀ salts keys, (D salts keys).CostLe (fun _ => 1) (fun _ => 0) q) :
    (Nat.card {x : (Big n d × (Fin u → G)) × (Fin u → S) // ∃ keys : Fin u → Bytes,
          (∀ i, Model.pbkdf2 true (bigPrf x.1.1) (x.1.2 i).1.1 (x.2 i).1 c keySize = .ok (keys i)) ∧
          ((D (fun i => (x.2 i).1) keys).run (look x.1.1)).2 =
            (x.1.2 ((D (fun i => (x.2 i).1) keys).run (look x.1.1)).1).1.1} : ℚ) /
        Nat.card ((Big n d × (Fin u → G)) × (Fin u → S)) ≤
      (q / c + 1) / G.card + ((u + 1) * (M * (M - 1) / 2 + (M - 1) * (u * B)) + M * q) / 256 ^ d +
        u * (u - 1) / (2 * S.card) := by
  classical
  obtain ⟨X, hX⟩ : ∃ X : ℚ, X = (q / c + 1) / G.card + ((u + 1) * (M * (M - 1) / 2 + (M - 1) * (u * B)) + M * q) / 256 ^ d :=
    ⟨_, rfl⟩
  have hGne : Nonempty G := hG.to_subtype
  have : Nonempty (Big n d) := ⟨fun _ => ⟨List.replicate d 0, by simp⟩⟩
  have hK : (0 : ℚ) < Nat.card (Big n d × (Fin u → G)) := by exact_mod_cast Nat.card_pos
  have hS0 : (0 : ℚ) < S.card := by exact_mod_cast hS.card_pos
  have hX0 : 0 ≤ X := by
    rw [hX]
    have hM1 : (1 : ℚ) ≤ M := by
      have hB0 : 0 < B := by
        rw [hB]
        exact Nat.div_pos (by omega) hd
      rw [hM]
      exact_mod_cast Nat.mul_pos (Nat.mul_pos hu hB0) hc
    have : (0 : ℚ) ≤ M - 1 := by linarith
    positivity
  -- for given salts
  let f : (Fin u → S) → ℚ := fun s => cnt fun x : Big n d × (Fin u → G) => ∃ keys : Fin u → Bytes,
    (∀ i, Model.pbkdf2 true (bigPrf x.1) (x.2 i).1.1 (s i).1 c keySize = .ok (keys i)) ∧
      ((D (fun i => (s i).1) keys).run (look x.1)).2 = (x.2 ((D (fun i => (s i).1) keys).run (look x.1)).1).1.1
  have h1 (s : Fin u → S) (hi : Function.Injective s) : f s ≤ X * Nat.card (Big n d × (Fin u → G)) := by
    have h := C194_name_password n d c keySize B u M hd hn hc hk hk' hB hu hM (fun i => (s i).1)
      (Subtype.val_injective.comp hi) (fun i => hs _ (s i).2) G hG (D fun i => (s i).1) q (hq _)
    rw [← hX, div_le_iff₀ hK] at h
    exact h
  have h2 (s : Fin u → S) : f s ≤ Nat.card (Big n d × (Fin u → G)) := by
    rw [Nat.card_eq_fintype_card]
    exact Nat.cast_le.mpr (Prf.cnt_le _)
  have h3 : (Nat.card {x : (Big n d × (Fin u → G)) × (Fin u → S) // ∃ keys : Fin u → Bytes,
      (∀ i, Model.pbkdf2 true (bigPrf x.1.1) (x.1.2 i).1.1 (x.2 i).1 c keySize = .ok (keys i)) ∧
        ((D (fun i => (x.2 i).1) keys).run (look x.1.1)).2 =
          (x.1.2 ((D (fun i => (x.2 i).1) keys).run (look x.1.1)).1).1.1} : ℚ) = ∑ s, f s := by
    refine (congrArg (Nat.cast (R := ℚ)) (Prf.cnt_prod _)).trans ?_
    rw [Nat.cast_sum]
  have h4 : ((Finset.univ.filter fun s : Fin u → S => ¬ Function.Injective s).card : ℚ) ≤ u.choose 2 * S.card ^ (u - 1) := by
    have h := Model.collisions (Finset.univ : Finset (Fin u)) (fun (k : Fin u → S) i => k i) _ Users.few_equal
    rw [Finset.card_univ, Fintype.card_fin] at h
    have e : (Finset.univ.filter fun s : Fin u → S => ¬ Function.Injective s).card ≤ u.choose 2 * S.card ^ (u - 1) := by
      refine le_of_eq_of_le ?_ h
      rw [← Set.ncard_coe_finset]
      congr 1
      ext k
      rw [Finset.mem_coe, Finset.mem_filter, Set.mem_ofPred_eq]
      exact ⟨fun h h' => h.2 fun f g e => h' f (Finset.mem_univ _) g (Finset.mem_univ _) e,
        fun h => ⟨Finset.mem_univ _, fun h' => h fun f _ g _ e => h' e⟩⟩
    exact_mod_cast e
  have h5 : ∑ s, f s ≤ (Fintype.card (Fin u → S) * X + u.choose 2 * S.card ^ (u - 1)) * Nat.card (Big n d × (Fin u → G)) := by
    have e (s : Fin u → S) : f s ≤ X * Nat.card (Big n d × (Fin u → G)) +
        if ¬ Function.Injective s then (Nat.card (Big n d × (Fin u → G)) : ℚ) else 0 := by
      split
      · exact (h2 s).trans (le_add_of_nonneg_left (mul_nonneg hX0 hK.le))
      · next hi => rw [add_zero]; exact h1 s (not_not.mp hi)
    refine (Finset.sum_le_sum fun s _ => e s).trans ?_
    rw [Finset.sum_add_distrib, Finset.sum_const, Finset.card_univ, nsmul_eq_mul, ← Finset.sum_filter, Finset.sum_const,
      nsmul_eq_mul, add_mul, mul_assoc]
    exact add_le_add_right (mul_le_mul_of_nonneg_right h4 hK.le) _
  have h6 : (Nat.card ((Big n d × (Fin u → G)) × (Fin u → S)) : ℚ) =
      Nat.card (Big n d × (Fin u → G)) * (S.card * S.card ^ (u - 1)) := by
    rw [Nat.card_prod, Nat.card_eq_fintype_card (α := Fin u → S), Fintype.card_fun, Fintype.card_coe, Fintype.card_fin,
      Nat.cast_mul, Nat.cast_pow, ← pow_succ', Nat.sub_add_cancel hu]
  have h7 : (Fintype.card (Fin u → S) : ℚ) = S.card * S.card ^ (u - 1) := by
    rw [Fintype.card_fun, Fintype.card_coe, Fintype.card_fin, Nat.cast_pow, ← pow_succ', Nat.sub_add_cancel hu]
  rw [← hX, h3, h6, div_le_iff₀ (by positivity)]
  refine h5.trans (le_of_eq ?_)
  rw [h7, Nat.cast_choose_two]
  field_simp

/-- Two users, each with one of two salts. -/
example := C194_random_salts 30 20 2 20 1 2 4 (by norm_num) (by norm_num) (by norm_num) (by norm_num) (by norm_num)
  (by norm_num) (by norm_num) (by norm_num) {[3, 4], [5]} (by simp) (by simp)
  {⟨[1], by decide⟩, ⟨[2], by decide⟩, ⟨[5], by decide⟩} (by simp)
  (fun salts keys => .ask ([1], salts 0 ++ [0, 0, 0, 1]) fun u => .ask ([1], u) fun v =>
    .done (if xorBytes u v = keys 0 then (0, [1]) else (1, [2]))) 2
  (fun _ _ => ⟨show 1 ≤ 2 by decide, fun _ => ⟨show 1 ≤ 1 by decide, fun _ => Nat.zero_le _⟩⟩)

end Cryptopy
