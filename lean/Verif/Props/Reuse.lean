import Verif.Props.Salt

/-!
C193: what several keys derived by `pbkdf2` from one password with different salts tell somebody who has a dictionary.
-/

namespace Cryptopy
open Model (PrfLib dot11PassPhraseToPSK)
open Spec (Str Asker pbT pbU beBytes xorBytes)
open Dict (Pw Big look)
open Prf (cnt)

namespace Reuse

/-- The chains for several salts with `B` blocks each. -/
def chains (salts : List Bytes) (B : ℕ) : ℕ → Bytes × ℕ := fun i => (salts.getD (i / B) [], i % B + 1)

theorem chains_first (s : Bytes) (salts : List Bytes) (B i : ℕ) (hi : i < B) : chains (s :: salts) B i = (s, i + 1) := by
  rw [chains, Nat.div_eq_of_lt hi, Nat.mod_eq_of_lt hi]
  rfl

theorem chains_later (s : Bytes) (salts : List Bytes) (B i : ℕ) (hB : 0 < B) :
    chains (s :: salts) B (B + i) = chains salts B i := by
  rw [chains, chains, Nat.add_div_left _ hB, Nat.add_mod_left]
  rfl

theorem getD_lt (l : List Bytes) (i : ℕ) (h : i < l.length) : l.getD i [] = l[i] := by
  rw [List.getD_eq_getElem?_getD, List.getElem?_eq_getElem h, Option.getD_some]

theorem chains_length (salts : List Bytes) (B n : ℕ) (hn : 4 ≤ n) (hs : ∀ salt ∈ salts, salt.length + 4 ≤ n) (i : ℕ) :
    (chains salts B i).1.length + 4 ≤ n := by
  rw [chains]
  rcases Nat.lt_or_ge (i / B) salts.length with h | h
  · rw [getD_lt _ _ h]
    exact hs _ (List.getElem_mem h)
  · rw [List.getD_eq_getElem?_getD, List.getElem?_eq_none h]
    exact Nat.le_trans (by simp) hn

theorem chains_inj {n : ℕ} (salts : List Bytes) (hnd : salts.Nodup) (B : ℕ) (hB : B < 2 ^ 32)
    (hs : ∀ i, (chains salts B i).1.length + 4 ≤ n) (i : ℕ) (hi : i < salts.length * B) (j : ℕ) (hj : j < salts.length * B)
    (h : Dict.start (chains salts B) hs i = Dict.start (chains salts B) hs j) : i = j := by
  have hB0 : 0 < B := Nat.pos_of_ne_zero fun e => by rw [e] at hi; omega
  have h := congrArg Subtype.val h
  have hl : ((chains salts B i).1).length = ((chains salts B j).1).length := by
    have := congrArg List.length h
    simp only [Dict.start, List.length_append, length_beBytes] at this
    omega
  obtain ⟨e1, e2⟩ := List.append_inj h hl
  have m1 := Nat.mod_lt i hB0
  have m2 := Nat.mod_lt j hB0
  have e2 := HmacGame.beBytes_inj (i % B + 1) (j % B + 1) (by omega) (by omega) e2
  have d1 : i / B < salts.length := (Nat.div_lt_iff_lt_mul hB0).mpr hi
  have d2 : j / B < salts.length := (Nat.div_lt_iff_lt_mul hB0).mpr hj
  rw [chains, chains, getD_lt _ _ d1, getD_lt _ _ d2] at e1
  have e3 := (List.Nodup.getElem_inj_iff hnd).mp e1
  rw [← Nat.mod_add_div i B, ← Nat.mod_add_div j B, e3, Nat.add_right_cancel e2]

/-- The first `k` octets of each of `u` pieces of `L` octets. -/
def cut (k L : ℕ) : ℕ → Bytes → List Bytes
  | 0, _ => []
  | u + 1, t => (t.take L).take k :: cut k L u (t.drop L)

/-- Pieces of a random string are random strings. -/
theorem avg_cut (k L : ℕ) (h : k ≤ L) (u : ℕ) (f : List Bytes → ℚ) :
    HmacGame.avg (u * L) (fun t => f (cut k L u t)) =
      (∑ t : Fin u → Str k, f (List.ofFn fun i => (t i).1)) / Fintype.card (Fin u → Str k) := by
  induction u generalizing f with
  | zero =>
    rw [show (fun t => f (cut k L 0 t)) = fun _ => f [] from rfl, HmacGame.avg_const]
    simp
  | succ u ih =>
    rw [Nat.succ_mul, Nat.add_comm, HmacGame.avg_split]
    have e1 : (HmacGame.avg L fun s => HmacGame.avg (u * L) fun t => f (cut k L (u + 1) (s ++ t))) =
        HmacGame.avg L fun s => (fun x => (∑ t : Fin u → Str k, f (x :: List.ofFn fun i => (t i).1)) /
          Fintype.card (Fin u → Str k)) (s.take k) := by
      refine HmacGame.avg_congr _ _ _ fun s hs => ?_
      refine Eq.trans ?_ (ih fun l => f (s.take k :: l))
      refine HmacGame.avg_congr _ _ _ fun t _ => ?_
      rw [cut, List.take_left' hs, List.drop_left' hs]
    rw [e1]
    refine (HmacGame.avg_take k L h fun x => (∑ t : Fin u → Str k, f (x :: List.ofFn fun i => (t i).1)) /
      Fintype.card (Fin u → Str k)).trans ?_
    rw [HmacGame.avg, ← Finset.sum_div, div_div]
    congr 1
    · rw [← Fintype.sum_prod_type' (f := fun (x : Str k) (t : Fin u → Str k) => f (x.1 :: List.ofFn fun i => (t i).1))]
      refine Fintype.sum_equiv (Fin.consEquiv fun _ => Str k) _ _ fun x => ?_
      rw [List.ofFn_succ]
      rfl
    · rw [Fintype.card_fun, Fintype.card_fun, Fintype.card_fin, Fintype.card_fin, pow_succ, Nat.cast_mul]

/-- The blocks of all chains are the blocks of all keys. -/
theorem cut_full {n d : ℕ} (c B k : ℕ) (hB : 0 < B) (p : Pw) (F : Big n d) (salts : List Bytes) (m : ℕ) (hm : m = salts.length * B) :
    cut k (B * d) salts.length (Dict.full c m (chains salts B) p F).1 =
      salts.map fun salt => (Dict.full c B (Dict.one salt) p F).1.take k := by
  subst hm
  induction salts with
  | nil => rfl
  | cons s salts ih =>
    have e : (Dict.full c ((s :: salts).length * B) (chains (s :: salts) B) p F).1 =
        (Dict.full c B (Dict.one s) p F).1 ++ (Dict.full c (salts.length * B) (chains salts B) p F).1 := by
      change (List.range ((s :: salts).length * B)).flatMap _ = (List.range B).flatMap _ ++ (List.range (salts.length * B)).flatMap _
      rw [List.length_cons, Nat.succ_mul, Nat.add_comm, List.range_add, List.flatMap_append, List.flatMap_map]
      congr 1
      · refine List.flatMap_congr fun i hi => ?_
        rw [Dict.blk, Dict.blk, chains_first s salts B i (List.mem_range.mp hi)]
      · refine List.flatMap_congr fun i _ => ?_
        rw [Dict.blk, Dict.blk, chains_later s salts B i hB]
    rw [e, List.length_cons, cut, List.take_left' (Dict.full c B (Dict.one s) p F).2,
      List.drop_left' (Dict.full c B (Dict.one s) p F).2, ih, List.map_cons]

theorem mapM_ok {α β : Type} (f : α → Py β) (g : α → β) (l : List α) (h : ∀ x ∈ l, f x = .ok (g x)) :
    l.mapM f = .ok (l.map g) := by
  induction l with
  | nil => rfl
  | cons a l ih =>
    rw [List.mapM_cons, h a List.mem_cons_self, ih fun x hx => h x (List.mem_cons_of_mem _ hx)]
    rfl

end Reuse

open Reuse

/-- C193: put random tables in place of the pseudorandom functions under all passwords.  A password is taken at random from
a dictionary `G`, and somebody gets the keys that `pbkdf2` derives from it with `c` iterations and each of `u` different
salts.  They may then ask for `q` values of the tables.  Up to the given difference, what comes out is what comes out for
somebody with independent random strings in place of the keys; `B` is the number of blocks of a key. -/
theorem C193_reuse (n d c keySize B u M : ℕ) (hd : 0 < d) (hn : d ≤ n) (hc : 1 ≤ c) (hk : 0 < keySize) (hk' : keySize ≤ 10000)
    (hB : B = (keySize + d - 1) / d) (salts : List Bytes) (hu : u = salts.length) (hM : M = u * B * c) (hne : salts ≠ [])
    (hnd : salts.Nodup) (hs : ∀ salt ∈ salts, salt.length + 4 ≤ n) (G : Finset Pw) (hG : G.Nonempty) {R : Type}
    (accept : Bytes → R → Prop) (D : List Bytes → Asker (Bytes × Bytes) Bytes R) (q : ℕ)
    (hq : ∀ keys, (D keys).CostLe (fun _ => 1) (fun _ => 0) q) :
    |(Nat.card {x : Big n d × G // ∃ keys,
          salts.mapM (fun salt => Model.pbkdf2 true (bigPrf x.1) x.2.1.1 salt c keySize) = .ok keys ∧
          accept x.2.1.1 ((D keys).run (look x.1))} : ℚ) / Nat.card (Big n d × G) -
        (Nat.card {x : Big n d × G × (Fin u → Str keySize) //
            accept x.2.1.1.1 ((D (List.ofFn fun i => (x.2.2 i).1)).run (look x.1))} : ℚ) /
          Nat.card (Big n d × G × (Fin u → Str keySize))| ≤
      q / (c * G.card) + (M * (M - 1) / 2 + (M - 1) * (u * B) + M * q) / 256 ^ d := by
  classical
  subst hu
  have hB2 : B = (keySize - 1) / d + 1 := by
    rw [hB, show keySize + d - 1 = keySize - 1 + d by omega, Nat.add_div_right _ hd]
  have hB0 : 0 < B := by rw [hB2]; exact Nat.succ_pos _
  have hB1 : B < 2 ^ 32 := by
    have := Nat.div_le_self (keySize - 1) d
    rw [hB2]
    omega
  have hle : keySize ≤ B * d := by
    have h1 := Nat.mod_add_div (keySize - 1) d
    have h2 := Nat.mod_lt (keySize - 1) hd
    rw [hB2, Nat.succ_mul, Nat.mul_comm]
    omega
  have hu0 : 0 < salts.length := List.length_pos_iff.mpr hne
  have hn4 : 4 ≤ n := by
    obtain ⟨s, hs'⟩ := List.exists_mem_of_ne_nil _ hne
    have := hs s hs'
    omega
  have hs' := chains_length salts B n hn4 hs
  obtain ⟨b, hb⟩ : ∃ b, b = salts.length * B := ⟨_, rfl⟩
  have hb0 : 0 < b := by rw [hb]; exact Nat.mul_pos hu0 hB0
  have hg : (0 : ℚ) < G.card := by exact_mod_cast hG.card_pos
  have hF : (0 : ℚ) < Fintype.card (Big n d) := by
    have : Nonempty (Big n d) := ⟨fun _ => ⟨List.replicate d 0, by simp⟩⟩
    exact_mod_cast Fintype.card_pos
  have hbd := HmacGame.card_pos (b * d)
  -- the two sides for one password
  let real : Pw → ℚ := fun p => cnt fun F : Big n d =>
    accept p.1 ((D (salts.map fun salt => (Dict.full c B (Dict.one salt) p F).1.take keySize)).run (look F))
  let some : Pw → List Bytes → ℚ := fun p l => cnt fun F : Big n d => accept p.1 ((D l).run (look F))
  let ideal : Pw → ℚ := fun p => (∑ t : Fin salts.length → Str keySize, some p (List.ofFn fun i => (t i).1)) /
    Fintype.card (Fin salts.length → Str keySize)
  let D' : Bytes → Asker (Bytes × Bytes) Bytes R := fun t => D (cut keySize (B * d) salts.length (t.take (b * d)))
  have hone (p : Pw) : |real p - ideal p| ≤ (∑ t, (cnt (fun F : Big n d =>
      ¬ Dict.Good hn c b (chains salts B) hs' p (fun t => D' (t.take (b * d))) t F) : ℚ)) / Fintype.card (Str (b * d)) := by
    have h := Dict.one_password hn c b (b * d) hc le_rfl (chains salts B) hs' p (accept p.1) D'
    have e1 : (cnt (fun F : Big n d => accept p.1 ((D' ((Dict.full c b (chains salts B) p F).1.take (b * d))).run (look F))) : ℚ) =
        real p := by
      refine congrArg _ (Prf.cnt_congr fun F => ?_)
      have e := (Dict.full c b (chains salts B) p F).2
      simp only [D', List.take_of_length_le (Nat.le_of_eq e), cut_full c B keySize hB0 p F salts b hb]
    have e2 : HmacGame.avg (b * d) (fun t => cnt fun F : Big n d => accept p.1 ((D' t).run (look F))) = ideal p := by
      refine Eq.trans ?_ (avg_cut keySize (B * d) hle salts.length (some p))
      rw [show salts.length * (B * d) = b * d by rw [hb, Nat.mul_assoc]]
      refine HmacGame.avg_congr _ _ _ fun t ht => ?_
      simp only [D', List.take_of_length_le (Nat.le_of_eq ht), some]
    rw [e1, e2] at h
    exact h
  have hE1 : (Nat.card {x : Big n d × G // ∃ keys,
      salts.mapM (fun salt => Model.pbkdf2 true (bigPrf x.1) x.2.1.1 salt c keySize) = .ok keys ∧
        accept x.2.1.1 ((D keys).run (look x.1))} : ℚ) = ∑ p ∈ G, real p := by
    change ((cnt fun x : Big n d × G => ∃ keys,
      salts.mapM (fun salt => Model.pbkdf2 true (bigPrf x.1) x.2.1.1 salt c keySize) = .ok keys ∧
        accept x.2.1.1 ((D keys).run (look x.1)) : ℕ) : ℚ) = _
    rw [Prf.cnt_prod, Nat.cast_sum, ← Finset.sum_coe_sort G real]
    refine Finset.sum_congr rfl fun p _ => congrArg _ (Prf.cnt_congr fun F => ?_)
    rw [mapM_ok _ (fun salt => (Dict.full c B (Dict.one salt) p.1 F).1.take keySize) salts fun salt _ =>
      bigPrf_key hd F p.1 salt c keySize B hc hk' hB]
    constructor
    · rintro ⟨keys, h1, h2⟩
      rw [Except.ok.inj h1]
      exact h2
    · exact fun h => ⟨_, rfl, h⟩
  have hE2 : (Nat.card {x : Big n d × G × (Fin salts.length → Str keySize) //
      accept x.2.1.1.1 ((D (List.ofFn fun i => (x.2.2 i).1)).run (look x.1))} : ℚ) =
      Fintype.card (Fin salts.length → Str keySize) * ∑ p ∈ G, ideal p := by
    change ((cnt fun x : Big n d × G × (Fin salts.length → Str keySize) =>
      accept x.2.1.1.1 ((D (List.ofFn fun i => (x.2.2 i).1)).run (look x.1)) : ℕ) : ℚ) = _
    have hK : (Fintype.card (Fin salts.length → Str keySize) : ℚ) ≠ 0 := by
      rw [Fintype.card_fun, Nat.cast_pow]
      exact pow_ne_zero _ (HmacGame.card_pos keySize).ne'
    rw [Prf.cnt_prod, Nat.cast_sum, Fintype.sum_prod_type, ← Finset.sum_coe_sort G ideal, Finset.mul_sum]
    refine Finset.sum_congr rfl fun p _ => ?_
    rw [mul_div_cancel₀ _ hK]
  have hcard1 : (Nat.card (Big n d × G) : ℚ) = Fintype.card (Big n d) * G.card := by
    rw [Nat.card_prod, Nat.card_eq_fintype_card, Nat.card_eq_fintype_card, Fintype.card_coe, Nat.cast_mul]
  have hcard2 : (Nat.card (Big n d × G × (Fin salts.length → Str keySize)) : ℚ) =
      Fintype.card (Fin salts.length → Str keySize) * (Fintype.card (Big n d) * G.card) := by
    rw [Nat.card_prod, Nat.card_prod, Nat.card_eq_fintype_card, Nat.card_eq_fintype_card, Nat.card_eq_fintype_card,
      Fintype.card_coe, Nat.cast_mul, Nat.cast_mul]
    ring
  have hsum : |∑ p ∈ G, real p - ∑ p ∈ G, ideal p| ≤
      (G.card * (((b * c - 1 : ℕ) * (b * c) / 2 + (b * c - 1 : ℕ) * b + b * c * q) / Fintype.card (Str d)) + q / c) *
        Fintype.card (Big n d) := by
    rw [← Finset.sum_sub_distrib]
    refine (Finset.abs_sum_le_sum_abs _ _).trans ((Finset.sum_le_sum fun p _ => hone p).trans ?_)
    rw [← Finset.sum_div, Finset.sum_comm, div_le_iff₀ hbd]
    refine (Finset.sum_le_sum fun t _ => Dict.sum_not_good hn c b (chains salts B) hs' (fun t => D' (t.take (b * d))) hc hb0
      (by rw [hb]; exact chains_inj salts hnd B hB1 hs') q (fun t => hq _) G t).trans (le_of_eq ?_)
    rw [Finset.sum_const, Finset.card_univ, nsmul_eq_mul, mul_comm]
  have hM1 : ((b * c - 1 : ℕ) : ℚ) = M - 1 := by
    rw [Nat.cast_sub (Nat.mul_pos hb0 hc), hM, hb, Nat.cast_one]
  have hM2 : (b : ℚ) * c = M := by rw [hM, hb, Nat.cast_mul (salts.length * B)]
  have hb2 : (b : ℚ) = salts.length * B := by rw [hb, Nat.cast_mul]
  have h256 : (Fintype.card (Str d) : ℚ) = 256 ^ d := by
    rw [Cpoly.card_str]
    push_cast
    rfl
  rw [hM1, hM2, h256, hb2] at hsum
  have hK : (0 : ℚ) < Fintype.card (Fin salts.length → Str keySize) := by
    rw [Fintype.card_fun, Nat.cast_pow]
    exact pow_pos (HmacGame.card_pos keySize) _
  have hc0 : (0 : ℚ) < c := by exact_mod_cast hc
  rw [hE1, hE2, hcard1, hcard2, mul_div_mul_left _ _ hK.ne', ← sub_div, abs_div, abs_of_pos (mul_pos hF hg),
    div_le_iff₀ (mul_pos hF hg)]
  refine hsum.trans (le_of_eq ?_)
  field_simp
  ring

/-- Two passwords, three salts, 4096 iterations, and somebody who asks for one value and compares. -/
example := C193_reuse 30 20 4096 32 2 3 24576 (by norm_num) (by norm_num) (by norm_num) (by norm_num) (by norm_num) (by norm_num)
  [[3, 4], [5], []] rfl (by norm_num) (by simp) (by simp) (by simp) {⟨[1], by decide⟩, ⟨[2], by decide⟩} (by simp)
  (fun p r => r = p)
  (fun keys => .ask ([1], [3, 4, 0, 0, 0, 1]) fun u => .done (if some u = keys[0]?.map (List.take 20) then [1] else [2])) 1
  (fun _ => ⟨show 1 ≤ 1 by decide, fun _ => Nat.zero_le _⟩)

/-- C193: the password is named with a chance of not much more than one for each `c` questions, and one, out of the size of
the dictionary, however many keys there are. -/
theorem C193_name_password (n d c keySize B u M : ℕ) (hd : 0 < d) (hn : d ≤ n) (hc : 1 ≤ c) (hk : 0 < keySize)
    (hk' : keySize ≤ 10000) (hB : B = (keySize + d - 1) / d) (salts : List Bytes) (hu : u = salts.length) (hM : M = u * B * c)
    (hne : salts ≠ []) (hnd : salts.Nodup) (hs : ∀ salt ∈ salts, salt.length + 4 ≤ n) (G : Finset Pw) (hG : G.Nonempty)
    (D : List Bytes → Asker (Bytes × Bytes) Bytes Bytes) (q : ℕ) (hq : ∀ keys, (D keys).CostLe (fun _ => 1) (fun _ => 0) q) :
    (Nat.card {x : Big n d × G // ∃ keys,
          salts.mapM (fun salt => Model.pbkdf2 true (bigPrf x.1) x.2.1.1 salt c keySize) = .ok keys ∧
          (D keys).run (look x.1) = x.2.1.1} : ℚ) / Nat.card (Big n d × G) ≤
      (q / c + 1) / G.card + (M * (M - 1) / 2 + (M - 1) * (u * B) + M * q) / 256 ^ d := by
  classical
  have h := C193_reuse n d c keySize B u M hd hn hc hk hk' hB salts hu hM hne hnd hs G hG (fun p r => r = p) D q hq
  have hg : (0 : ℚ) < G.card := by exact_mod_cast hG.card_pos
  have hi : (Nat.card {x : Big n d × G × (Fin u → Str keySize) //
      (D (List.ofFn fun i => (x.2.2 i).1)).run (look x.1) = x.2.1.1.1} : ℚ) /
      Nat.card (Big n d × G × (Fin u → Str keySize)) ≤ 1 / G.card := by
    have hcard : (Nat.card (Big n d × G × (Fin u → Str keySize)) : ℚ) =
        G.card * (Nat.card (Big n d × (Fin u → Str keySize)) : ℚ) := by
      rw [Nat.card_prod, Nat.card_prod, Nat.card_prod, Nat.card_eq_fintype_card (α := G), Fintype.card_coe]
      push_cast
      ring
    have hle : Nat.card {x : Big n d × G × (Fin u → Str keySize) //
        (D (List.ofFn fun i => (x.2.2 i).1)).run (look x.1) = x.2.1.1.1} ≤ Nat.card (Big n d × (Fin u → Str keySize)) := by
      refine Nat.card_le_card_of_injective (fun x => (x.1.1, x.1.2.2)) ?_
      rintro ⟨⟨F, p, t⟩, hx⟩ ⟨⟨F', p', t'⟩, hy⟩ e
      obtain ⟨rfl, rfl⟩ := Prod.mk.inj e
      obtain rfl : p = p' := Subtype.ext (Subtype.ext (hx.symm.trans hy))
      rfl
    have hpos : (0 : ℚ) < Nat.card (Big n d × (Fin u → Str keySize)) := by
      have : Nonempty (Big n d) := ⟨fun _ => ⟨List.replicate d 0, by simp⟩⟩
      have : Nonempty (Fin u → Str keySize) := ⟨fun _ => ⟨List.replicate keySize 0, by simp⟩⟩
      exact_mod_cast Nat.card_pos
    rw [hcard, div_le_div_iff₀ (mul_pos hg hpos) hg, one_mul, mul_comm]
    exact mul_le_mul_of_nonneg_left (by exact_mod_cast hle) hg.le
  have h2 := (abs_le.mp h).2
  have e : ((q : ℚ) / c + 1) / G.card = q / (c * G.card) + 1 / G.card := by
    rw [add_div, div_div]
  rw [e]
  linarith

/-- Somebody who tries one of three passwords for two keys. -/
example := C193_name_password 30 20 2 20 1 2 4 (by norm_num) (by norm_num) (by norm_num) (by norm_num) (by norm_num)
  (by norm_num) [[3, 4], [5]] rfl (by norm_num) (by simp) (by simp) (by simp)
  {⟨[1], by decide⟩, ⟨[2], by decide⟩, ⟨[5], by decide⟩} (by simp)
  (fun keys => .ask ([1], [3, 4, 0, 0, 0, 1]) fun u => .ask ([1], u) fun v =>
    .done (if some (xorBytes u v) = keys[0]? then [1] else [2])) 2
  (fun _ => ⟨show 1 ≤ 2 by decide, fun _ => ⟨show 1 ≤ 1 by decide, fun _ => Nat.zero_le _⟩⟩)

/-- C193: for the pre-shared keys of up to `2^40` networks of 802.11 with different names and the same pass phrase, of a
length that is asked for, the pass phrase is named with a chance of at most one for each 4096 questions, and one, out of the
size of the dictionary, up to one in `2^46`, as long as questions times networks are not more than `2^100`. -/
theorem C193_psk (n : ℕ) (hn : 20 ≤ n) (ssids : List Bytes) (hne : ssids ≠ []) (hnd : ssids.Nodup)
    (hs : ∀ ssid ∈ ssids, ssid.length + 4 ≤ n) (hu : ssids.length ≤ 2 ^ 40) (G : Finset Pw) (hG : G.Nonempty)
    (hp : ∀ p ∈ G, 8 ≤ p.1.length) (D : List Bytes → Asker (Bytes × Bytes) Bytes Bytes) (q : ℕ)
    (hq100 : ssids.length * q ≤ 2 ^ 100) (hq : ∀ keys, (D keys).CostLe (fun _ => 1) (fun _ => 0) q) :
    (Nat.card {x : Big n 20 × G // ∃ keys,
          ssids.mapM (fun ssid => dot11PassPhraseToPSK true (bigPrf x.1) x.2.1.1 ssid) = .ok keys ∧
          (D keys).run (look x.1) = x.2.1.1} : ℚ) / Nat.card (Big n 20 × G) ≤
      (q / 4096 + 1) / G.card + 1 / 2 ^ 46 := by
  have h := C193_name_password n 20 4096 32 2 ssids.length (ssids.length * 2 * 4096) (by norm_num) hn (by norm_num) (by norm_num)
    (by norm_num) (by norm_num) ssids rfl rfl hne hnd hs G hG D q hq
  have e : ∀ (F : Big n 20) (p : G) (ssid : Bytes), dot11PassPhraseToPSK true (bigPrf F) p.1.1 ssid =
      Model.pbkdf2 true (bigPrf F) p.1.1 ssid (4096 : ℕ) (32 : ℕ) := fun F p ssid => by
    rw [dot11PassPhraseToPSK, if_pos ⟨by have := hp p.1 p.2; omega, by have := p.1.2; omega⟩]
    rfl
  simp only [e]
  refine h.trans ?_
  have hq' : (ssids.length : ℚ) * q ≤ 2 ^ 100 := by exact_mod_cast hq100
  have hu' : (ssids.length : ℚ) ≤ 2 ^ 40 := by exact_mod_cast hu
  have hu0 : (0 : ℚ) ≤ ssids.length := Nat.cast_nonneg _
  have hsq : (ssids.length : ℚ) * ssids.length ≤ 2 ^ 40 * 2 ^ 40 := mul_le_mul hu' hu' hu0 (by norm_num)
  have h2 : ((ssids.length * 2 * 4096 : ℕ) * ((ssids.length * 2 * 4096 : ℕ) - 1) / 2 +
      ((ssids.length * 2 * 4096 : ℕ) - 1) * (ssids.length * (2 : ℕ)) + (ssids.length * 2 * 4096 : ℕ) * q) / 256 ^ 20 ≤
      (1 : ℚ) / 2 ^ 46 := by
    push_cast
    rw [div_le_iff₀ (by norm_num)]
    norm_num at hq' hsq ⊢
    nlinarith
  push_cast at h2 ⊢
  linarith

/-- Two pass phrases and two networks, and somebody who names the first. -/
example := C193_psk 40 (by norm_num) [[3], [4, 5]] (by simp) (by simp) (by simp) (by norm_num)
  {⟨List.replicate 8 97, by decide⟩, ⟨List.replicate 9 97, by decide⟩} (by simp)
  (by simp) (fun _ => .done (List.replicate 8 97)) 0 (by norm_num) (fun _ => Nat.zero_le _)

end Cryptopy
