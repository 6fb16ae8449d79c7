import Verif.Props.AeadSecurity
import Verif.Props.PolySharp

/-!
C197: how close the forgery bound of the AEAD is to the truth.
-/

namespace Cryptopy
open Model Spec PolySharp
open Cpoly (Table look nonceBits Says cipher otk blocks)
open Prf (cnt cnt_mono cnt_congr cnt_true)

/-- `v` other strings of `q + 1` blocks; for at least `q v 2^22` of the keys that give the string its tag, without associated data, one of
them has the same tag. -/
private def Partners (q v : ℕ) (ct : Bytes) (l : List Bytes) : Prop :=
  l.length = v ∧ (∀ ct' ∈ l, ct'.length = 16 * (q + 1) ∧ ct ≠ ct') ∧ ∀ t : Bytes, t.length = 16 →
    q * v * 2 ^ 22 ≤ {key : Bytes | key.length = 32 ∧ poly1305Mac (macData [] ct) key = .ok t ∧
      ∃ ct' ∈ l, poly1305Mac (macData [] ct') key = .ok t}.ncard

private theorem most_partners (q v : ℕ) (hq2 : q * v ≤ 2 ^ 106) :
    Nat.card {ct : Str (16 * (q + 1)) // ¬ ∃ l, Partners q v ct.1 l} ≤ v * 2 ^ (128 * q) := by
  classical
  obtain ⟨c0, hc0, hcl0⟩ := some_clamped (v * q) (by rwa [mul_comm])
  let c : Fin v × Fin q → ℕ := fun i => c0 (finProdFinEquiv i)
  have hc : Function.Injective c := hc0.comp finProdFinEquiv.injective
  have hcl : ∀ i, c i < 2 ^ 128 ∧ clamp (c i) = c i := fun i => hcl0 _
  let F : Fin v → Bytes → Fin q → Str 16 := fun i ct j =>
    ⟨poly1305 (macData [] ct) (zeroKey (c (i, j))), by rw [poly1305, length_leBytes]⟩
  have key : ∀ ct : Str (16 * (q + 1)), (¬ ∃ l, Partners q v ct.1 l) →
      ∃ i, ∀ m' : Bytes, m'.length = 16 * (q + 1) → F i ct.1 = F i m' → ct.1 = m' := by
    intro ct hct
    by_contra hno
    push Not at hno
    choose m hm hF hne using hno
    refine hct ⟨List.ofFn m, List.length_ofFn, fun ct' h => ?_, fun t ht => ?_⟩
    · obtain ⟨i, rfl⟩ := (List.mem_ofFn' _ _).mp h
      exact ⟨hm i, hne i⟩
    have h1 := many_keys_each c hc hcl (macData [] ct.1) (fun i => macData [] (m i.1))
      (fun i => ⟨_, C25_poly1305_rfc _ _ (length_zeroKey _), by
        rw [C25_poly1305_rfc _ _ (length_zeroKey _)]
        exact congrArg _ (congrArg Subtype.val (congrFun (hF i.1) i.2)).symm⟩) t ht
    rw [Fintype.card_prod, Fintype.card_fin, Fintype.card_fin, mul_comm v q] at h1
    refine h1.trans (Set.ncard_le_ncard (fun k hk => ⟨hk.1, hk.2.1, ?_⟩) ?_)
    · obtain ⟨i, hi⟩ := hk.2.2
      exact ⟨m i.1, (List.mem_ofFn' _ _).mpr ⟨i.1, rfl⟩, hi⟩
    · have : {key : Bytes | key.length = 32 ∧ poly1305Mac (macData [] ct.1) key = .ok t}.Finite :=
        Set.finite_of_ncard_ne_zero (by rw [C139_keys _ t ht]; positivity)
      exact this.subset fun k hk => ⟨hk.1, hk.2.1⟩
  rw [Nat.card_eq_fintype_card, Fintype.card_subtype]
  calc _ ≤ (Finset.univ.biUnion fun i : Fin v => Finset.univ.filter fun ct : Str (16 * (q + 1)) =>
          ∀ m' : Bytes, m'.length = 16 * (q + 1) → F i ct.1 = F i m' → ct.1 = m').card := by
        refine Finset.card_le_card fun ct hct => ?_
        obtain ⟨i, hi⟩ := key ct (Finset.mem_filter.mp hct).2
        exact Finset.mem_biUnion.mpr ⟨i, Finset.mem_univ _, Finset.mem_filter.mpr ⟨Finset.mem_univ _, hi⟩⟩
    _ ≤ ∑ i : Fin v, 2 ^ (128 * q) := by
        refine Finset.card_biUnion_le.trans (Finset.sum_le_sum fun i _ => ?_)
        have := few_alone q (F i)
        rwa [Nat.card_eq_fintype_card, Fintype.card_subtype] at this
    _ = v * 2 ^ (128 * q) := by rw [Finset.sum_const, Finset.card_univ, Fintype.card_fin, smul_eq_mul]

open scoped Classical in
/-- The partners, or none. -/
private noncomputable def partners (q v : ℕ) (ct : Bytes) : List Bytes :=
  if h : ∃ l, Partners q v ct l then h.choose else []

private theorem partners_spec (q v : ℕ) (ct : Bytes) (h : ∃ l, Partners q v ct l) : Partners q v ct (partners q v ct) := by
  rw [partners, dif_pos h]; exact h.choose_spec

private theorem partners_length (q v : ℕ) (ct : Bytes) :
    (partners q v ct).length ≤ v ∧ ∀ ct' ∈ partners q v ct, ct'.length = 16 * (q + 1) := by
  rw [partners]
  split
  · next h => exact ⟨h.choose_spec.1.le, fun ct' hc => (h.choose_spec.2.1 ct' hc).1⟩
  · exact ⟨Nat.zero_le _, by simp⟩

/-- Present each of the ciphertexts with the tag. -/
private def present (iv tag : Bytes) : List Bytes → AeadAsker Unit
  | [] => .done ()
  | ct :: l => .ask (.inr ⟨[], iv, ct, tag⟩) fun _ => present iv tag l

/-- Ask for one encryption of zeros and put the partners in place of the ciphertext. -/
private noncomputable def swap (q v : ℕ) (iv : Bytes) : AeadAsker Unit :=
  .ask (.inl ⟨[], iv, List.replicate (16 * (q + 1)) 0⟩) fun a =>
    match a with
    | .inl (.ok (ct, tag)) => present iv tag (partners q v ct)
    | _ => .done ()

private theorem present_fresh (iv tag : Bytes) : ∀ (l : List Bytes) (u : List Bytes), FreshNonces u (present iv tag l)
  | [], _ => trivial
  | _ :: l, u => fun _ => present_fresh iv tag l u

private theorem present_within (iv tag : Bytes) (S : AeadAsk → Prop) : ∀ l : List Bytes, (∀ ct ∈ l, S (.inr ⟨[], iv, ct, tag⟩)) →
    (present iv tag l).Within S
  | [], _ => trivial
  | ct :: l, h => ⟨h ct (by simp), fun _ => present_within iv tag S l fun c hc => h c (by simp [hc])⟩

private theorem present_cost (iv tag : Bytes) : ∀ (l : List Bytes) (v : ℕ), l.length ≤ v →
    (present iv tag l).CostLe openingCost (fun _ => 0) v
  | [], v, _ => Nat.zero_le v
  | _ :: l, v, h => by
    rw [List.length_cons] at h
    refine ⟨?_, fun _ => present_cost iv tag l _ ?_⟩
    · change 1 ≤ v; omega
    · change l.length ≤ v - 1; omega

private theorem present_forges (g : AeadAsk → AeadAnswer) (iv tag : Bytes) (u : List (AeadQuery × Py (Bytes × Bytes))) (ct pt : Bytes)
    (h : g (.inr ⟨[], iv, ct, tag⟩) = .inr (.ok (some pt))) (hu : (⟨[], iv, pt⟩, .ok (ct, tag)) ∉ u) :
    ∀ l : List Bytes, ct ∈ l → Forges g u (present iv tag l)
  | [], hm => absurd hm (by simp)
  | c :: l, hm => by
    rcases List.mem_cons.mp hm with rfl | hm
    · exact Or.inl ⟨pt, h, hu⟩
    · exact Or.inr (present_forges g iv tag u ct pt h hu l hm)

private theorem share (c1 c2 a q N : ℕ) (hN : 0 < N) (h1 : N * c1 = 2 ^ 128 * a) (h2 : q * 2 ^ 22 * a ≤ N * c2) :
    q * c1 ≤ 2 ^ 106 * c2 := by
  refine Nat.le_of_mul_le_mul_left ?_ hN
  calc N * (q * c1) = q * (N * c1) := by ring
    _ = 2 ^ 106 * (q * 2 ^ 22 * a) := by rw [h1]; ring
    _ ≤ 2 ^ 106 * (N * c2) := Nat.mul_le_mul_left _ h2
    _ = N * (2 ^ 106 * c2) := by ring

private theorem forges_of (o : Aead) (rand1 rand2 iv : Bytes) (hk : o.key.length = 32) (hn : (o.constant ++ iv).length = 12) (q v : ℕ)
    (f : Table) (ct tag : Bytes) (h : Says (Cpoly.nu o iv) [] (List.replicate (16 * (q + 1)) 0) ct tag f)
    (hp : ∃ l, Partners q v ct l) (ct' : Bytes) (hm : ct' ∈ partners q v ct)
    (ht : poly1305Mac (macData [] ct') (otk f (Cpoly.nu o iv)) = .ok tag) :
    Forges (aeadAnswers o rand1 rand2 (look f)) [] (swap q v iv) := by
  have e : aeadAnswers o rand1 rand2 (look f) (.inl ⟨[], iv, List.replicate (16 * (q + 1)) 0⟩) = .inl (.ok (ct, tag)) :=
    congrArg Sum.inl ((Cpoly.encryptWith_ok f rand1 rand2 o [] iv _ ct tag hk hn).mpr h)
  rw [swap, Forges, e]
  have hs : Says (Cpoly.nu o iv) [] (cipher f (Cpoly.nu o iv) ct') ct' tag f := ⟨Cpoly.cipher_cipher f _ _, ht⟩
  refine present_forges _ iv tag _ ct' _ (congrArg Sum.inr (Cpoly.open_some f rand1 rand2 o [] iv _ _ tag hk hn hs)) (fun hu => ?_) _ hm
  have := (Prod.mk.inj (List.mem_singleton.mp hu)).2
  exact ((partners_spec q v ct hp).2.1 ct' hm).2 (Prod.mk.inj (Except.ok.inj this)).1.symm

/-- C197: somebody who asks for one encryption and presents `v` other ciphertexts with its tag, of `q + 1` blocks each, is believed by the
recipient at least once for at least `q v`, less `v` in `2^128`, of `2^106` functions in place of the block function; the bound of C168 for
such strategies is `8 (q + 2) v`. -/
theorem C197_forger (o : Aead) (iv : Bytes) (hk : o.key.length = 32) (hn : (o.constant ++ iv).length = 12) (q v : ℕ)
    (hq : q + 5 ≤ 2 ^ 34) (hv : q * v ≤ 2 ^ 106) :
    ∃ D : AeadAsker Unit, FreshNonces [] D ∧ D.Within (AeadAskFits o (q + 2)) ∧ D.CostLe openingCost (fun _ => 0) v ∧
      ∀ rand1 rand2, q * v * (2 ^ 128 - v) * Nat.card Table ≤
          2 ^ 128 * (2 ^ 106 * Nat.card {f : Table // Forges (aeadAnswers o rand1 rand2 (look f)) [] D}) ∧
        2 ^ 106 * Nat.card {f : Table // Forges (aeadAnswers o rand1 rand2 (look f)) [] D} ≤ v * (8 * (q + 2)) * Nat.card Table := by
  classical
  have hF : FreshNonces [] (swap q v iv) := by
    refine ⟨by simp, fun t => ?_⟩
    rcases t with (_ | ⟨ct, tag⟩) | t
    · trivial
    · exact present_fresh _ _ _ _
    · trivial
  have hW : (swap q v iv).Within (AeadAskFits o (q + 2)) := by
    refine ⟨⟨hn, ?_, by simp, ?_⟩, fun t => ?_⟩
    · dsimp only; rw [List.length_replicate]; omega
    · dsimp only; rw [List.length_replicate, List.length_nil]; omega
    rcases t with (_ | ⟨ct, tag⟩) | t
    · trivial
    · refine present_within _ _ _ _ fun ct' hc => ?_
      have h := (partners_length q v ct).2 ct' hc
      refine ⟨hn, ?_, by simp, ?_⟩
      · dsimp only; omega
      · dsimp only; rw [List.length_nil]; omega
    · trivial
  have hC : (swap q v iv).CostLe openingCost (fun _ => 0) v := by
    refine ⟨Nat.zero_le _, fun t => ?_⟩
    rcases t with (_ | ⟨ct, tag⟩) | t
    · exact Nat.zero_le _
    · exact present_cost _ _ _ _ (partners_length q v ct).1
    · exact Nat.zero_le _
  refine ⟨swap q v iv, hF, hW, hC, fun rand1 rand2 => ⟨?_, C168_forgery o rand1 rand2 hk (q + 2) v (swap q v iv) hF hW hC⟩⟩
  obtain ⟨pt, hpt⟩ : ∃ pt : Bytes, pt = List.replicate (16 * (q + 1)) 0 := ⟨_, rfl⟩
  have hl : pt.length = 16 * (q + 1) := by rw [hpt, List.length_replicate]
  have hb : 1 + blocks pt ≤ 2 ^ 32 := by rw [blocks, hl]; omega
  obtain ⟨ν, hν⟩ : ∃ ν, ν = Cpoly.nu o iv := ⟨_, rfl⟩
  obtain ⟨P, hP⟩ : ∃ P : Table → Prop, P = fun f => Forges (aeadAnswers o rand1 rand2 (look f)) [] (swap q v iv) := ⟨_, rfl⟩
  change _ ≤ 2 ^ 128 * (2 ^ 106 * cnt fun f => Forges (aeadAnswers o rand1 rand2 (look f)) [] (swap q v iv))
  rw [← hP]
  -- one answer
  have one : ∀ t : Str pt.length × Str 16, (∃ l, Partners q v t.1.1 l) →
      q * v * cnt (Says ν [] pt t.1.1 t.2.1) ≤ 2 ^ 106 * cnt fun f => P f ∧ Says ν [] pt t.1.1 t.2.1 f := by
    intro t ht
    have hA := Cpoly.offKey_cipher ν pt t.1.1 hb
    have e1 := Cpoly.key_card ν _ hA fun k => poly1305Mac (macData [] t.1.1) k = .ok t.2.1
    have e2 := Cpoly.key_card ν _ hA fun k => poly1305Mac (macData [] t.1.1) k = .ok t.2.1 ∧
      ∃ ct' ∈ partners q v t.1.1, poly1305Mac (macData [] ct') k = .ok t.2.1
    rw [C139_keys _ _ t.2.2] at e1
    have b := (partners_spec q v t.1.1 ht).2.2 t.2.1 t.2.2
    have hs := share _ _ _ (q * v) _ (by rw [Cpoly.card_str]; positivity) e1 (e2 ▸ Nat.mul_le_mul_right _ b)
    refine hs.trans (Nat.mul_le_mul_left _ (cnt_mono fun f hf => ⟨?_, hf.1, hf.2.1⟩))
    obtain ⟨ct', hm, hc⟩ := hf.2.2
    rw [hP]
    refine forges_of o rand1 rand2 iv hk hn q v f t.1.1 t.2.1 ?_ ht ct' hm ?_
    · rw [← hν, ← hpt]; exact ⟨hf.1, hf.2.1⟩
    · rw [← hν]; exact hc
  -- all answers are equally frequent
  have same : ∀ t : Str pt.length × Str 16, Fintype.card (Str pt.length × Str 16) * cnt (Says ν [] pt t.1.1 t.2.1) = Nat.card Table := by
    intro t
    have := Cpoly.says_card ν (fun _ => True) (fun _ _ _ h => h) [] pt hb t
    rw [cnt_true, ← Nat.card_eq_fintype_card (α := Table)] at this
    rw [← this]
    exact congrArg _ (cnt_congr fun f => by simp)
  obtain ⟨N, hN⟩ : ∃ N, N = 2 ^ 128 := ⟨_, rfl⟩
  have hN1 : 1 ≤ N := by rw [hN]; exact Nat.one_le_two_pow
  have hS : Fintype.card (Str pt.length) = N ^ (q + 1) := by
    rw [Cpoly.card_str, hl, pow_mul, hN]
    exact congrArg (· ^ (q + 1)) (by norm_num)
  have hT : Fintype.card (Str 16) = N := by rw [Cpoly.card_str, hN]; norm_num
  have hbad : (Finset.univ.filter fun ct : Str pt.length => ¬ ∃ l, Partners q v ct.1 l).card ≤ v * N ^ q := by
    have := most_partners q v hv
    rw [← hl, Nat.card_eq_fintype_card, Fintype.card_subtype, pow_mul, ← hN] at this
    exact this
  have hgood : N ^ (q + 1) ≤ (Finset.univ.filter fun ct : Str pt.length => ∃ l, Partners q v ct.1 l).card + v * N ^ q := by
    rw [← hS, ← Finset.card_univ, ← Finset.card_filter_add_card_filter_not (fun ct : Str pt.length => ∃ l, Partners q v ct.1 l)]
    exact Nat.add_le_add_left hbad _
  set G := Finset.univ.filter fun ct : Str pt.length => ∃ l, Partners q v ct.1 l with hG
  let t0 : Str pt.length × Str 16 := (⟨pt, rfl⟩, ⟨List.replicate 16 0, by simp⟩)
  obtain ⟨X, hX⟩ : ∃ X, X = cnt (Says ν [] pt t0.1.1 t0.2.1) := ⟨_, rfl⟩
  have hXT : N ^ (q + 1) * N * X = Nat.card Table := by
    rw [← same t0, Fintype.card_prod, hS, hT, hX]
  have hXs : ∀ t : Str pt.length × Str 16, cnt (Says ν [] pt t.1.1 t.2.1) = X := by
    intro t
    have := (same t).trans (same t0).symm
    rw [hX]
    exact Nat.eq_of_mul_eq_mul_left (by rw [Fintype.card_prod, hS, hT]; positivity) this
  have hsum : G.card * N * (q * v * X) ≤ 2 ^ 106 * cnt P := by
    rw [Cpoly.cnt_says ν P [] pt, Finset.mul_sum, ← hT, ← Finset.card_univ, ← Finset.card_product]
    calc (G ×ˢ (Finset.univ : Finset (Str 16))).card * (q * v * X) = ∑ t ∈ G ×ˢ (Finset.univ : Finset (Str 16)), q * v * X := by
          rw [Finset.sum_const, smul_eq_mul]
      _ ≤ ∑ t ∈ G ×ˢ (Finset.univ : Finset (Str 16)), 2 ^ 106 * cnt fun f => P f ∧ Says ν [] pt t.1.1 t.2.1 f := by
          refine Finset.sum_le_sum fun t ht => ?_
          rw [← hXs t]
          exact one t (Finset.mem_filter.mp (Finset.mem_product.mp ht).1).2
      _ ≤ _ := Finset.sum_le_sum_of_subset (Finset.subset_univ _)
  rw [← hN]
  have hfin : (N - v) * (N ^ (q + 1) * N) ≤ N * (G.card * N) := by
    have h1 : (N - v) * N ^ (q + 1) ≤ N * G.card := by
      rw [Nat.sub_mul, Nat.sub_le_iff_le_add]
      calc N * N ^ (q + 1) ≤ N * (G.card + v * N ^ q) := Nat.mul_le_mul_left _ hgood
        _ = N * G.card + v * N ^ (q + 1) := by rw [pow_succ]; ring
    calc (N - v) * (N ^ (q + 1) * N) = ((N - v) * N ^ (q + 1)) * N := by ring
      _ ≤ (N * G.card) * N := Nat.mul_le_mul_right _ h1
      _ = N * (G.card * N) := by ring
  calc q * v * (N - v) * Nat.card Table = (N - v) * (N ^ (q + 1) * N) * (q * v * X) := by rw [← hXT]; ring
    _ ≤ N * (G.card * N) * (q * v * X) := Nat.mul_le_mul_right _ hfin
    _ = N * (G.card * N * (q * v * X)) := by ring
    _ ≤ N * (2 ^ 106 * cnt P) := Nat.mul_le_mul_left _ hsum
-- A ciphertext of 2^20 blocks, 16 megabytes, and a million attempts: believed for about one in 2^66 functions.
example := C197_forger ⟨List.replicate 32 1, [1, 2, 3, 4]⟩ (List.replicate 8 6) (by simp) (by simp) (2 ^ 20) (2 ^ 20) (by norm_num)
  (by norm_num)

end Cryptopy
