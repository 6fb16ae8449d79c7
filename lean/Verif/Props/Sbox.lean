import Mathlib.Order.Bounds.Basic
import Verif.Lemmas.PackedWalsh
import Verif.Model.Sboxes

/-!
Non-linearity of substitution tables (C94).
-/

namespace Cryptopy.Props
open Model Spec

theorem mapM_ok {α β : Type} (f : α → Py β) (g : α → β) (l : List α) (h : ∀ c ∈ l, f c = .ok (g c)) :
    l.mapM f = .ok (l.map g) := by
  induction l with
  | nil => rfl
  | cons a l ih =>
    rw [List.mapM_cons, h a List.mem_cons_self, ih fun c hc => h c (List.mem_cons_of_mem _ hc)]; rfl

theorem foldl_min_q (l : List Nat) : ∀ v : Nat,
    (l.map fun x : Nat => (x : ℚ)).foldl min (v : ℚ) = ((l.foldl min v : Nat) : ℚ) := by
  induction l with
  | nil => intro v; rfl
  | cons a l ih => intro v; rw [List.map_cons, List.foldl_cons, ← Nat.cast_min, ih]; rfl

theorem foldl_max_q (l : List Nat) : ∀ v : Nat,
    (l.map fun x : Nat => (x : ℚ)).foldl max (v : ℚ) = ((l.foldl max v : Nat) : ℚ) := by
  induction l with
  | nil => intro v; rfl
  | cons a l ih => intro v; rw [List.map_cons, List.foldl_cons, ← Nat.cast_max, ih]; rfl

/-- The distance to the affine functions of a component function of a table. -/
noncomputable def component (n : Nat) (sbox : List Nat) (S : Finset Nat) : Nat :=
  nonlin n fun x => linear S (sbox.getD x 0)

theorem component_eq (n : Nat) (sbox : List Nat) (hl : sbox.length = 2 ^ n) (c : Nat) (hc : c < 2 ^ n) :
    nonlin n (ofTable (sbox.map (binaryInnerProduct c))) = component n sbox (bits n c) := by
  have h : ∀ x < 2 ^ n, ofTable (sbox.map (binaryInnerProduct c)) x = linear (bits n c) (sbox.getD x 0) := by
    intro x hx
    rw [ofTable, List.getD_eq_getElem _ _ (by rw [List.length_map]; omega), List.getElem_map,
      ← List.getD_eq_getElem _ 0 (by omega)]
    have := bip_linear n c (sbox.getD x 0) (lt_of_le_of_lt Nat.and_le_left hc)
    cases h2 : linear (bits n c) (sbox.getD x 0)
    · rw [h2] at this; exact decide_eq_false (by rw [this]; decide)
    · rw [h2] at this; exact decide_eq_true (by rw [this])
  rw [component, nonlin, nonlin]
  congr 1
  ext d
  have h2 : ∀ g : Nat → Bool, distance n (ofTable (sbox.map (binaryInnerProduct c))) g =
      distance n (fun x => linear (bits n c) (sbox.getD x 0)) g := by
    intro g
    rw [distance, distance]
    congr 1
    exact Finset.filter_congr fun x hx => by rw [h x (Finset.mem_range.mp hx)]
  simp only [h2]

/-- The non-empty sets of output bits are the non-zero masks. -/
theorem masks (n : Nat) (S : Finset Nat) :
    (S ⊆ Finset.range n ∧ S.Nonempty) ↔ ∃ c, 1 ≤ c ∧ c < 2 ^ n ∧ S = bits n c := by
  constructor
  · rintro ⟨hS, hne⟩
    have hb : bits n (Nat.ofBits fun i : Fin n => decide (i.val ∈ S)) = S := by
      ext i
      rw [bits, Finset.mem_filter, Finset.mem_range]
      constructor
      · rintro ⟨hi, h⟩
        rw [Nat.testBit_ofBits_lt _ _ hi] at h
        exact of_decide_eq_true h
      · intro h
        have hi := Finset.mem_range.mp (hS h)
        exact ⟨hi, by rw [Nat.testBit_ofBits_lt _ _ hi]; exact decide_eq_true h⟩
    refine ⟨_, ?_, Nat.ofBits_lt_two_pow _, hb.symm⟩
    by_contra h0
    have h0 : Nat.ofBits (fun i : Fin n => decide (i.val ∈ S)) = 0 := by omega
    rw [h0, bits] at hb
    obtain ⟨i, hi⟩ := hne
    rw [← hb] at hi
    simp at hi
  · rintro ⟨c, hc1, hc2, rfl⟩
    refine ⟨Finset.filter_subset _ _, ?_⟩
    obtain ⟨i, hi⟩ := Nat.exists_testBit_of_ne_zero (show c ≠ 0 by omega)
    refine ⟨i, ?_⟩
    rw [bits, Finset.mem_filter, Finset.mem_range]
    refine ⟨?_, hi⟩
    by_contra hge
    rw [Nat.testBit_lt_two_pow (lt_of_lt_of_le hc2 (Nat.pow_le_pow_right (by omega) (by omega)))] at hi
    cases hi

/-- C94: for every table of `2^n` entries, `n ≥ 1`, the result is the least and the greatest distance to
the affine functions among the exclusive ors of non-empty sets of output bits. -/
theorem C94_sbox (n : Nat) (hn : 1 ≤ n) (sbox : List Nat) (hl : sbox.length = 2 ^ n) :
    ∃ lo hi : Nat, sboxNonlinearity sbox = .ok ((lo : ℚ), (hi : ℚ)) ∧
      IsLeast {d | ∃ S ⊆ Finset.range n, S.Nonempty ∧ d = component n sbox S} lo ∧
      IsGreatest {d | ∃ S ⊆ Finset.range n, S.Nonempty ∧ d = component n sbox S} hi := by
  have hset : ∀ d, (∃ S ⊆ Finset.range n, S.Nonempty ∧ d = component n sbox S) ↔
      d ∈ (List.range (2 ^ n - 1)).map fun c => nonlin n (ofTable (sbox.map (binaryInnerProduct (c + 1)))) := by
    intro d
    rw [List.mem_map]
    constructor
    · rintro ⟨S, h1, h2, rfl⟩
      obtain ⟨c, c1, c2, rfl⟩ := (masks n S).mp ⟨h1, h2⟩
      refine ⟨c - 1, List.mem_range.mpr (by omega), ?_⟩
      rw [show c - 1 + 1 = c by omega, component_eq n sbox hl c c2]
    · rintro ⟨c, hc, rfl⟩
      have hc := List.mem_range.mp hc
      obtain ⟨h1, h2⟩ := (masks n (bits n (c + 1))).mpr ⟨c + 1, by omega, by omega, rfl⟩
      exact ⟨_, h1, h2, component_eq n sbox hl (c + 1) (by omega)⟩
  set L := (List.range (2 ^ n - 1)).map fun c => nonlin n (ofTable (sbox.map (binaryInnerProduct (c + 1)))) with hL
  have hm : (List.range (2 ^ n - 1)).mapM (fun c => nonLinearity (sbox.map (binaryInnerProduct (c + 1)))) =
      .ok (L.map fun x : Nat => (x : ℚ)) := by
    rw [mapM_ok _ (fun c => (nonlin n (ofTable (sbox.map (binaryInnerProduct (c + 1)))) : ℚ)), hL, List.map_map]
    · rfl
    · intro c _
      refine C89_nonlinearity n _ (by rw [List.length_map, hl]) ?_ hn
      intro v hv
      obtain ⟨u, -, rfl⟩ := List.mem_map.mp hv
      exact bip_lt _ _
  have hlen : L.length = 2 ^ n - 1 := by rw [hL, List.length_map, List.length_range]
  have hpos : 2 ≤ 2 ^ n := by
    calc 2 = 2 ^ 1 := rfl
      _ ≤ 2 ^ n := Nat.pow_le_pow_right (by omega) hn
  clear_value L
  match hLe : L with
  | [] => rw [List.length_nil] at hlen; omega
  | v :: vs =>
    have habs : ((v :: vs).map fun x : Nat => (x : ℚ)).map abs = (v : ℚ) :: vs.map fun x : Nat => (x : ℚ) := by
      rw [List.map_map, List.map_cons]
      have : ∀ x : Nat, (abs ∘ fun x : Nat => (x : ℚ)) x = x := fun x => abs_of_nonneg (Nat.cast_nonneg x)
      rw [this]
      congr 1
      exact List.map_congr_left fun x _ => this x
    refine ⟨vs.foldl min v, vs.foldl max v, ?_, ?_, ?_⟩
    · rw [sboxNonlinearity, hl, log2n_two_pow]
      change ((List.range (2 ^ n - 1)).mapM (fun c => nonLinearity (sbox.map (binaryInnerProduct (c + 1)))) >>= _) = _
      rw [hm]
      change (match ((v :: vs).map fun x : Nat => (x : ℚ)).map abs with
        | [] => (.error .value : Py (ℚ × ℚ))
        | w :: ws => .ok (ws.foldl min w, ws.foldl max w)) = _
      rw [habs]
      change Except.ok _ = _
      rw [foldl_min_q, foldl_max_q]
    · obtain ⟨h1, h2, h3⟩ := foldl_min_spec id vs v
      refine ⟨(hset _).mpr ?_, ?_⟩
      · rcases h3 with h3 | ⟨u, hu, h3⟩
        · exact List.mem_cons.mpr (Or.inl h3)
        · exact List.mem_cons_of_mem _ (by change vs.foldl min v = u at h3; rw [h3]; exact hu)
      · intro d hd
        rcases List.mem_cons.mp ((hset d).mp hd) with rfl | hd
        · exact h2
        · exact h1 d hd
    · obtain ⟨h1, h2, h3⟩ := foldl_max_spec vs v
      refine ⟨(hset _).mpr ?_, ?_⟩
      · rcases h3 with h3 | h3
        · exact List.mem_cons.mpr (Or.inl h3)
        · exact List.mem_cons_of_mem _ h3
      · intro d hd
        rcases List.mem_cons.mp ((hset d).mp hd) with rfl | hd
        · exact h2
        · exact h1 d hd
example := C94_sbox 2 (by decide) [2, 0, 3, 1] rfl

/-- C94: a table of one entry is a `ValueError`. -/
theorem C94_one (v : Nat) : sboxNonlinearity [v] = .error .value := by
  rw [sboxNonlinearity]
  rw [show (([v].length : Nat) : Int) = ((2 ^ 0 : Nat) : Int) from rfl, log2n_two_pow]
  rfl

/-- C94: other lengths are an `AssertionError`. -/
theorem C94_length (sbox : List Nat) (h : ¬ ∃ n, sbox.length = 2 ^ n) :
    sboxNonlinearity sbox = .error .assertion := by
  rw [sboxNonlinearity, log2n_not]
  · rfl
  · rintro ⟨n, hn⟩
    exact h ⟨n, by exact_mod_cast hn⟩
example := C94_length [1, 0, 2] (by rintro ⟨n, hn⟩; rcases n with _ | _ | n <;> simp [pow_succ] at hn; omega)

/-! ### The tables -/

theorem fold_le (n : Nat) (t : List Nat) (hl : t.length = 2 ^ n) (ht : ∀ v ∈ t, v < 2) (w h : Nat)
    (hw : w < 2 ^ n) (hd : (dtr n t).getD w 0 ≤ h ∨ 2 ^ n ≤ (dtr n t).getD w 0 + h) : nonlin n (ofTable t) ≤ h := by
  obtain ⟨-, h1⟩ := dtr_spec n t hl ht
  rw [h1 w hw, ← distance_sum n t ht] at hd
  have b1 : nonlin n (ofTable t) ≤ distance n (ofTable t) (affine (bits n w) false) := Nat.sInf_le ⟨_, _, rfl⟩
  have b2 : nonlin n (ofTable t) ≤ distance n (ofTable t) (affine (bits n w) true) := Nat.sInf_le ⟨_, _, rfl⟩
  obtain ⟨a1, a2⟩ := distance_affine n (ofTable t) (bits n w)
  omega

theorem le_fold (n : Nat) (t : List Nat) (hl : t.length = 2 ^ n) (ht : ∀ v ∈ t, v < 2) (h : Nat)
    (hd : ∀ w < 2 ^ n, h ≤ (dtr n t).getD w 0 ∧ (dtr n t).getD w 0 + h ≤ 2 ^ n) : h ≤ nonlin n (ofTable t) := by
  obtain ⟨-, h1⟩ := dtr_spec n t hl ht
  have hne : {d | ∃ S c, d = distance n (ofTable t) (affine S c)}.Nonempty := ⟨_, ∅, false, rfl⟩
  obtain ⟨S, c, hS⟩ := Nat.sInf_mem hne
  have hS : nonlin n (ofTable t) = distance n (ofTable t) (affine S c) := hS
  rw [hS]
  obtain ⟨w, hw, he⟩ := exists_mask n S
  obtain ⟨a1, a2⟩ := distance_affine n (ofTable t) S
  have := hd w hw
  rw [h1 w hw, ← distance_sum n t ht, ← distance_congr (f := ofTable t) he] at this
  cases c <;> omega

/-- The certificate gives the result. -/
theorem nlCheck_spec (n : Nat) (hn : 1 ≤ n) (hn' : n < 16) (sbox : List Nat) (hl : sbox.length = 2 ^ n)
    (lo hi c0 w0 c1 : Nat) (wit : List Nat) (hw0 : w0 < 2 ^ n) (hc0 : 1 ≤ c0 ∧ c0 < 2 ^ n)
    (hc1 : 1 ≤ c1 ∧ c1 < 2 ^ n) (hwit : ∀ w ∈ wit, w < 2 ^ n) (h : nlCheck n sbox lo hi c0 w0 c1 wit = true) :
    sboxNonlinearity sbox = .ok ((lo : ℚ), (hi : ℚ)) := by
  obtain ⟨plen, hp⟩ := packed_spec n hn' sbox hl
  have hb : ∀ c, ∀ v ∈ sbox.map (binaryInnerProduct c), v < 2 := by
    intro c v hv
    obtain ⟨u, -, rfl⟩ := List.mem_map.mp hv
    exact bip_lt _ _
  have htl : ∀ c, (sbox.map (binaryInnerProduct c)).length = 2 ^ n := fun c => by rw [List.length_map, hl]
  have hmem : ∀ w < 2 ^ n, (packed n sbox).getD w 0 ∈ packed n sbox := by
    intro w hw
    rw [List.getD_eq_getElem _ _ (by omega)]
    exact List.getElem_mem _
  simp only [nlCheck, Bool.and_eq_true, Bool.or_eq_true, List.all_eq_true, Nat.ble_eq, List.mem_range] at h
  obtain ⟨⟨⟨h1, h2⟩, h3⟩, h4⟩ := h
  obtain ⟨lo', hi', hr, hlo, hhi⟩ := C94_sbox n hn sbox hl
  have hcomp : ∀ c, 1 ≤ c → c < 2 ^ n → ∃ S ⊆ Finset.range n, S.Nonempty ∧
      nonlin n (ofTable (sbox.map (binaryInnerProduct c))) = component n sbox S := by
    intro c c1 c2
    obtain ⟨s1, s2⟩ := (masks n (bits n c)).mpr ⟨c, c1, c2, rfl⟩
    exact ⟨_, s1, s2, component_eq n sbox hl c c2⟩
  have hall : ∀ S ⊆ Finset.range n, S.Nonempty → lo ≤ component n sbox S ∧ component n sbox S ≤ hi := by
    intro S s1 s2
    obtain ⟨c, c1, c2, rfl⟩ := (masks n S).mp ⟨s1, s2⟩
    rw [← component_eq n sbox hl c c2]
    constructor
    · refine le_fold n _ (htl c) (hb c) lo fun w hw => ?_
      rw [← (hp w hw c c2).1]
      have := allLanes_spec _ _ _ (h1 _ (hmem w hw)) (c - 1) (by omega)
      rw [Bool.and_eq_true, Nat.ble_eq, Nat.ble_eq, lane, Nat.div_div_eq_div_mul, ← pow_succ',
        show c - 1 + 1 = c by omega] at this
      exact this
    · have hwl : wit.getD (c - 1) 0 < 2 ^ n := by
        by_cases hi : c - 1 < wit.length
        · rw [List.getD_eq_getElem _ _ hi]; exact hwit _ (List.getElem_mem _)
        · rw [List.getD_eq_default _ _ (by omega)]; positivity
      refine fold_le n _ (htl c) (hb c) _ hi hwl ?_
      rw [← (hp _ hwl c c2).1]
      have := h3 (c - 1) (by omega)
      rw [show c - 1 + 1 = c by omega] at this
      exact this
  have e1 : lo' = lo := by
    obtain ⟨⟨S, s1, s2, s3⟩, hle⟩ := hlo
    obtain ⟨T, t1, t2, t3⟩ := hcomp c0 hc0.1 hc0.2
    apply le_antisymm
    · refine le_trans (hle ⟨T, t1, t2, rfl⟩) ?_
      rw [← t3]
      refine fold_le n _ (htl c0) (hb c0) w0 lo hw0 ?_
      rw [← (hp w0 hw0 c0 hc0.2).1]
      exact h2
    · rw [s3]; exact (hall S s1 s2).1
  have e2 : hi' = hi := by
    obtain ⟨⟨S, s1, s2, s3⟩, hle⟩ := hhi
    obtain ⟨T, t1, t2, t3⟩ := hcomp c1 hc1.1 hc1.2
    apply le_antisymm
    · rw [s3]; exact (hall S s1 s2).2
    · refine le_trans ?_ (hle ⟨T, t1, t2, rfl⟩)
      rw [← t3]
      refine le_fold n _ (htl c1) (hb c1) hi fun w hw => ?_
      rw [← (hp w hw c1 hc1.2).1]
      exact h4 _ (hmem w hw)
  rw [hr, e1, e2]

set_option maxRecDepth 100000

/-- For each mask of `aesSbox` a nearest linear function. -/
def aesWitness : List Nat :=
  [45, 77, 79, 106, 58, 106, 18, 53, 14, 30, 15, 111, 7, 9, 5, 34, 39, 7, 39, 27, 48, 37, 23, 78, 6, 3,
    47, 4, 22, 18, 105, 4, 39, 19, 23, 3, 23, 30, 48, 58, 17, 102, 63, 30, 26, 85, 31, 39, 14, 23, 16,
    23, 8, 90, 56, 2, 56, 33, 29, 4, 82, 52, 16, 2, 15, 9, 28, 3, 29, 102, 21, 1, 124, 51, 46, 9, 11,
    38, 67, 1, 26, 8, 47, 76, 63, 16, 25, 74, 74, 68, 10, 42, 8, 55, 65, 3, 21, 7, 24, 19, 16, 10, 5, 5,
    16, 101, 11, 83, 18, 34, 7, 7, 112, 73, 18, 6, 66, 50, 103, 2, 32, 3, 75, 86, 57, 34, 24, 57, 52,
    19, 13, 50, 31, 14, 34, 1, 24, 38, 46, 13, 57, 10, 2, 1, 68, 62, 47, 30, 4, 49, 63, 9, 26, 17, 55,
    76, 59, 11, 62, 38, 56, 59, 6, 99, 55, 22, 27, 53, 89, 31, 50, 29, 25, 43, 115, 37, 58, 30, 10, 26,
    4, 5, 12, 21, 5, 6, 15, 63, 20, 114, 52, 1, 27, 63, 46, 19, 55, 12, 43, 76, 20, 28, 127, 53, 32,
    113, 2, 101, 33, 29, 11, 66, 10, 28, 6, 96, 21, 9, 78, 45, 31, 41, 52, 32, 52, 80, 49, 36, 26, 19,
    22, 67, 29, 65, 13, 25, 49, 64, 62, 80, 15, 31, 45, 59, 11, 69, 124, 43, 34, 15, 55, 17, 87, 12, 21]

theorem aes_check : nlCheck 8 aesSbox 112 112 1 45 1 aesWitness = true := by decide +kernel

/-- C94: the AES table has non-linearity between 112 and 112. -/
theorem C94_aes : sboxNonlinearity aesSbox = .ok (112, 112) :=
  nlCheck_spec 8 (by norm_num) (by norm_num) aesSbox (by decide) 112 112 1 45 1 aesWitness (by norm_num)
    (by norm_num) (by norm_num) (by decide) aes_check

/-- For each mask of `sms4Sbox` a nearest linear function. -/
def sms4Witness : List Nat :=
  [38, 116, 39, 57, 93, 12, 2, 43, 49, 63, 27, 6, 82, 1, 41, 26, 35, 2, 3, 86, 2, 56, 8, 80, 18, 41,
    119, 10, 68, 100, 1, 21, 118, 59, 58, 1, 22, 28, 3, 45, 25, 1, 82, 19, 33, 38, 24, 40, 59, 16, 13,
    3, 1, 37, 98, 26, 96, 87, 30, 4, 15, 74, 37, 32, 16, 34, 14, 78, 64, 29, 19, 8, 97, 11, 21, 31, 10,
    69, 23, 69, 5, 20, 34, 24, 62, 29, 58, 116, 4, 57, 37, 53, 30, 12, 83, 52, 66, 51, 13, 37, 18, 30,
    6, 30, 9, 80, 6, 118, 37, 55, 28, 5, 89, 9, 11, 14, 63, 17, 35, 27, 31, 84, 24, 36, 44, 7, 23, 68,
    13, 96, 51, 17, 54, 7, 43, 70, 11, 58, 5, 62, 76, 47, 2, 49, 23, 43, 17, 6, 41, 7, 115, 19, 49, 2,
    87, 4, 68, 14, 33, 4, 64, 24, 62, 39, 47, 20, 9, 28, 52, 10, 40, 33, 8, 29, 20, 11, 57, 13, 12, 19,
    12, 115, 53, 21, 22, 66, 96, 9, 52, 45, 46, 26, 59, 49, 16, 3, 50, 15, 28, 27, 98, 47, 49, 25, 39,
    39, 44, 42, 13, 94, 21, 40, 9, 46, 102, 114, 24, 5, 25, 22, 14, 23, 19, 18, 28, 100, 3, 40, 8, 94,
    10, 7, 53, 14, 12, 51, 65, 23, 65, 56, 112, 8, 21, 20, 56, 38, 84, 7, 4, 11, 5, 44, 20, 88, 6]

theorem sms4_check : nlCheck 8 sms4Sbox 112 112 1 38 1 sms4Witness = true := by decide +kernel

/-- C94: the SMS4 table has non-linearity between 112 and 112. -/
theorem C94_sms4 : sboxNonlinearity sms4Sbox = .ok (112, 112) :=
  nlCheck_spec 8 (by norm_num) (by norm_num) sms4Sbox (by decide) 112 112 1 38 1 sms4Witness (by norm_num)
    (by norm_num) (by norm_num) (by decide) sms4_check

/-- For each mask of `streebogSbox` a nearest linear function. -/
def streebogWitness : List Nat :=
  [75, 85, 185, 123, 175, 183, 111, 196, 238, 140, 90, 250, 197, 190, 101, 200, 61, 246, 79, 77, 126,
    25, 17, 23, 47, 217, 109, 76, 54, 177, 70, 37, 159, 35, 66, 27, 50, 150, 77, 25, 81, 152, 34, 107,
    237, 233, 76, 54, 122, 50, 187, 199, 107, 199, 109, 52, 145, 153, 233, 185, 17, 87, 61, 67, 239,
    238, 68, 187, 51, 202, 85, 91, 217, 63, 17, 47, 107, 127, 55, 53, 189, 45, 102, 173, 33, 59, 219,
    86, 89, 105, 140, 27, 67, 186, 66, 92, 26, 246, 41, 105, 203, 181, 19, 36, 76, 152, 33, 74, 87, 27,
    179, 133, 34, 105, 236, 154, 141, 204, 108, 159, 119, 133, 169, 141, 185, 145, 151, 95, 86, 68, 36,
    13, 38, 229, 93, 25, 247, 38, 119, 21, 182, 132, 165, 251, 18, 202, 73, 214, 110, 172, 159, 169, 19,
    221, 252, 70, 77, 101, 51, 19, 186, 27, 117, 33, 158, 100, 163, 19, 34, 34, 79, 58, 181, 200, 75,
    178, 153, 70, 254, 26, 70, 137, 50, 51, 9, 87, 77, 216, 69, 123, 75, 102, 151, 178, 157, 35, 149,
    169, 152, 106, 119, 54, 239, 89, 59, 109, 214, 183, 119, 153, 153, 33, 93, 175, 203, 150, 70, 223,
    234, 98, 150, 139, 54, 180, 72, 215, 87, 218, 145, 154, 191, 174, 190, 171, 140, 100, 149, 44, 100,
    236, 25, 247, 197, 70, 157, 118, 157, 245, 181, 187, 35, 35, 68, 246, 247]

theorem streebog_check : nlCheck 8 streebogSbox 102 110 5 175 13 streebogWitness = true := by decide +kernel

/-- C94: the table the file calls Streebog (it is the one of BelT) has non-linearity between 102 and 110. -/
theorem C94_streebog : sboxNonlinearity streebogSbox = .ok (102, 110) :=
  nlCheck_spec 8 (by norm_num) (by norm_num) streebogSbox (by decide) 102 110 5 175 13 streebogWitness (by norm_num)
    (by norm_num) (by norm_num) (by decide) streebog_check

/-- For each mask of `piSbox` a nearest linear function. -/
def piWitness : List Nat :=
  [26, 94, 197, 235, 14, 198, 207, 4, 55, 36, 74, 108, 171, 215, 110, 151, 35, 5, 76, 130, 37, 84, 2,
    168, 43, 33, 112, 246, 49, 5, 51, 7, 22, 130, 2, 64, 11, 35, 85, 60, 171, 45, 129, 157, 218, 232,
    90, 148, 1, 232, 223, 69, 45, 251, 21, 35, 234, 16, 44, 57, 13, 194, 168, 100, 244, 29, 113, 22,
    158, 72, 3, 229, 176, 87, 13, 122, 183, 187, 5, 106, 68, 24, 38, 17, 72, 228, 79, 94, 84, 22, 9, 13,
    86, 10, 88, 1, 155, 237, 55, 13, 254, 9, 102, 198, 62, 65, 188, 249, 250, 83, 69, 7, 155, 220, 183,
    220, 20, 2, 216, 217, 132, 7, 152, 42, 135, 12, 104, 58, 126, 16, 246, 13, 80, 181, 26, 58, 26, 5,
    209, 216, 2, 7, 59, 7, 63, 35, 204, 192, 147, 17, 222, 139, 52, 159, 45, 98, 188, 190, 230, 34, 20,
    186, 167, 47, 55, 49, 76, 190, 141, 13, 135, 3, 97, 74, 223, 4, 40, 107, 116, 116, 10, 43, 56, 49,
    242, 196, 45, 179, 28, 229, 105, 5, 212, 247, 98, 117, 229, 12, 200, 39, 206, 37, 181, 8, 29, 1,
    122, 103, 124, 106, 191, 2, 156, 111, 142, 78, 46, 84, 180, 158, 46, 61, 3, 248, 91, 4, 45, 143, 75,
    227, 235, 69, 247, 70, 183, 249, 20, 6, 60, 158, 31, 97, 55, 11, 154, 235, 15, 54, 87, 21, 179, 35,
    5, 40, 85]

theorem pi_check : nlCheck 8 piSbox 100 116 15 110 26 piWitness = true := by decide +kernel

/-- C94: the table `pi` of GOST R 34.11-2012 has non-linearity between 100 and 116. -/
theorem C94_pi : sboxNonlinearity piSbox = .ok (100, 116) :=
  nlCheck_spec 8 (by norm_num) (by norm_num) piSbox (by decide) 100 116 15 110 26 piWitness (by norm_num)
    (by norm_num) (by norm_num) (by decide) pi_check

end Cryptopy.Props
