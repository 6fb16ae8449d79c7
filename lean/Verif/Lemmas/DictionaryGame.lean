import Verif.Lemmas.Dictionary

/-!
Keys of `pbkdf2` over a table of pseudorandom functions: without a question for the last value of a chain, the key is as
good as a random one.
-/

namespace Cryptopy.Dict
open Spec (Str Asker xorBytes pbU pbT beBytes)
open Prf (cnt cnt_split cnt_mono cnt_congr cnt_exists cnt_true cnt_false cnt_le cnt_or card_resample)
open Chain (Table Short ask)
open Function

variable {n d : ℕ} (hd : d ≤ n) (c b : ℕ)

section
variable (s : ℕ → Short n) (p : Pw)

theorem index_lt {i j : ℕ} (hi : i < b) (hj : j < c) : i * c + j ≤ b * c - 1 := by
  have : (i + 1) * c ≤ b * c := Nat.mul_le_mul_right c hi
  rw [Nat.succ_mul] at this
  omega

theorem pl_at (F : Big n d) {i j : ℕ} (hj : j < c) : pl hd c s p F (i * c + j) = Chain.pt hd (s i) (sl F p) j := by
  have h1 : (i * c + j) % c = j := by rw [Nat.mul_add_mod_self_right, Nat.mod_eq_of_lt hj]
  have h2 : (i * c + j) / c = i := by
    rw [Nat.add_comm, Nat.add_mul_div_right _ _ (by omega), Nat.div_eq_of_lt hj, Nat.zero_add]
  rw [pl, h1, h2]

theorem index_ne {i j m : ℕ} (hm : m < c - 1) : i * c + m ≠ j * c + (c - 1) := by
  intro e
  have h1 : (i * c + m) % c = m := by rw [Nat.mul_add_mod_self_right, Nat.mod_eq_of_lt (by omega)]
  have h2 : (j * c + (c - 1)) % c = c - 1 := by rw [Nat.mul_add_mod_self_right, Nat.mod_eq_of_lt (by omega)]
  rw [e, h2] at h1
  omega

theorem Dis.ne {F : Big n d} {k x y : ℕ} (h : Dis hd c b s p k F) (hx : x ≤ k) (hy : y ≤ k) (hne : x ≠ y) :
    pl hd c s p F x ≠ pl hd c s p F y := by
  rcases Nat.lt_or_gt_of_ne hne with h1 | h1
  · exact h.1 x y h1 hy
  · exact (h.1 y x h1 hx).symm

open Classical in
theorem last_update (hc : 0 < c) {F : Big n d} (hD : Dis hd c b s p (b * c - 1) F) {j : ℕ} (hj : j < b) (y : Str d)
    (a : ℕ) (ha : a ≤ b * c - 1) : pl hd c s p (update F (p, last hd c s p j F) y) a = pl hd c s p F a := by
  induction a with
  | zero => rw [pl_start _ _ _ _ _ 0 (Nat.zero_mod c), pl_start _ _ _ _ _ 0 (Nat.zero_mod c)]
  | succ a ih =>
    by_cases h0 : (a + 1) % c = 0
    · rw [pl_start _ _ _ _ _ _ h0, pl_start _ _ _ _ _ _ h0]
    · refine Subtype.ext ?_
      rw [pl_succ hd c s p _ _ h0, pl_succ hd c s p _ _ h0, ih (by omega), update_of_ne]
      intro e
      refine hD.ne hd c b s p (by omega) (index_lt c b hj (Nat.sub_lt hc Nat.one_pos)) ?_ (Prod.mk.inj e).2
      rintro rfl
      refine h0 ?_
      rw [show j * c + (c - 1) + 1 = j * c + c by omega, ← Nat.succ_mul, Nat.mul_mod_left]

open Classical in
theorem dis_last (hc : 0 < c) {F : Big n d} (hD : Dis hd c b s p (b * c - 1) F) {j : ℕ} (hj : j < b) (y : Str d) :
    Dis hd c b s p (b * c - 1) (update F (p, last hd c s p j F) y) := by
  refine ⟨fun a e h1 h2 => ?_, fun a ha h0 i hi => ?_⟩
  · rw [last_update hd c b s p hc hD hj y a (by omega), last_update hd c b s p hc hD hj y e h2]
    exact hD.1 a e h1 h2
  · rw [last_update hd c b s p hc hD hj y a ha]
    exact hD.2 a ha h0 i hi

end

/-- The chains of one salt, one for each block. -/
abbrev one (salt : Bytes) : ℕ → Bytes × ℕ := fun i => (salt, i + 1)

variable (σ : ℕ → Bytes × ℕ) (hs : ∀ i, (σ i).1.length + 4 ≤ n) (p : Pw)

/-- Where the chains begin. -/
def start (i : ℕ) : Short n := ⟨(σ i).1 ++ beBytes 4 (σ i).2, by rw [List.length_append, length_beBytes]; exact hs i⟩

theorem start_inj (salt : Bytes) (hs : salt.length + 4 ≤ n) (hb : b < 2 ^ 32) (i : ℕ) (hi : i < b) (j : ℕ) (hj : j < b)
    (h : start (one salt) (fun _ => hs) i = start (one salt) (fun _ => hs) j) : i = j := by
  have := HmacGame.beBytes_inj (i + 1) (j + 1) (by omega) (by omega) (List.append_cancel_left (congrArg Subtype.val h))
  omega

/-- A block of the key. -/
def blk (F : Big n d) (i : ℕ) : Bytes := pbT (ask (sl F p)) (σ i).1 (σ i).2 (c - 1)

theorem length_blk (F : Big n d) (i : ℕ) : (blk c σ p F i).length = d := length_pbT _ _ (Chain.length_ask _) _ _ _

/-- A block without its last summand. -/
def rest (F : Big n d) (i : ℕ) : Bytes :=
  if c - 1 = 0 then List.replicate d 0 else pbT (ask (sl F p)) (σ i).1 (σ i).2 (c - 2)

theorem length_rest (F : Big n d) (i : ℕ) : (rest c σ p F i).length = d := by
  rw [rest]
  split
  · simp
  · exact length_pbT _ _ (Chain.length_ask _) _ _ _

theorem pbU_pl (F : Big n d) (i m : ℕ) (hm : m < c) :
    pbU (ask (sl F p)) (σ i).1 (σ i).2 m = (F (p, pl hd c (start σ hs) p F (i * c + m))).1 := by
  rw [pl_at hd c _ p F hm]
  exact Chain.pbU_eq hd (σ i).1 (σ i).2 (start σ hs i).2 (sl F p) m

theorem blk_eq (hc : 0 < c) (F : Big n d) (i : ℕ) :
    blk c σ p F i = xorBytes (rest c σ p F i) (F (p, last hd c (start σ hs) p i F)).1 := by
  rw [blk, rest, last, ← pbU_pl hd c σ hs p F i (c - 1) (by omega)]
  split
  · next h => rw [h, pbT, pbU, Prf.xorBytes_zeros _ _ (Chain.length_ask _ _)]
  · next h => rw [show c - 1 = c - 2 + 1 by omega, pbT]

open Classical in
theorem rest_update (hc : 0 < c) {F : Big n d} (hD : Dis hd c b (start σ hs) p (b * c - 1) F) {j : ℕ} (hj : j < b)
    (y : Str d) {i : ℕ} (hi : i < b) :
    rest c σ p (update F (p, last hd c (start σ hs) p j F) y) i = rest c σ p F i := by
  have e : ∀ m < c - 1, pbU (ask (sl (update F (p, last hd c (start σ hs) p j F) y) p)) (σ i).1 (σ i).2 m =
      pbU (ask (sl F p)) (σ i).1 (σ i).2 m := fun m hm => by
    have hle := index_lt c b hi (show m < c by omega)
    rw [pbU_pl hd c σ hs p _ i m (by omega), pbU_pl hd c σ hs p _ i m (by omega),
      last_update hd c b _ p hc hD hj y _ hle, update_of_ne]
    intro h
    exact hD.ne hd c b _ p hle (index_lt c b hj (Nat.sub_lt hc Nat.one_pos)) (index_ne c hm) (Prod.mk.inj h).2
  have e2 : ∀ m < c - 1, pbT (ask (sl (update F (p, last hd c (start σ hs) p j F) y) p)) (σ i).1 (σ i).2 m =
      pbT (ask (sl F p)) (σ i).1 (σ i).2 m := by
    intro m
    induction m with
    | zero =>
      intro hm
      rw [pbT, pbT, e 0 hm]
    | succ m ih =>
      intro hm
      rw [pbT, pbT, ih (by omega), e _ hm]
  rw [rest, rest]
  split
  · rfl
  · exact e2 _ (by omega)

theorem xor_solve (x y t : Bytes) (hx : x.length = d) (hy : y.length = d) (ht : t.length = d) :
    xorBytes x y = t ↔ y = xorBytes x t := by
  constructor
  · rintro rfl
    rw [xorBytes_comm x, xorBytes_comm x, xorBytes_self_right y x (by omega)]
  · rintro rfl
    rw [xorBytes_comm x, xorBytes_comm x, xorBytes_self_right t x (by omega)]

/-- Given blocks come out with the chance of random ones, together with what does not depend on the last values. -/
theorem resample (hc : 0 < c) (P : Big n d → Prop) (hP : ∀ F, P F → Dis hd c b (start σ hs) p (b * c - 1) F)
    (hu : ∀ F, P F → ∀ j < b, ∀ y G, (∀ v, v ≠ (p, last hd c (start σ hs) p j F) → G v = F v) →
      G (p, last hd c (start σ hs) p j F) = y → P G)
    (t : ℕ → Bytes) (ht : ∀ i < b, (t i).length = d) (m : ℕ) (hm : m ≤ b) :
    Fintype.card (Str d) ^ m * cnt (fun F : Big n d => P F ∧ ∀ i < m, blk c σ p F i = t i) = cnt P := by
  classical
  induction m with
  | zero =>
    rw [Nat.pow_zero, Nat.one_mul]
    exact cnt_congr fun F => ⟨fun h => h.1, fun h => ⟨h, fun i hi => by omega⟩⟩
  | succ m ih =>
    have ih := ih (by omega)
    have h := card_resample (fun F : Big n d => P F ∧ ∀ i < m, blk c σ p F i = t i)
      (fun F => (p, last hd c (start σ hs) p m F)) (fun F => Chain.val d (xorBytes (rest c σ p F m) (t m)))
      fun F hF y => by
        have hD := hP F hF.1
        refine ⟨⟨?_, fun i hi => ?_⟩, ?_, ?_⟩
        · exact hu F hF.1 m (by omega) y _ (fun v hv => update_of_ne hv _ _) (update_self _ _ _)
        · rw [← hF.2 i hi, blk_eq hd c σ hs p hc, blk_eq hd c σ hs p hc,
            rest_update hd c b σ hs p hc hD (by omega) y (by omega)]
          have el : last hd c (start σ hs) p i (update F (p, last hd c (start σ hs) p m F) y) =
              last hd c (start σ hs) p i F :=
            last_update hd c b _ p hc hD (by omega) y _ (index_lt c b (by omega) (Nat.sub_lt hc Nat.one_pos))
          rw [el, update_of_ne]
          · intro e
            refine hD.ne hd c b _ p (index_lt c b (show i < b by omega) (Nat.sub_lt hc Nat.one_pos))
              (index_lt c b (show m < b by omega) (Nat.sub_lt hc Nat.one_pos)) ?_ (Prod.mk.inj e).2
            intro e
            have := Nat.eq_of_mul_eq_mul_right hc (Nat.add_right_cancel e)
            omega
        · exact congrArg (Prod.mk p)
            (last_update hd c b _ p hc hD (by omega) y _ (index_lt c b (by omega) (Nat.sub_lt hc Nat.one_pos)))
        · rw [rest_update hd c b σ hs p hc hD (by omega) y (by omega)]
    rw [← ih, ← h, Nat.pow_succ, Nat.mul_assoc]
    refine congrArg _ (congrArg _ (cnt_congr fun F => ?_))
    have key : blk c σ p F m = t m ↔
        F (p, last hd c (start σ hs) p m F) = Chain.val d (xorBytes (rest c σ p F m) (t m)) := by
      have hl : (xorBytes (rest c σ p F m) (t m)).length = d := by
        rw [length_xorBytes, length_rest, ht m (by omega), Nat.min_self]
      rw [blk_eq hd c σ hs p hc, xor_solve _ _ _ (length_rest c σ p F m) (F _).2 (ht m (by omega)), Chain.val, dif_pos hl,
        Subtype.ext_iff]
    rw [← key]
    constructor
    · rintro ⟨h1, h2⟩
      exact ⟨⟨h1, fun i hi => h2 i (by omega)⟩, h2 m (by omega)⟩
    · rintro ⟨⟨h1, h2⟩, h3⟩
      refine ⟨h1, fun i hi => ?_⟩
      rcases Nat.lt_or_ge i m with h | h
      · exact h2 i h
      · obtain rfl : i = m := by omega
        exact h3

/-- Octets `i d` to `(i + 1) d`. -/
def piece (d : ℕ) (t : Bytes) (i : ℕ) : Bytes := (t.drop (i * d)).take d

theorem pieces (g : ℕ → Bytes) (hg : ∀ i, (g i).length = d) (b : ℕ) :
    ∀ t : Bytes, t.length = b * d → ((List.range b).flatMap g = t ↔ ∀ i < b, g i = piece d t i) := by
  have hlen : ∀ b, ((List.range b).flatMap g).length = b * d := by
    intro b
    induction b with
    | zero => simp
    | succ b ih => rw [List.range_succ, List.flatMap_append, List.length_append, ih, List.flatMap_singleton, hg, Nat.succ_mul]
  induction b with
  | zero =>
    intro t ht
    rw [Nat.zero_mul] at ht
    rw [List.length_eq_zero_iff.mp ht]
    simp
  | succ b ih =>
    intro t ht
    rw [Nat.succ_mul] at ht
    have h1 := ih (t.take (b * d)) (by rw [List.length_take]; omega)
    have hp : ∀ i < b, piece d (t.take (b * d)) i = piece d t i := fun i hi => by
      have : (i + 1) * d ≤ b * d := Nat.mul_le_mul_right d hi
      rw [Nat.succ_mul] at this
      rw [piece, piece, List.drop_take, List.take_take, Nat.min_eq_left (by omega)]
    have hl : piece d t b = t.drop (b * d) := List.take_of_length_le (by rw [List.length_drop]; omega)
    rw [List.range_succ, List.flatMap_append, List.flatMap_singleton]
    constructor
    · intro e i hi
      have h2 : (List.range b).flatMap g = t.take (b * d) := by rw [← e, List.take_left' (hlen b)]
      rcases Nat.lt_or_ge i b with h | h
      · rw [h1.mp h2 i h, hp i h]
      · obtain rfl : i = b := by omega
        rw [hl, ← e, List.drop_left' (hlen i)]
    · intro h
      rw [h1.mpr fun i hi => by rw [hp i hi, h i (by omega)], h b (by omega), hl, List.take_append_drop]

/-- All blocks. -/
def full (F : Big n d) : Str (b * d) := ⟨(List.range b).flatMap (blk c σ p F), by
  rw [List.length_flatMap, List.map_congr_left (g := fun _ => d) fun i _ => length_blk c σ p F i]
  simp⟩

theorem card_pow : Fintype.card (Str (b * d)) = Fintype.card (Str d) ^ b := by
  rw [Cpoly.card_str, Cpoly.card_str, ← Nat.pow_mul, Nat.mul_comm]

theorem exact_sum (hc : 0 < c) (P : Str (b * d) → Big n d → Prop)
    (hP : ∀ t F, P t F → Dis hd c b (start σ hs) p (b * c - 1) F)
    (hu : ∀ t F, P t F → ∀ j < b, ∀ y G, (∀ v, v ≠ (p, last hd c (start σ hs) p j F) → G v = F v) →
      G (p, last hd c (start σ hs) p j F) = y → P t G) :
    Fintype.card (Str d) ^ b * cnt (fun F : Big n d => P (full c b σ p F) F) = ∑ t, cnt (P t) := by
  rw [cnt_split _ (full c b σ p), Finset.mul_sum]
  refine Finset.sum_congr rfl fun t _ => ?_
  rw [← resample hd c b σ hs p hc (P t) (hP t) (hu t) (piece d t.1) (fun i hi => ?_) b le_rfl]
  · refine congrArg _ (cnt_congr fun F => ?_)
    have h := pieces (d := d) (blk c σ p F) (length_blk c σ p F) b t.1 t.2
    constructor
    · rintro ⟨h1, h2⟩
      exact ⟨h2 ▸ h1, h.mp (congrArg Subtype.val h2)⟩
    · rintro ⟨h1, h2⟩
      have h3 : full c b σ p F = t := Subtype.ext (h.mpr h2)
      exact ⟨h3 ▸ h1, h3⟩
  · have : (i + 1) * d ≤ b * d := Nat.mul_le_mul_right d hi
    rw [Nat.succ_mul] at this
    rw [piece, List.length_take, List.length_drop, t.2]
    omega

variable {R : Type} (D : Bytes → Asker (Bytes × Bytes) Bytes R)

/-- No last value is asked for. -/
def Good (t : Str (b * d)) (F : Big n d) : Prop :=
  Dis hd c b (start σ hs) p (b * c - 1) F ∧ ¬ Asks hd c b (start σ hs) p (D t.1) F

theorem good_update (hc : 0 < c) (t : Str (b * d)) (F : Big n d) (h : Good hd c b σ hs p D t F) (j : ℕ) (hj : j < b) (y : Str d)
    (G : Big n d) (hG : ∀ v, v ≠ (p, last hd c (start σ hs) p j F) → G v = F v)
    (hy : G (p, last hd c (start σ hs) p j F) = y) :
    Good hd c b σ hs p D t G ∧ (D t.1).run (look G) = (D t.1).run (look F) := by
  classical
  obtain rfl : G = update F (p, last hd c (start σ hs) p j F) y := by
    funext v
    by_cases hv : v = (p, last hd c (start σ hs) p j F)
    · rw [hv, hy, update_self]
    · rw [hG v hv, update_of_ne hv]
  have e := Chain.agree (D t.1) (look F) (look (update F (p, last hd c (start σ hs) p j F) y)) fun v hv =>
    (look_update F p _ y v fun hv' => h.2 ⟨j, hj, hv' ▸ hv⟩).symm
  refine ⟨⟨dis_last hd c b _ p hc h.1 hj y, ?_⟩, e.2⟩
  rintro ⟨i, hi, hmem⟩
  rw [e.1, last, last_update hd c b _ p hc h.1 hj y _ (index_lt c b hi (Nat.sub_lt hc Nat.one_pos))] at hmem
  exact h.2 ⟨i, hi, hmem⟩

theorem cnt_not {X : Type} [Fintype X] (P : X → Prop) : cnt P + cnt (fun x => ¬ P x) = Fintype.card X := by
  classical
  rw [Prf.cnt_eq, Prf.cnt_eq, Finset.card_filter_add_card_filter_not, Finset.card_univ]

/-- The real key and a random key. -/
theorem real_ideal (hc : 0 < c) (A : R → Prop) :
    Fintype.card (Str d) ^ b * cnt (fun F : Big n d => A ((D (full c b σ p F).1).run (look F))) ≤
        ∑ t : Str (b * d), cnt (fun F : Big n d => A ((D t.1).run (look F))) +
          ∑ t, cnt (fun F : Big n d => ¬ Good hd c b σ hs p D t F) ∧
      ∑ t : Str (b * d), cnt (fun F : Big n d => A ((D t.1).run (look F))) ≤
        Fintype.card (Str d) ^ b * cnt (fun F : Big n d => A ((D (full c b σ p F).1).run (look F))) +
          ∑ t, cnt (fun F : Big n d => ¬ Good hd c b σ hs p D t F) := by
  have h1 := exact_sum hd c b σ hs p hc (Good hd c b σ hs p D) (fun t F h => h.1)
    fun t F h j hj y G hG hy => (good_update hd c b σ hs p D hc t F h j hj y G hG hy).1
  have h2 := exact_sum hd c b σ hs p hc (fun t F => Good hd c b σ hs p D t F ∧ A ((D t.1).run (look F)))
    (fun t F h => h.1.1) fun t F h j hj y G hG hy => by
      have := good_update hd c b σ hs p D hc t F h.1 j hj y G hG hy
      exact ⟨this.1, by rw [this.2]; exact h.2⟩
  have h3 := cnt_not (fun F : Big n d => Good hd c b σ hs p D (full c b σ p F) F)
  have h4 : ∑ t, cnt (fun F : Big n d => Good hd c b σ hs p D t F) + ∑ t, cnt (fun F : Big n d => ¬ Good hd c b σ hs p D t F) =
      Fintype.card (Str d) ^ b * Fintype.card (Big n d) := by
    rw [← Finset.sum_add_distrib, Finset.sum_congr rfl fun t _ => cnt_not (fun F : Big n d => Good hd c b σ hs p D t F),
      Finset.sum_const, Finset.card_univ, card_pow, smul_eq_mul]
  have h5 : Fintype.card (Str d) ^ b * cnt (fun F : Big n d => ¬ Good hd c b σ hs p D (full c b σ p F) F) =
      ∑ t, cnt (fun F : Big n d => ¬ Good hd c b σ hs p D t F) := by
    have h6 : Fintype.card (Str d) ^ b * cnt (fun F : Big n d => Good hd c b σ hs p D (full c b σ p F) F) +
        Fintype.card (Str d) ^ b * cnt (fun F : Big n d => ¬ Good hd c b σ hs p D (full c b σ p F) F) =
        Fintype.card (Str d) ^ b * Fintype.card (Big n d) := by rw [← Nat.mul_add, h3]
    rw [h1] at h6
    exact Nat.add_left_cancel (h6.trans h4.symm)
  constructor
  · have e : cnt (fun F : Big n d => A ((D (full c b σ p F).1).run (look F))) ≤
        cnt (fun F : Big n d => Good hd c b σ hs p D (full c b σ p F) F ∧ A ((D (full c b σ p F).1).run (look F))) +
          cnt (fun F : Big n d => ¬ Good hd c b σ hs p D (full c b σ p F) F) :=
      (cnt_mono fun F h => by
        by_cases hg : Good hd c b σ hs p D (full c b σ p F) F
        · exact Or.inl ⟨hg, h⟩
        · exact Or.inr hg).trans (cnt_or _ _)
    refine (Nat.mul_le_mul_left _ e).trans ?_
    rw [Nat.mul_add, h2, h5]
    exact Nat.add_le_add_right (Finset.sum_le_sum fun t _ => cnt_mono fun F h => h.2) _
  · refine (Finset.sum_le_sum (g := fun t => cnt (fun F : Big n d => Good hd c b σ hs p D t F ∧ A ((D t.1).run (look F))) +
      cnt (fun F : Big n d => ¬ Good hd c b σ hs p D t F)) fun t _ => (cnt_mono fun F h => by
        by_cases hg : Good hd c b σ hs p D t F
        · exact Or.inl ⟨hg, h⟩
        · exact Or.inr hg).trans (cnt_or _ _)).trans ?_
    rw [Finset.sum_add_distrib, ← h2]
    exact Nat.add_le_add_right (Nat.mul_le_mul_left _ (cnt_mono fun F h => h.2)) _

/-- How often a last value is asked for, over all passwords of a dictionary. -/
theorem sum_not_good (hc : 0 < c) (hb : 0 < b)
    (hb' : ∀ i < b, ∀ j < b, start σ hs i = start σ hs j → i = j) (q : ℕ) (hq : ∀ t, (D t).CostLe (fun _ => 1) (fun _ => 0) q)
    (G : Finset Pw) (t : Str (b * d)) :
    (∑ p ∈ G, (cnt (fun F : Big n d => ¬ Good hd c b σ hs p D t F) : ℚ)) ≤
      (G.card * (((b * c - 1 : ℕ) * (b * c) / 2 + (b * c - 1 : ℕ) * b + b * c * q) / Fintype.card (Str d)) + q / c) *
        Fintype.card (Big n d) := by
  classical
  have hN := HmacGame.card_pos d
  have hc0 : (0 : ℚ) < c := by exact_mod_cast hc
  have h1 : ∀ p, (cnt (fun F : Big n d => ¬ Good hd c b σ hs p D t F) : ℚ) ≤
      ((b * c - 1 : ℕ) * (b * c) / 2 + (b * c - 1 : ℕ) * b + b * c * q) / Fintype.card (Str d) * Fintype.card (Big n d) +
        cnt (fun F : Big n d => c ≤ times p (D t.1) F) := by
    intro p
    have e1 := not_dis (d := d) hd c b (start σ hs) p hc hb' (b * c - 1)
      (Nat.sub_lt (Nat.mul_pos hb hc) Nat.one_pos)
    have e2 := cnt_asks (d := d) hd c b (start σ hs) p (D t.1) hc q (hq _)
    have e3 : cnt (fun F : Big n d => ¬ Good hd c b σ hs p D t F) ≤
        cnt (fun F : Big n d => ¬ Dis hd c b (start σ hs) p (b * c - 1) F) +
          (cnt (fun F : Big n d => Dis hd c b (start σ hs) p (b * c - 1) F ∧
            Asks hd c b (start σ hs) p (D t.1) F ∧ times p (D t.1) F < c) +
          cnt (fun F : Big n d => c ≤ times p (D t.1) F)) := by
      refine le_trans ?_ (Nat.add_le_add_left (cnt_or _ _) _)
      refine le_trans (cnt_mono fun F hF => ?_) (cnt_or _ _)
      by_cases hD : Dis hd c b (start σ hs) p (b * c - 1) F
      · right
        have hA : Asks hd c b (start σ hs) p (D t.1) F := by
          by_contra hA
          exact hF ⟨hD, hA⟩
        rcases Nat.lt_or_ge (times p (D t.1) F) c with h | h
        · exact Or.inl ⟨hD, hA, h⟩
        · exact Or.inr h
      · exact Or.inl hD
    have hM : b * c - 1 + 1 = b * c := Nat.sub_add_cancel (Nat.mul_pos hb hc)
    rw [hM] at e1
    have e1' : (Fintype.card (Str d) : ℚ) * cnt (fun F : Big n d => ¬ Dis hd c b (start σ hs) p (b * c - 1) F) ≤
        ((b * c - 1 : ℕ) * (b * c) / 2 + (b * c - 1 : ℕ) * b) * Fintype.card (Big n d) := by
      have e1 := Nat.cast_le (α := ℚ).mpr e1
      rw [Nat.cast_mul, Nat.cast_mul, Nat.cast_add, Nat.cast_mul _ b] at e1
      refine e1.trans ?_
      refine mul_le_mul_of_nonneg_right ?_ (Nat.cast_nonneg _)
      have := Nat.cast_le (α := ℚ).mpr (Nat.div_mul_le_self ((b * c - 1) * (b * c)) 2)
      rw [Nat.cast_mul, Nat.cast_mul (b * c - 1), Nat.cast_mul b, Nat.cast_ofNat] at this
      linarith
    have e2' : (Fintype.card (Str d) : ℚ) * cnt (fun F : Big n d => Dis hd c b (start σ hs) p (b * c - 1) F ∧
            Asks hd c b (start σ hs) p (D t.1) F ∧ times p (D t.1) F < c) ≤ b * c * q * Fintype.card (Big n d) := by
      exact_mod_cast e2
    have e3' : (cnt (fun F : Big n d => ¬ Good hd c b σ hs p D t F) : ℚ) ≤ _ := Nat.cast_le.mpr e3
    push_cast at e3'
    refine e3'.trans ?_
    rw [div_mul_eq_mul_div, ← add_assoc]
    refine add_le_add_left ?_ _
    rw [le_div_iff₀ hN]
    linarith
  refine (Finset.sum_le_sum fun p _ => h1 p).trans ?_
  rw [Finset.sum_add_distrib, Finset.sum_const, nsmul_eq_mul, add_mul, ← mul_assoc (G.card : ℚ)]
  refine add_le_add_right ?_ _
  have h2 : ∑ p ∈ G, cnt (fun F : Big n d => c ≤ times p (D t.1) F) =
      ∑ F : Big n d, (G.filter fun p => c ≤ times p (D t.1) F).card := by
    simp only [Prf.cnt_eq, Finset.card_filter]
    rw [Finset.sum_comm]
    exact Finset.sum_congr rfl fun _ _ => Finset.sum_congr rfl fun _ _ => by congr
  have h3 : c * ∑ p ∈ G, cnt (fun F : Big n d => c ≤ times p (D t.1) F) ≤ q * Fintype.card (Big n d) := by
    rw [h2, Finset.mul_sum]
    refine (Finset.sum_le_sum fun F _ => ?_).trans (le_of_eq (by
      rw [Finset.sum_const, Finset.card_univ, smul_eq_mul, Nat.mul_comm]) : ∑ F : Big n d, q ≤ _)
    convert often c (D t.1) G q (hq _) F
  rw [div_mul_eq_mul_div, le_div_iff₀ hc0, mul_comm]
  exact_mod_cast h3

end Cryptopy.Dict
