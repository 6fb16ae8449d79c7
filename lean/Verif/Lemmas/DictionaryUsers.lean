import Verif.Lemmas.DictionaryGame

/-!
The game of `Lemmas/Dictionary` and `Lemmas/DictionaryGame` with a password for each chain.
-/

namespace Cryptopy.Users
open Spec (Str Asker xorBytes pbU pbT beBytes)
open Prf (cnt cnt_split cnt_mono cnt_congr cnt_exists cnt_true cnt_false cnt_le cnt_or card_resample)
open Chain (Table Short ask)
open Dict (Pw Big sl look look_update index_lt index_ne div_mod_succ xor_solve pieces piece card_pow cnt_not)
open Function

/-- A place of the tables as a question. -/
def raw {n : ℕ} (v : Pw × Short n) : Bytes × Bytes := (v.1.1, v.2.1)

theorem raw_inj {n : ℕ} {v w : Pw × Short n} (h : raw v = raw w) : v = w := by
  obtain ⟨h1, h2⟩ := Prod.mk.inj h
  exact Prod.ext (Subtype.ext h1) (Subtype.ext h2)

variable {n d : ℕ} (hd : d ≤ n) (c b : ℕ)

section
variable (s : ℕ → Short n) (p : ℕ → Pw)

/-- The places of all chains, one chain after the other. -/
def pl (F : Big n d) (k : ℕ) : Pw × Short n := (p (k / c), Chain.pt hd (s (k / c)) (sl F (p (k / c))) (k % c))

theorem pl_start (F : Big n d) (k : ℕ) (h : k % c = 0) : pl hd c s p F k = (p (k / c), s (k / c)) := by
  rw [pl, h, Chain.pt]

theorem pl_succ (F : Big n d) (k : ℕ) (h : (k + 1) % c ≠ 0) :
    (pl hd c s p F (k + 1)).1 = (pl hd c s p F k).1 ∧ (pl hd c s p F (k + 1)).2.1 = (F (pl hd c s p F k)).1 := by
  obtain ⟨h1, h2⟩ := div_mod_succ h
  rw [pl, h1, h2, Chain.pt]
  exact ⟨rfl, rfl⟩

/-- The places are different up to `k`, and no chain runs into a place where one begins. -/
def Dis (k : ℕ) (F : Big n d) : Prop :=
  (∀ a e, a < e → e ≤ k → pl hd c s p F a ≠ pl hd c s p F e) ∧
    ∀ a ≤ k, a % c ≠ 0 → ∀ i < b, pl hd c s p F a ≠ (p i, s i)

theorem Dis.mono {k k' : ℕ} {F : Big n d} (h : Dis hd c b s p k F) (hk : k' ≤ k) : Dis hd c b s p k' F :=
  ⟨fun a e h1 h2 => h.1 a e h1 (h2.trans hk), fun a ha => h.2 a (ha.trans hk)⟩

theorem Dis.ne {F : Big n d} {k x y : ℕ} (h : Dis hd c b s p k F) (hx : x ≤ k) (hy : y ≤ k) (hne : x ≠ y) :
    pl hd c s p F x ≠ pl hd c s p F y := by
  rcases Nat.lt_or_gt_of_ne hne with h1 | h1
  · exact h.1 x y h1 hy
  · exact (h.1 y x h1 hx).symm

/-- Places that do not change when the value at one of them does. -/
theorem pl_change {k : ℕ} {F G : Big n d} (hG : ∀ a, a + 1 ≤ k → (a + 1) % c ≠ 0 → G (pl hd c s p F a) = F (pl hd c s p F a))
    (a : ℕ) (ha : a ≤ k) : pl hd c s p G a = pl hd c s p F a := by
  induction a with
  | zero => rw [pl_start _ _ _ _ _ 0 (Nat.zero_mod c), pl_start _ _ _ _ _ 0 (Nat.zero_mod c)]
  | succ a ih =>
    by_cases h0 : (a + 1) % c = 0
    · rw [pl_start _ _ _ _ _ _ h0, pl_start _ _ _ _ _ _ h0]
    · obtain ⟨e1, e2⟩ := pl_succ hd c s p G a h0
      obtain ⟨e3, e4⟩ := pl_succ hd c s p F a h0
      rw [ih (by omega)] at e1 e2
      rw [hG a ha h0] at e2
      exact Prod.ext (e1.trans e3.symm) (Subtype.ext (e2.trans e4.symm))

theorem dis_change {k : ℕ} {F G : Big n d} (h : Dis hd c b s p k F) (hG : ∀ a ≤ k, pl hd c s p G a = pl hd c s p F a) :
    Dis hd c b s p k G := by
  refine ⟨fun a e h1 h2 => ?_, fun a ha h0 i hi => ?_⟩
  · rw [hG a (by omega), hG e h2]
    exact h.1 a e h1 h2
  · rw [hG a ha]
    exact h.2 a ha h0 i hi

open Classical in
theorem pl_update {k : ℕ} {F : Big n d} (h : Dis hd c b s p k F) (y : Str d) (a : ℕ) (ha : a ≤ k) :
    pl hd c s p (update F (pl hd c s p F k) y) a = pl hd c s p F a :=
  pl_change hd c s p (fun a ha _ => update_of_ne (h.1 a k (by omega) le_rfl) _ _) a ha

/-- The next place is a given one with small chance. -/
theorem collide (k : ℕ) (h0 : (k + 1) % c ≠ 0) (x : Big n d → Pw × Short n)
    (hx : ∀ F, Dis hd c b s p k F → ∀ G : Big n d,
      (∀ a ≤ k, pl hd c s p G a = pl hd c s p F a) → x G = x F) :
    Fintype.card (Str d) * cnt (fun F : Big n d => Dis hd c b s p k F ∧ pl hd c s p F (k + 1) = x F) ≤
      Fintype.card (Big n d) := by
  classical
  have h := card_resample (Dis hd c b s p k) (fun F => pl hd c s p F k) (fun F => Chain.val d (x F).2.1) fun F hF y =>
    ⟨dis_change hd c b s p hF (pl_update hd c b s p hF y), pl_update hd c b s p hF y k le_rfl, by
      rw [hx F hF _ fun a ha => pl_update hd c b s p hF y a ha]⟩
  refine le_trans (Nat.mul_le_mul_left _ (cnt_mono ?_)) (h.le.trans (cnt_le _))
  rintro F ⟨h1, h2⟩
  refine ⟨h1, ?_⟩
  rw [← h2, (pl_succ hd c s p F k h0).2]
  exact (Chain.val_eq _).symm

theorem not_dis (hc : 0 < c) (hs : ∀ i < b, ∀ j < b, (p i, s i) = (p j, s j) → i = j) (k : ℕ) (hk : k < b * c) :
    Fintype.card (Str d) * cnt (fun F : Big n d => ¬ Dis hd c b s p k F) ≤
      (k * (k + 1) / 2 + k * b) * Fintype.card (Big n d) := by
  induction k with
  | zero =>
    rw [cnt_false]
    · simp
    · intro F h
      refine h ⟨fun a e h1 h2 => by omega, fun a ha h0 => ?_⟩
      obtain rfl : a = 0 := by omega
      exact absurd (Nat.zero_mod c) h0
  | succ k ih =>
    have ih := ih (by omega)
    by_cases h0 : (k + 1) % c = 0
    · refine (Nat.mul_le_mul_left _ (cnt_mono fun F hF hD => hF ⟨fun a e h1 h2 => ?_, fun a ha h1 => ?_⟩)).trans (ih.trans ?_)
      · refine Nat.mul_le_mul_right _ (Nat.add_le_add (Nat.div_le_div_right (Nat.mul_le_mul (by omega) (by omega)))
          (Nat.mul_le_mul_right _ (by omega)))
      · rcases Nat.lt_or_ge e (k + 1) with he | he
        · exact hD.1 a e h1 (by omega)
        · obtain rfl : e = k + 1 := by omega
          have hdiv : (k + 1) / c < b := (Nat.div_lt_iff_lt_mul hc).mpr hk
          rw [pl_start _ _ _ _ F _ h0]
          by_cases ha : a % c = 0
          · rw [pl_start _ _ _ _ F _ ha]
            have hle : a / c ≤ (k + 1) / c := Nat.div_le_div_right (by omega)
            intro e
            have := hs _ (by omega) _ hdiv e
            have e1 := Nat.mod_add_div a c
            have e2 := Nat.mod_add_div (k + 1) c
            rw [this, ha] at e1
            rw [h0] at e2
            omega
          · exact hD.2 a (by omega) ha _ hdiv
      · rcases Nat.lt_or_ge a (k + 1) with he | he
        · exact hD.2 a (by omega) h1
        · obtain rfl : a = k + 1 := by omega
          exact absurd h0 h1
    · have h1 : cnt (fun F : Big n d => ¬ Dis hd c b s p (k + 1) F) ≤ cnt (fun F : Big n d => ¬ Dis hd c b s p k F) +
          (∑ a ∈ Finset.range (k + 1), cnt (fun F : Big n d => Dis hd c b s p k F ∧ pl hd c s p F (k + 1) = pl hd c s p F a) +
            ∑ i ∈ Finset.range b, cnt (fun F : Big n d => Dis hd c b s p k F ∧ pl hd c s p F (k + 1) = (p i, s i))) := by
        refine le_trans ?_ (Nat.add_le_add_left (Nat.add_le_add (cnt_exists _ _) (cnt_exists _ _)) _)
        refine le_trans ?_ (Nat.add_le_add_left (cnt_or _ _) _)
        refine le_trans (cnt_mono fun F hF => ?_) (cnt_or _ _)
        by_cases hD : Dis hd c b s p k F
        · right
          by_contra hcon
          push Not at hcon
          refine hF ⟨fun a e h1 h2 => ?_, fun a ha h1 i hi => ?_⟩
          · rcases Nat.lt_or_ge e (k + 1) with he | he
            · exact hD.1 a e h1 (by omega)
            · obtain rfl : e = k + 1 := by omega
              exact fun e => hcon.1 a (Finset.mem_range.mpr h1) hD e.symm
          · rcases Nat.lt_or_ge a (k + 1) with he | he
            · exact hD.2 a (by omega) h1 i hi
            · obtain rfl : a = k + 1 := by omega
              exact hcon.2 i (Finset.mem_range.mpr hi) hD
        · exact Or.inl hD
      refine (Nat.mul_le_mul_left _ h1).trans ?_
      rw [Nat.mul_add, Nat.mul_add, Finset.mul_sum, Finset.mul_sum]
      refine (Nat.add_le_add ih (Nat.add_le_add (Finset.sum_le_sum fun a ha => collide hd c b s p k h0 (fun F => pl hd c s p F a)
        fun F _ G hG => hG a (by have := Finset.mem_range.mp ha; omega)) (Finset.sum_le_sum fun i _ =>
          collide hd c b s p k h0 (fun _ => (p i, s i)) fun _ _ _ _ => rfl))).trans ?_
      rw [Finset.sum_const, Finset.card_range, smul_eq_mul, Finset.sum_const, Finset.card_range, smul_eq_mul, ← Nat.add_mul,
        ← Nat.add_mul]
      refine Nat.mul_le_mul_right _ (le_of_eq ?_)
      have e1 : (k + 1) * (k + 1 + 1) = k * (k + 1) + 2 * (k + 1) := by ring
      have e2 : (k + 1) * b = k * b + b := by ring
      rw [e1, e2]
      omega

variable {R : Type} (D : Asker (Bytes × Bytes) Bytes R)

/-- The place has not been asked for. -/
def Skips (k : ℕ) (F : Big n d) : Prop := Dis hd c b s p k F ∧ raw (pl hd c s p F k) ∉ D.asked (look F)

/-- Nobody asks for the value at a place without asking for the place, except by chance. -/
theorem guess (k j : ℕ) :
    Fintype.card (Str d) * cnt (fun F : Big n d => Skips hd c b s p D k F ∧
        (D.asked (look F))[j]? = some ((pl hd c s p F k).1.1, (F (pl hd c s p F k)).1)) ≤ Fintype.card (Big n d) := by
  classical
  have h := card_resample (Skips hd c b s p D k) (fun F => pl hd c s p F k)
    (fun F => Chain.val d ((D.asked (look F))[j]?.getD ([], [])).2) fun F hF y => by
      have e := Chain.agree D (look F) (look (update F (pl hd c s p F k) y)) fun v hv =>
        (look_update F (pl hd c s p F k).1 (pl hd c s p F k).2 y v fun hv' => hF.2 (by rw [hv'] at hv; exact hv)).symm
      refine ⟨⟨dis_change hd c b s p hF.1 (pl_update hd c b s p hF.1 y), ?_⟩, pl_update hd c b s p hF.1 y k le_rfl, ?_⟩
      · rw [e.1, pl_update hd c b s p hF.1 y k le_rfl]
        exact hF.2
      · rw [e.1]
  refine le_trans (Nat.mul_le_mul_left _ (cnt_mono ?_)) (h.le.trans (cnt_le _))
  rintro F ⟨h1, h2⟩
  refine ⟨h1, ?_⟩
  rw [h2]
  exact (Chain.val_eq _).symm

/-- The last place of a chain. -/
def last (i : ℕ) (F : Big n d) : Pw × Short n := pl hd c s p F (i * c + (c - 1))

/-- The last place of some chain is asked for. -/
def Asks (F : Big n d) : Prop := ∃ i < b, raw (last hd c s p i F) ∈ D.asked (look F)

/-- All places of a chain are asked for. -/
def Whole (i : ℕ) (F : Big n d) : Prop := ∀ j < c, raw (pl hd c s p F (i * c + j)) ∈ D.asked (look F)

theorem asks (hc : 0 < c) (q : ℕ) (hq : D.CostLe (fun _ => 1) (fun _ => 0) q) (F : Big n d)
    (hD : Dis hd c b s p (b * c - 1) F) (hA : Asks hd c b s p D F) (ht : ∀ i < b, ¬ Whole hd c s p D i F) :
    ∃ k ∈ Finset.range (b * c), ∃ j ∈ Finset.range q, Skips hd c b s p D k F ∧
      (D.asked (look F))[j]? = some ((pl hd c s p F k).1.1, (F (pl hd c s p F k)).1) := by
  classical
  obtain ⟨i, hi, hlast⟩ := hA
  have hex : ∃ j, j < c ∧ raw (pl hd c s p F (i * c + j)) ∉ D.asked (look F) := by
    have := ht i hi
    rw [Whole] at this
    push Not at this
    exact this
  obtain ⟨j, hj, hn, hnext⟩ : ∃ j, j + 1 < c ∧ raw (pl hd c s p F (i * c + j)) ∉ D.asked (look F) ∧
      raw (pl hd c s p F (i * c + j + 1)) ∈ D.asked (look F) := by
    by_contra hall
    push Not at hall
    obtain ⟨j, hj, hn⟩ := hex
    have : ∀ k, j + k < c → raw (pl hd c s p F (i * c + (j + k))) ∉ D.asked (look F) := by
      intro k
      induction k with
      | zero => exact fun _ => hn
      | succ k ih => exact fun h => hall (j + k) (by omega) (ih (by omega))
    have := this (c - 1 - j) (by omega)
    rw [show j + (c - 1 - j) = c - 1 by omega] at this
    exact this hlast
  obtain ⟨m, hm, e⟩ := List.mem_iff_getElem.mp hnext
  have h4 := Chain.length_asked D q hq (look F)
  have hbound := index_lt c b hi (show j < c by omega)
  have hbound1 := index_lt c b hi hj
  refine ⟨i * c + j, Finset.mem_range.mpr (by omega), m,
    Finset.mem_range.mpr (by omega), ⟨hD.mono hd c b s p hbound, hn⟩, ?_⟩
  have hmod : (i * c + j + 1) % c ≠ 0 := by
    rw [Nat.add_assoc, Nat.mul_add_mod_self_right, Nat.mod_eq_of_lt hj]
    omega
  obtain ⟨e1, e2⟩ := pl_succ hd c s p F _ hmod
  rw [List.getElem?_eq_getElem hm, e, raw, e1, e2]

theorem cnt_asks (hc : 0 < c) (q : ℕ) (hq : D.CostLe (fun _ => 1) (fun _ => 0) q) :
    Fintype.card (Str d) * cnt (fun F : Big n d => Dis hd c b s p (b * c - 1) F ∧ Asks hd c b s p D F ∧
        ∀ i < b, ¬ Whole hd c s p D i F) ≤
      b * c * q * Fintype.card (Big n d) := by
  refine (Nat.mul_le_mul_left _ (cnt_mono fun F hF => asks hd c b s p D hc q hq F hF.1 hF.2.1 hF.2.2)).trans ?_
  refine (Nat.mul_le_mul_left _ ((cnt_exists _ _).trans (Finset.sum_le_sum fun k _ => cnt_exists _ _))).trans ?_
  rw [Finset.mul_sum]
  refine (Finset.sum_le_sum (g := fun _ => q * Fintype.card (Big n d)) fun k _ => ?_).trans (le_of_eq ?_)
  · rw [Finset.mul_sum]
    refine (Finset.sum_le_sum fun j _ => guess hd c b s p D k j).trans (le_of_eq ?_)
    rw [Finset.sum_const, Finset.card_range, smul_eq_mul]
  · rw [Finset.sum_const, Finset.card_range, smul_eq_mul]
    ring

theorem pl_at (F : Big n d) {i j : ℕ} (hj : j < c) :
    pl hd c s p F (i * c + j) = (p i, Chain.pt hd (s i) (sl F (p i)) j) := by
  have h1 : (i * c + j) % c = j := by rw [Nat.mul_add_mod_self_right, Nat.mod_eq_of_lt hj]
  have h2 : (i * c + j) / c = i := by
    rw [Nat.add_comm, Nat.add_mul_div_right _ _ (by omega), Nat.div_eq_of_lt hj, Nat.zero_add]
  rw [pl, h1, h2]

open Classical in
theorem last_update (hc : 0 < c) {F : Big n d} (hD : Dis hd c b s p (b * c - 1) F) {j : ℕ} (hj : j < b) (y : Str d)
    (a : ℕ) (ha : a ≤ b * c - 1) : pl hd c s p (update F (last hd c s p j F) y) a = pl hd c s p F a := by
  refine pl_change hd c s p (fun a ha h0 => update_of_ne ?_ _ _) a ha
  refine hD.ne hd c b s p (by omega) (index_lt c b hj (Nat.sub_lt hc Nat.one_pos)) ?_
  rintro rfl
  refine h0 ?_
  rw [show j * c + (c - 1) + 1 = j * c + c by omega, ← Nat.succ_mul, Nat.mul_mod_left]

open Classical in
theorem dis_last (hc : 0 < c) {F : Big n d} (hD : Dis hd c b s p (b * c - 1) F) {j : ℕ} (hj : j < b) (y : Str d) :
    Dis hd c b s p (b * c - 1) (update F (last hd c s p j F) y) :=
  dis_change hd c b s p hD (last_update hd c b s p hc hD hj y)

end

variable (σ : ℕ → Bytes × ℕ) (hs : ∀ i, (σ i).1.length + 4 ≤ n) (p : ℕ → Pw)

/-- Where the chains begin. -/
abbrev start (i : ℕ) : Short n := Dict.start σ hs i

/-- A block of a key. -/
def blk (F : Big n d) (i : ℕ) : Bytes := Dict.blk c σ (p i) F i

theorem length_blk (F : Big n d) (i : ℕ) : (blk c σ p F i).length = d := Dict.length_blk c σ (p i) F i

/-- A block without its last summand. -/
def rest (F : Big n d) (i : ℕ) : Bytes := Dict.rest c σ (p i) F i

theorem length_rest (F : Big n d) (i : ℕ) : (rest c σ p F i).length = d := Dict.length_rest c σ (p i) F i

theorem pbU_pl (F : Big n d) (i m : ℕ) (hm : m < c) :
    pbU (ask (sl F (p i))) (σ i).1 (σ i).2 m = (F (pl hd c (start σ hs) p F (i * c + m))).1 := by
  rw [pl_at hd c _ p F hm]
  exact Chain.pbU_eq hd (σ i).1 (σ i).2 (start σ hs i).2 (sl F (p i)) m

theorem blk_eq (hc : 0 < c) (F : Big n d) (i : ℕ) :
    blk c σ p F i = xorBytes (rest c σ p F i) (F (last hd c (start σ hs) p i F)).1 := by
  rw [blk, Dict.blk, rest, Dict.rest, last, ← pbU_pl hd c σ hs p F i (c - 1) (by omega)]
  split
  · next h => rw [h, pbT, pbU, Prf.xorBytes_zeros _ _ (Chain.length_ask _ _)]
  · next h => rw [show c - 1 = c - 2 + 1 by omega, pbT]

open Classical in
theorem rest_update (hc : 0 < c) {F : Big n d} (hD : Dis hd c b (start σ hs) p (b * c - 1) F) {j : ℕ} (hj : j < b)
    (y : Str d) {i : ℕ} (hi : i < b) :
    rest c σ p (update F (last hd c (start σ hs) p j F) y) i = rest c σ p F i := by
  have e : ∀ m < c - 1, pbU (ask (sl (update F (last hd c (start σ hs) p j F) y) (p i))) (σ i).1 (σ i).2 m =
      pbU (ask (sl F (p i))) (σ i).1 (σ i).2 m := fun m hm => by
    have hle := index_lt c b hi (show m < c by omega)
    rw [pbU_pl hd c σ hs p _ i m (by omega), pbU_pl hd c σ hs p _ i m (by omega),
      last_update hd c b _ p hc hD hj y _ hle, update_of_ne]
    exact hD.ne hd c b _ p hle (index_lt c b hj (Nat.sub_lt hc Nat.one_pos)) (index_ne c hm)
  have e2 : ∀ m < c - 1, pbT (ask (sl (update F (last hd c (start σ hs) p j F) y) (p i))) (σ i).1 (σ i).2 m =
      pbT (ask (sl F (p i))) (σ i).1 (σ i).2 m := by
    intro m
    induction m with
    | zero =>
      intro hm
      rw [pbT, pbT, e 0 hm]
    | succ m ih =>
      intro hm
      rw [pbT, pbT, ih (by omega), e _ hm]
  rw [rest, rest, Dict.rest, Dict.rest]
  split
  · rfl
  · exact e2 _ (by omega)

/-- Given blocks come out with the chance of random ones, together with what does not depend on the last values. -/
theorem resample (hc : 0 < c) (P : Big n d → Prop) (hP : ∀ F, P F → Dis hd c b (start σ hs) p (b * c - 1) F)
    (hu : ∀ F, P F → ∀ j < b, ∀ y G, (∀ v, v ≠ last hd c (start σ hs) p j F → G v = F v) →
      G (last hd c (start σ hs) p j F) = y → P G)
    (t : ℕ → Bytes) (ht : ∀ i < b, (t i).length = d) (m : ℕ) (hm : m ≤ b) :
    Fintype.card (Str d) ^ m * cnt (fun F : Big n d => P F ∧ ∀ i < m, blk c σ p F i = t i) = cnt P := by
  classical
  induction m with
  | zero =>
    rw [Nat.pow_zero, Nat.one_mul]
    exact cnt_congr fun F => ⟨fun h => h.1, fun h => ⟨h, fun i hi => by omega⟩⟩
  | succ m ih =>
    have ih := ih (by omega)
    have h := card_resample (fun F : Big n d => P F ∧ ∀ i < m, blk c σ p F i = t i)
      (fun F => last hd c (start σ hs) p m F) (fun F => Chain.val d (xorBytes (rest c σ p F m) (t m)))
      fun F hF y => by
        have hD := hP F hF.1
        refine ⟨⟨?_, fun i hi => ?_⟩, ?_, ?_⟩
        · exact hu F hF.1 m (by omega) y _ (fun v hv => update_of_ne hv _ _) (update_self _ _ _)
        · rw [← hF.2 i hi, blk_eq hd c σ hs p hc, blk_eq hd c σ hs p hc,
            rest_update hd c b σ hs p hc hD (by omega) y (by omega)]
          have el : last hd c (start σ hs) p i (update F (last hd c (start σ hs) p m F) y) =
              last hd c (start σ hs) p i F :=
            last_update hd c b _ p hc hD (by omega) y _ (index_lt c b (by omega) (Nat.sub_lt hc Nat.one_pos))
          rw [el, update_of_ne]
          refine hD.ne hd c b _ p (index_lt c b (show i < b by omega) (Nat.sub_lt hc Nat.one_pos))
            (index_lt c b (show m < b by omega) (Nat.sub_lt hc Nat.one_pos)) ?_
          intro e
          have := Nat.eq_of_mul_eq_mul_right hc (Nat.add_right_cancel e)
          omega
        · exact last_update hd c b _ p hc hD (by omega) y _ (index_lt c b (by omega) (Nat.sub_lt hc Nat.one_pos))
        · rw [rest_update hd c b σ hs p hc hD (by omega) y (by omega)]
    rw [← ih, ← h, Nat.pow_succ, Nat.mul_assoc]
    refine congrArg _ (congrArg _ (cnt_congr fun F => ?_))
    have key : blk c σ p F m = t m ↔
        F (last hd c (start σ hs) p m F) = Chain.val d (xorBytes (rest c σ p F m) (t m)) := by
      have hl : (xorBytes (rest c σ p F m) (t m)).length = d := by
        rw [length_xorBytes, length_rest, ht m (by omega), Nat.min_self]
      rw [blk_eq hd c σ hs p hc, xor_solve _ _ _ (length_rest c σ p F m) (F _).2 (ht m (by omega)), Chain.val, dif_pos hl,
        Subtype.ext_iff]
    rw [← key]
    constructor
    · rintro ⟨h1, h2⟩
      exact ⟨⟨h1, fun i hi => h2 i (by omega)⟩, h2 m (by omega)⟩
    · rintro ⟨⟨h1, h2⟩, h3⟩
      refine ⟨h1, fun i hi => ?_⟩
      rcases Nat.lt_or_ge i m with h | h
      · exact h2 i h
      · obtain rfl : i = m := by omega
        exact h3

/-- All blocks. -/
def full (F : Big n d) : Str (b * d) := ⟨(List.range b).flatMap (blk c σ p F), by
  rw [List.length_flatMap, List.map_congr_left (g := fun _ => d) fun i _ => length_blk c σ p F i]
  simp⟩

theorem exact_sum (hc : 0 < c) (P : Str (b * d) → Big n d → Prop)
    (hP : ∀ t F, P t F → Dis hd c b (start σ hs) p (b * c - 1) F)
    (hu : ∀ t F, P t F → ∀ j < b, ∀ y G, (∀ v, v ≠ last hd c (start σ hs) p j F → G v = F v) →
      G (last hd c (start σ hs) p j F) = y → P t G) :
    Fintype.card (Str d) ^ b * cnt (fun F : Big n d => P (full c b σ p F) F) = ∑ t, cnt (P t) := by
  rw [cnt_split _ (full c b σ p), Finset.mul_sum]
  refine Finset.sum_congr rfl fun t _ => ?_
  rw [← resample hd c b σ hs p hc (P t) (hP t) (hu t) (piece d t.1) (fun i hi => ?_) b le_rfl]
  · refine congrArg _ (cnt_congr fun F => ?_)
    have h := pieces (d := d) (blk c σ p F) (length_blk c σ p F) b t.1 t.2
    constructor
    · rintro ⟨h1, h2⟩
      exact ⟨h2 ▸ h1, h.mp (congrArg Subtype.val h2)⟩
    · rintro ⟨h1, h2⟩
      have h3 : full c b σ p F = t := Subtype.ext (h.mpr h2)
      exact ⟨h3 ▸ h1, h3⟩
  · have : (i + 1) * d ≤ b * d := Nat.mul_le_mul_right d hi
    rw [Nat.succ_mul] at this
    rw [piece, List.length_take, List.length_drop, t.2]
    omega

variable {R : Type} (D : Bytes → Asker (Bytes × Bytes) Bytes R)

/-- No last value is asked for. -/
def Good (t : Str (b * d)) (F : Big n d) : Prop :=
  Dis hd c b (start σ hs) p (b * c - 1) F ∧ ¬ Asks hd c b (start σ hs) p (D t.1) F

theorem good_update (hc : 0 < c) (t : Str (b * d)) (F : Big n d) (h : Good hd c b σ hs p D t F) (j : ℕ) (hj : j < b) (y : Str d)
    (G : Big n d) (hG : ∀ v, v ≠ last hd c (start σ hs) p j F → G v = F v)
    (hy : G (last hd c (start σ hs) p j F) = y) :
    Good hd c b σ hs p D t G ∧ (D t.1).run (look G) = (D t.1).run (look F) := by
  classical
  obtain rfl : G = update F (last hd c (start σ hs) p j F) y := by
    funext v
    by_cases hv : v = last hd c (start σ hs) p j F
    · rw [hv, hy, update_self]
    · rw [hG v hv, update_of_ne hv]
  have e := Chain.agree (D t.1) (look F) (look (update F (last hd c (start σ hs) p j F) y)) fun v hv =>
    (look_update F (last hd c (start σ hs) p j F).1 (last hd c (start σ hs) p j F).2 y v fun hv' =>
      h.2 ⟨j, hj, by rw [hv'] at hv; exact hv⟩).symm
  refine ⟨⟨dis_last hd c b _ p hc h.1 hj y, ?_⟩, e.2⟩
  rintro ⟨i, hi, hmem⟩
  rw [e.1, last, last_update hd c b _ p hc h.1 hj y _ (index_lt c b hi (Nat.sub_lt hc Nat.one_pos))] at hmem
  exact h.2 ⟨i, hi, hmem⟩

/-- The real keys and random keys. -/
theorem real_ideal (hc : 0 < c) (A : R → Prop) :
    Fintype.card (Str d) ^ b * cnt (fun F : Big n d => A ((D (full c b σ p F).1).run (look F))) ≤
        ∑ t : Str (b * d), cnt (fun F : Big n d => A ((D t.1).run (look F))) +
          ∑ t, cnt (fun F : Big n d => ¬ Good hd c b σ hs p D t F) ∧
      ∑ t : Str (b * d), cnt (fun F : Big n d => A ((D t.1).run (look F))) ≤
        Fintype.card (Str d) ^ b * cnt (fun F : Big n d => A ((D (full c b σ p F).1).run (look F))) +
          ∑ t, cnt (fun F : Big n d => ¬ Good hd c b σ hs p D t F) := by
  have h1 := exact_sum hd c b σ hs p hc (Good hd c b σ hs p D) (fun t F h => h.1)
    fun t F h j hj y G hG hy => (good_update hd c b σ hs p D hc t F h j hj y G hG hy).1
  have h2 := exact_sum hd c b σ hs p hc (fun t F => Good hd c b σ hs p D t F ∧ A ((D t.1).run (look F)))
    (fun t F h => h.1.1) fun t F h j hj y G hG hy => by
      have := good_update hd c b σ hs p D hc t F h.1 j hj y G hG hy
      exact ⟨this.1, by rw [this.2]; exact h.2⟩
  have h3 := cnt_not (fun F : Big n d => Good hd c b σ hs p D (full c b σ p F) F)
  have h4 : ∑ t, cnt (fun F : Big n d => Good hd c b σ hs p D t F) + ∑ t, cnt (fun F : Big n d => ¬ Good hd c b σ hs p D t F) =
      Fintype.card (Str d) ^ b * Fintype.card (Big n d) := by
    rw [← Finset.sum_add_distrib, Finset.sum_congr rfl fun t _ => cnt_not (fun F : Big n d => Good hd c b σ hs p D t F),
      Finset.sum_const, Finset.card_univ, card_pow, smul_eq_mul]
  have h5 : Fintype.card (Str d) ^ b * cnt (fun F : Big n d => ¬ Good hd c b σ hs p D (full c b σ p F) F) =
      ∑ t, cnt (fun F : Big n d => ¬ Good hd c b σ hs p D t F) := by
    have h6 : Fintype.card (Str d) ^ b * cnt (fun F : Big n d => Good hd c b σ hs p D (full c b σ p F) F) +
        Fintype.card (Str d) ^ b * cnt (fun F : Big n d => ¬ Good hd c b σ hs p D (full c b σ p F) F) =
        Fintype.card (Str d) ^ b * Fintype.card (Big n d) := by rw [← Nat.mul_add, h3]
    rw [h1] at h6
    exact Nat.add_left_cancel (h6.trans h4.symm)
  constructor
  · have e : cnt (fun F : Big n d => A ((D (full c b σ p F).1).run (look F))) ≤
        cnt (fun F : Big n d => Good hd c b σ hs p D (full c b σ p F) F ∧ A ((D (full c b σ p F).1).run (look F))) +
          cnt (fun F : Big n d => ¬ Good hd c b σ hs p D (full c b σ p F) F) :=
      (cnt_mono fun F h => by
        by_cases hg : Good hd c b σ hs p D (full c b σ p F) F
        · exact Or.inl ⟨hg, h⟩
        · exact Or.inr hg).trans (cnt_or _ _)
    refine (Nat.mul_le_mul_left _ e).trans ?_
    rw [Nat.mul_add, h2, h5]
    exact Nat.add_le_add_right (Finset.sum_le_sum fun t _ => cnt_mono fun F h => h.2) _
  · refine (Finset.sum_le_sum (g := fun t => cnt (fun F : Big n d => Good hd c b σ hs p D t F ∧ A ((D t.1).run (look F))) +
      cnt (fun F : Big n d => ¬ Good hd c b σ hs p D t F)) fun t _ => (cnt_mono fun F h => by
        by_cases hg : Good hd c b σ hs p D t F
        · exact Or.inl ⟨hg, h⟩
        · exact Or.inr hg).trans (cnt_or _ _)).trans ?_
    rw [Finset.sum_add_distrib, ← h2]
    exact Nat.add_le_add_right (Nat.mul_le_mul_left _ (cnt_mono fun F h => h.2)) _

theorem dis_rat (hb : 0 < b) (hc : 0 < c) {x N K : ℕ} (e1 : N * x ≤ ((b * c - 1) * (b * c - 1 + 1) / 2 + (b * c - 1) * b) * K) :
    (N : ℚ) * x ≤ ((b * c - 1 : ℕ) * (b * c) / 2 + (b * c - 1 : ℕ) * b) * K := by
  have hM : b * c - 1 + 1 = b * c := Nat.sub_add_cancel (Nat.mul_pos hb hc)
  rw [hM] at e1
  have e1 := Nat.cast_le (α := ℚ).mpr e1
  rw [Nat.cast_mul, Nat.cast_mul, Nat.cast_add, Nat.cast_mul _ b] at e1
  refine e1.trans ?_
  refine mul_le_mul_of_nonneg_right ?_ (Nat.cast_nonneg _)
  have := Nat.cast_le (α := ℚ).mpr (Nat.div_mul_le_self ((b * c - 1) * (b * c)) 2)
  rw [Nat.cast_mul, Nat.cast_mul (b * c - 1), Nat.cast_mul b, Nat.cast_ofNat] at this
  linarith

/-- How often a last value is asked for, apart from chains of which all places are asked for. -/
theorem cnt_not_good (hc : 0 < c) (hb : 0 < b) (hb' : ∀ i < b, ∀ j < b, (p i, start σ hs i) = (p j, start σ hs j) → i = j)
    (q : ℕ) (hq : ∀ t, (D t).CostLe (fun _ => 1) (fun _ => 0) q) (t : Str (b * d)) :
    (cnt (fun F : Big n d => ¬ Good hd c b σ hs p D t F) : ℚ) ≤
      ((b * c - 1 : ℕ) * (b * c) / 2 + (b * c - 1 : ℕ) * b + b * c * q) / Fintype.card (Str d) * Fintype.card (Big n d) +
        cnt (fun F : Big n d => ∃ i < b, Whole hd c (start σ hs) p (D t.1) i F) := by
  classical
  have hN := HmacGame.card_pos d
  have e1 := not_dis (d := d) hd c b (start σ hs) p hc hb' (b * c - 1) (Nat.sub_lt (Nat.mul_pos hb hc) Nat.one_pos)
  have e2 := cnt_asks (d := d) hd c b (start σ hs) p (D t.1) hc q (hq _)
  have e3 : cnt (fun F : Big n d => ¬ Good hd c b σ hs p D t F) ≤
      cnt (fun F : Big n d => ¬ Dis hd c b (start σ hs) p (b * c - 1) F) +
        (cnt (fun F : Big n d => Dis hd c b (start σ hs) p (b * c - 1) F ∧
          Asks hd c b (start σ hs) p (D t.1) F ∧ ∀ i < b, ¬ Whole hd c (start σ hs) p (D t.1) i F) +
        cnt (fun F : Big n d => ∃ i < b, Whole hd c (start σ hs) p (D t.1) i F)) := by
    refine le_trans ?_ (Nat.add_le_add_left (cnt_or _ _) _)
    refine le_trans (cnt_mono fun F hF => ?_) (cnt_or _ _)
    by_cases hD : Dis hd c b (start σ hs) p (b * c - 1) F
    · right
      have hA : Asks hd c b (start σ hs) p (D t.1) F := by
        by_contra hA
        exact hF ⟨hD, hA⟩
      by_cases h : ∃ i < b, Whole hd c (start σ hs) p (D t.1) i F
      · exact Or.inr h
      · exact Or.inl ⟨hD, hA, fun i hi hw => h ⟨i, hi, hw⟩⟩
    · exact Or.inl hD
  have e1' := dis_rat c b hb hc e1
  have e2' : (Fintype.card (Str d) : ℚ) * cnt (fun F : Big n d => Dis hd c b (start σ hs) p (b * c - 1) F ∧
          Asks hd c b (start σ hs) p (D t.1) F ∧ ∀ i < b, ¬ Whole hd c (start σ hs) p (D t.1) i F) ≤
        b * c * q * Fintype.card (Big n d) := by
    exact_mod_cast e2
  have e3' : (cnt (fun F : Big n d => ¬ Good hd c b σ hs p D t F) : ℚ) ≤ _ := Nat.cast_le.mpr e3
  push_cast at e3'
  refine e3'.trans ?_
  rw [div_mul_eq_mul_div, ← add_assoc]
  refine add_le_add_left ?_ _
  rw [le_div_iff₀ hN]
  linarith

section
variable (s : ℕ → Short n) (A : Asker (Bytes × Bytes) Bytes R)

/-- Whether all places of a chain are asked for depends on the password of this chain only. -/
theorem whole_iff (i : ℕ) (F : Big n d) : Whole hd c s p A i F ↔ Whole hd c s (fun _ => p i) A i F := by
  constructor <;> intro h j hj <;> have := h j hj <;> rw [pl_at hd c s _ F hj] at this ⊢ <;> exact this

/-- All places of one of the chains `v B`, ..., `v B + B - 1` are asked for, if they are chains of the password `p`. -/
def Done (B : ℕ) (p : Pw) (v : ℕ) (F : Big n d) : Prop := ∃ i < B, Whole hd c s (fun _ => p) A (v * B + i) F

/-- If the places are different, each of these takes `c` questions. -/
theorem done_le (u B : ℕ) (hb : b = u * B) (p : Pw) (F : Big n d)
    (hD : Dis hd c b s (fun _ => p) (b * c - 1) F) (V : Finset ℕ) (hV : ∀ v ∈ V, v < u ∧ Done hd c s A B p v F) :
    c * V.card ≤ Dict.times p A F := by
  classical
  have hV' : ∀ v, ∃ i, v ∈ V → i < B ∧ Whole hd c s (fun _ => p) A (v * B + i) F := fun v => by
    by_cases hv : v ∈ V
    · obtain ⟨i, hi⟩ := (hV v hv).2
      exact ⟨i, fun _ => hi⟩
    · exact ⟨0, fun h => absurd h hv⟩
  choose f hf using hV'
  have hi : ∀ v ∈ V, v * B + f v < b := fun v hv => by
    have h1 := (hV v hv).1
    have h2 := (hf v hv).1
    have : (v + 1) * B ≤ u * B := Nat.mul_le_mul_right B h1
    rw [Nat.succ_mul] at this
    omega
  have hinj : Set.InjOn (fun x : ℕ × ℕ => raw (pl hd c s (fun _ => p) F ((x.1 * B + f x.1) * c + x.2)))
      (V ×ˢ Finset.range c : Finset (ℕ × ℕ)) := by
    rintro ⟨v, j⟩ hx ⟨w, k⟩ hy e
    obtain ⟨hv, hj⟩ := Finset.mem_product.mp hx
    obtain ⟨hw, hk⟩ := Finset.mem_product.mp hy
    have hj := Finset.mem_range.mp hj
    have hk := Finset.mem_range.mp hk
    have e := raw_inj e
    have e' : (v * B + f v) * c + j = (w * B + f w) * c + k := by
      by_contra hne
      exact hD.ne hd c b s _ (index_lt c b (hi v hv) hj) (index_lt c b (hi w hw) hk) hne e
    have hc0 : 0 < c := by omega
    have e1 : j = k := by
      have := congrArg (· % c) e'
      simp only [Nat.mul_add_mod_self_right] at this
      rwa [Nat.mod_eq_of_lt hj, Nat.mod_eq_of_lt hk] at this
    subst e1
    have e2 := Nat.eq_of_mul_eq_mul_right hc0 (Nat.add_right_cancel e')
    have h1 := (hf v hv).1
    have h2 := (hf w hw).1
    have e3 : v = w := by
      have : (v * B + f v) / B = (w * B + f w) / B := congrArg (· / B) e2
      rw [Nat.add_comm, Nat.add_mul_div_right _ _ (by omega), Nat.div_eq_of_lt h1, Nat.add_comm (w * B),
        Nat.add_mul_div_right _ _ (by omega), Nat.div_eq_of_lt h2] at this
      omega
    rw [e3]
  have hsub : (V ×ˢ Finset.range c).image (fun x : ℕ × ℕ => raw (pl hd c s (fun _ => p) F ((x.1 * B + f x.1) * c + x.2))) ⊆
      ((A.asked (look F)).filter fun v => v.1 = p.1).toFinset := by
    intro x hx
    obtain ⟨⟨v, j⟩, hy, rfl⟩ := Finset.mem_image.mp hx
    obtain ⟨hv, hj⟩ := Finset.mem_product.mp hy
    rw [List.mem_toFinset, List.mem_filter]
    exact ⟨(hf v hv).2 j (Finset.mem_range.mp hj), by simp [raw, pl]⟩
  have h2 := Finset.card_le_card hsub
  rw [Finset.card_image_of_injOn hinj, Finset.card_product, Finset.card_range] at h2
  have h3 := List.toFinset_card_le ((A.asked (look F)).filter fun v => v.1 = p.1)
  rw [Dict.times, Nat.mul_comm]
  exact h2.trans h3

theorem sum_done (u B : ℕ) (hb : b = u * B) (p : Pw) :
    c * ∑ v ∈ Finset.range u, cnt (fun F : Big n d => Done hd c s A B p v F) ≤
      ∑ F : Big n d, Dict.times p A F + c * u * cnt (fun F : Big n d => ¬ Dis hd c b s (fun _ => p) (b * c - 1) F) := by
  classical
  have e1 : ∑ v ∈ Finset.range u, cnt (fun F : Big n d => Done hd c s A B p v F) =
      ∑ F : Big n d, ((Finset.range u).filter fun v => Done hd c s A B p v F).card := by
    simp only [Prf.cnt_eq, Finset.card_filter]
    rw [Finset.sum_comm]
  have e2 : cnt (fun F : Big n d => ¬ Dis hd c b s (fun _ => p) (b * c - 1) F) =
      ∑ F : Big n d, if ¬ Dis hd c b s (fun _ => p) (b * c - 1) F then 1 else 0 := by
    rw [Prf.cnt_eq, Finset.card_filter]
    exact Finset.sum_congr rfl fun _ _ => by congr
  rw [e1, e2, Finset.mul_sum, Finset.mul_sum, ← Finset.sum_add_distrib]
  refine Finset.sum_le_sum fun F _ => ?_
  by_cases h : Dis hd c b s (fun _ => p) (b * c - 1) F
  · refine (done_le hd c b s A u B hb p F h _ fun v hv => ?_).trans (Nat.le_add_right _ _)
    obtain ⟨h1, h2⟩ := Finset.mem_filter.mp hv
    exact ⟨Finset.mem_range.mp h1, h2⟩
  · rw [if_pos h, Nat.mul_one]
    refine le_trans (Nat.mul_le_mul_left c ?_) (Nat.le_add_left _ _)
    exact (Finset.card_filter_le _ _).trans (Finset.card_range u).le

end

end Cryptopy.Users
