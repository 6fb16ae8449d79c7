import Verif.Lemmas.HmacChain

/-!
A table of pseudorandom functions, one for each password: the last values of the chains under a password are known only to
those who ask for all of a chain.
-/

namespace Cryptopy.Dict
open Spec (Str Asker xorBytes pbU pbT beBytes)
open Prf (cnt cnt_split cnt_mono cnt_congr cnt_exists cnt_true cnt_false cnt_le cnt_or card_resample)
open Chain (Table Short ask)
open Function

/-- The passwords that `pbkdf2` takes. -/
abbrev Pw : Type := Short 63

/-- A string of `d` octets for each password and each string of at most `n` octets. -/
abbrev Big (n d : ℕ) : Type := Pw × Short n → Str d

noncomputable instance (n d : ℕ) : Fintype (Big n d) := Fintype.ofFinite _

/-- The function under one password. -/
def sl {n d : ℕ} (F : Big n d) (p : Pw) : Table n d := fun x => F (p, x)

/-- The value for a password and a string; what is not in the table gives zeros. -/
def look {n d : ℕ} (F : Big n d) (v : Bytes × Bytes) : Bytes :=
  if h : v.1.length ≤ 63 then ask (sl F ⟨v.1, h⟩) v.2 else List.replicate d 0

theorem length_look {n d : ℕ} (F : Big n d) (v : Bytes × Bytes) : (look F v).length = d := by
  rw [look]
  split
  · exact Chain.length_ask _ _
  · simp

theorem look_pw {n d : ℕ} (F : Big n d) (p : Pw) (x : Bytes) : look F (p.1, x) = ask (sl F p) x := by
  rw [look, dif_pos p.2]

open Classical in
theorem look_update {n d : ℕ} (F : Big n d) (p : Pw) (x : Short n) (y : Str d) (v : Bytes × Bytes)
    (h : v ≠ (p.1, x.1)) : look (update F (p, x) y) v = look F v := by
  obtain ⟨a, u⟩ := v
  rw [look, look]
  split
  · next ha =>
    rw [ask, ask]
    split
    · next hu =>
      rw [sl, sl, update_of_ne]
      intro e
      obtain ⟨e1, e2⟩ := Prod.mk.inj e
      exact h (by rw [← e1, ← e2])
    · rfl
  · rfl

variable {n d : ℕ} (hd : d ≤ n) (c b : ℕ) (s : ℕ → Short n) (p : Pw)

/-- The places of all chains, one chain after the other. -/
def pl (F : Big n d) (k : ℕ) : Short n := Chain.pt hd (s (k / c)) (sl F p) (k % c)

theorem pl_start (F : Big n d) (k : ℕ) (h : k % c = 0) : pl hd c s p F k = s (k / c) := by
  rw [pl, h, Chain.pt]

theorem div_mod_succ {c k : ℕ} (h : (k + 1) % c ≠ 0) : (k + 1) / c = k / c ∧ (k + 1) % c = k % c + 1 := by
  have h1 : ¬ c ∣ k + 1 := fun hd => h (Nat.mod_eq_zero_of_dvd hd)
  have h2 : (k + 1) / c = k / c := by rw [Nat.succ_div, if_neg h1]; rfl
  refine ⟨h2, ?_⟩
  have e1 := Nat.mod_add_div (k + 1) c
  have e2 := Nat.mod_add_div k c
  rw [h2] at e1
  omega

theorem pl_succ (F : Big n d) (k : ℕ) (h : (k + 1) % c ≠ 0) :
    (pl hd c s p F (k + 1)).1 = (F (p, pl hd c s p F k)).1 := by
  obtain ⟨h1, h2⟩ := div_mod_succ h
  rw [pl, h1, h2, Chain.pt]
  rfl

/-- The places are different up to `k`, and no chain runs into a place where one begins. -/
def Dis (k : ℕ) (F : Big n d) : Prop :=
  (∀ a e, a < e → e ≤ k → pl hd c s p F a ≠ pl hd c s p F e) ∧
    ∀ a ≤ k, a % c ≠ 0 → ∀ i < b, pl hd c s p F a ≠ s i

theorem Dis.mono {k k' : ℕ} {F : Big n d} (h : Dis hd c b s p k F) (hk : k' ≤ k) : Dis hd c b s p k' F :=
  ⟨fun a e h1 h2 => h.1 a e h1 (h2.trans hk), fun a ha => h.2 a (ha.trans hk)⟩

open Classical in
theorem pl_update {k : ℕ} {F : Big n d} (h : Dis hd c b s p k F) (y : Str d) (a : ℕ) (ha : a ≤ k) :
    pl hd c s p (update F (p, pl hd c s p F k) y) a = pl hd c s p F a := by
  induction a with
  | zero => rw [pl_start _ _ _ _ _ 0 (Nat.zero_mod c), pl_start _ _ _ _ _ 0 (Nat.zero_mod c)]
  | succ a ih =>
    by_cases h0 : (a + 1) % c = 0
    · rw [pl_start _ _ _ _ _ _ h0, pl_start _ _ _ _ _ _ h0]
    · refine Subtype.ext ?_
      rw [pl_succ hd c s p _ _ h0, pl_succ hd c s p _ _ h0, ih (by omega), update_of_ne]
      intro e
      exact h.1 a k (by omega) le_rfl (Prod.mk.inj e).2

open Classical in
theorem dis_update {k : ℕ} {F : Big n d} (h : Dis hd c b s p k F) (y : Str d) :
    Dis hd c b s p k (update F (p, pl hd c s p F k) y) := by
  refine ⟨fun a e h1 h2 => ?_, fun a ha h0 i hi => ?_⟩
  · rw [pl_update hd c b s p h y a (by omega), pl_update hd c b s p h y e h2]
    exact h.1 a e h1 h2
  · rw [pl_update hd c b s p h y a ha]
    exact h.2 a ha h0 i hi

/-- The next place is a given string with small chance. -/
theorem collide (k : ℕ) (h0 : (k + 1) % c ≠ 0) (x : Big n d → Short n)
    (hx : ∀ F, Dis hd c b s p k F → ∀ G : Big n d,
      (∀ a ≤ k, pl hd c s p G a = pl hd c s p F a) → x G = x F) :
    Fintype.card (Str d) * cnt (fun F : Big n d => Dis hd c b s p k F ∧ pl hd c s p F (k + 1) = x F) ≤
      Fintype.card (Big n d) := by
  classical
  have h := card_resample (Dis hd c b s p k) (fun F => (p, pl hd c s p F k)) (fun F => Chain.val d (x F).1) fun F hF y =>
    ⟨dis_update hd c b s p hF y, by rw [pl_update hd c b s p hF y k le_rfl], by
      rw [hx F hF _ fun a ha => pl_update hd c b s p hF y a ha]⟩
  refine le_trans (Nat.mul_le_mul_left _ (cnt_mono ?_)) (h.le.trans (cnt_le _))
  rintro F ⟨h1, h2⟩
  refine ⟨h1, ?_⟩
  rw [← h2, pl_succ hd c s p F k h0]
  exact (Chain.val_eq _).symm

theorem not_dis (hc : 0 < c) (hs : ∀ i < b, ∀ j < b, s i = s j → i = j) (k : ℕ) (hk : k < b * c) :
    Fintype.card (Str d) * cnt (fun F : Big n d => ¬ Dis hd c b s p k F) ≤
      (k * (k + 1) / 2 + k * b) * Fintype.card (Big n d) := by
  induction k with
  | zero =>
    rw [cnt_false]
    · simp
    · intro F h
      refine h ⟨fun a e h1 h2 => by omega, fun a ha h0 => ?_⟩
      obtain rfl : a = 0 := by omega
      exact absurd (Nat.zero_mod c) h0
  | succ k ih =>
    have ih := ih (by omega)
    by_cases h0 : (k + 1) % c = 0
    · refine (Nat.mul_le_mul_left _ (cnt_mono fun F hF hD => hF ⟨fun a e h1 h2 => ?_, fun a ha h1 => ?_⟩)).trans (ih.trans ?_)
      · refine Nat.mul_le_mul_right _ (Nat.add_le_add (Nat.div_le_div_right (Nat.mul_le_mul (by omega) (by omega)))
          (Nat.mul_le_mul_right _ (by omega)))
      · rcases Nat.lt_or_ge e (k + 1) with he | he
        · exact hD.1 a e h1 (by omega)
        · obtain rfl : e = k + 1 := by omega
          have hdiv : (k + 1) / c < b := (Nat.div_lt_iff_lt_mul hc).mpr hk
          rw [pl_start _ _ _ _ F _ h0]
          by_cases ha : a % c = 0
          · rw [pl_start _ _ _ _ F _ ha]
            have hle : a / c ≤ (k + 1) / c := Nat.div_le_div_right (by omega)
            intro e
            have := hs _ (by omega) _ hdiv e
            have e1 := Nat.mod_add_div a c
            have e2 := Nat.mod_add_div (k + 1) c
            rw [this, ha] at e1
            rw [h0] at e2
            omega
          · exact hD.2 a (by omega) ha _ hdiv
      · rcases Nat.lt_or_ge a (k + 1) with he | he
        · exact hD.2 a (by omega) h1
        · obtain rfl : a = k + 1 := by omega
          exact absurd h0 h1
    · have h1 : cnt (fun F : Big n d => ¬ Dis hd c b s p (k + 1) F) ≤ cnt (fun F : Big n d => ¬ Dis hd c b s p k F) +
          (∑ a ∈ Finset.range (k + 1), cnt (fun F : Big n d => Dis hd c b s p k F ∧ pl hd c s p F (k + 1) = pl hd c s p F a) +
            ∑ i ∈ Finset.range b, cnt (fun F : Big n d => Dis hd c b s p k F ∧ pl hd c s p F (k + 1) = s i)) := by
        refine le_trans ?_ (Nat.add_le_add_left (Nat.add_le_add (cnt_exists _ _) (cnt_exists _ _)) _)
        refine le_trans ?_ (Nat.add_le_add_left (cnt_or _ _) _)
        refine le_trans (cnt_mono fun F hF => ?_) (cnt_or _ _)
        by_cases hD : Dis hd c b s p k F
        · right
          by_contra hcon
          push Not at hcon
          refine hF ⟨fun a e h1 h2 => ?_, fun a ha h1 i hi => ?_⟩
          · rcases Nat.lt_or_ge e (k + 1) with he | he
            · exact hD.1 a e h1 (by omega)
            · obtain rfl : e = k + 1 := by omega
              exact fun e => hcon.1 a (Finset.mem_range.mpr h1) hD e.symm
          · rcases Nat.lt_or_ge a (k + 1) with he | he
            · exact hD.2 a (by omega) h1 i hi
            · obtain rfl : a = k + 1 := by omega
              exact hcon.2 i (Finset.mem_range.mpr hi) hD
        · exact Or.inl hD
      refine (Nat.mul_le_mul_left _ h1).trans ?_
      rw [Nat.mul_add, Nat.mul_add, Finset.mul_sum, Finset.mul_sum]
      refine (Nat.add_le_add ih (Nat.add_le_add (Finset.sum_le_sum fun a ha => collide hd c b s p k h0 (fun F => pl hd c s p F a)
        fun F _ G hG => hG a (by have := Finset.mem_range.mp ha; omega)) (Finset.sum_le_sum fun i _ =>
          collide hd c b s p k h0 (fun _ => s i) fun _ _ _ _ => rfl))).trans ?_
      rw [Finset.sum_const, Finset.card_range, smul_eq_mul, Finset.sum_const, Finset.card_range, smul_eq_mul, ← Nat.add_mul,
        ← Nat.add_mul]
      refine Nat.mul_le_mul_right _ (le_of_eq ?_)
      have e1 : (k + 1) * (k + 1 + 1) = k * (k + 1) + 2 * (k + 1) := by ring
      have e2 : (k + 1) * b = k * b + b := by ring
      rw [e1, e2]
      omega

variable {R : Type} (D : Asker (Bytes × Bytes) Bytes R)

/-- The place has not been asked for. -/
def Skips (k : ℕ) (F : Big n d) : Prop := Dis hd c b s p k F ∧ (p.1, (pl hd c s p F k).1) ∉ D.asked (look F)

/-- Nobody asks for the value at a place without asking for the place, except by chance. -/
theorem guess (k j : ℕ) :
    Fintype.card (Str d) * cnt (fun F : Big n d => Skips hd c b s p D k F ∧
        (D.asked (look F))[j]? = some (p.1, (F (p, pl hd c s p F k)).1)) ≤ Fintype.card (Big n d) := by
  classical
  have h := card_resample (Skips hd c b s p D k) (fun F => (p, pl hd c s p F k))
    (fun F => Chain.val d ((D.asked (look F))[j]?.getD ([], [])).2) fun F hF y => by
      have e := Chain.agree D (look F) (look (update F (p, pl hd c s p F k) y)) fun v hv =>
        (look_update F p _ y v fun hv' => hF.2 (hv' ▸ hv)).symm
      refine ⟨⟨dis_update hd c b s p hF.1 y, ?_⟩, by rw [pl_update hd c b s p hF.1 y k le_rfl], ?_⟩
      · rw [e.1, pl_update hd c b s p hF.1 y k le_rfl]
        exact hF.2
      · rw [e.1]
  refine le_trans (Nat.mul_le_mul_left _ (cnt_mono ?_)) (h.le.trans (cnt_le _))
  rintro F ⟨h1, h2⟩
  refine ⟨h1, ?_⟩
  rw [h2]
  exact (Chain.val_eq _).symm

/-- The last place of a chain. -/
def last (i : ℕ) (F : Big n d) : Short n := pl hd c s p F (i * c + (c - 1))

/-- The last place of some chain is asked for. -/
def Asks (F : Big n d) : Prop := ∃ i < b, (p.1, (last hd c s p i F).1) ∈ D.asked (look F)

/-- The number of questions with the password. -/
noncomputable def times (F : Big n d) : ℕ := by
  classical
  exact ((D.asked (look F)).filter fun v => v.1 = p.1).length

theorem asks (hc : 0 < c) (q : ℕ) (hq : D.CostLe (fun _ => 1) (fun _ => 0) q) (F : Big n d)
    (hD : Dis hd c b s p (b * c - 1) F) (hA : Asks hd c b s p D F) (ht : times p D F < c) :
    ∃ k ∈ Finset.range (b * c), ∃ j ∈ Finset.range q, Skips hd c b s p D k F ∧
      (D.asked (look F))[j]? = some (p.1, (F (p, pl hd c s p F k)).1) := by
  classical
  obtain ⟨i, hi, hlast⟩ := hA
  have hbound : ∀ j, j < c → i * c + j ≤ b * c - 1 := fun j hj => by
    have : (i + 1) * c ≤ b * c := Nat.mul_le_mul_right c hi
    rw [Nat.succ_mul] at this
    omega
  have hex : ∃ j, j < c ∧ (p.1, (pl hd c s p F (i * c + j)).1) ∉ D.asked (look F) := by
    by_contra hall
    push Not at hall
    have hinj : Set.InjOn (fun j => ((p.1, (pl hd c s p F (i * c + j)).1) : Bytes × Bytes)) (Finset.range c) := by
      intro x hx y hy e
      have hx := Finset.mem_range.mp hx
      have hy := Finset.mem_range.mp hy
      have e := Subtype.ext (Prod.mk.inj e).2
      rcases Nat.lt_trichotomy x y with h | h | h
      · exact absurd e (hD.1 _ _ (by omega) (hbound y hy))
      · exact h
      · exact absurd e.symm (hD.1 _ _ (by omega) (hbound x hx))
    have hsub : (Finset.range c).image (fun j => ((p.1, (pl hd c s p F (i * c + j)).1) : Bytes × Bytes)) ⊆
        ((D.asked (look F)).filter fun v => v.1 = p.1).toFinset := by
      intro x hx
      obtain ⟨j, hj, rfl⟩ := Finset.mem_image.mp hx
      rw [List.mem_toFinset, List.mem_filter]
      exact ⟨hall j (Finset.mem_range.mp hj), by simp⟩
    have h2 := Finset.card_le_card hsub
    rw [Finset.card_image_of_injOn hinj, Finset.card_range] at h2
    have h3 := List.toFinset_card_le ((D.asked (look F)).filter fun v => v.1 = p.1)
    rw [times] at ht
    omega
  obtain ⟨j, hj, hn, hnext⟩ : ∃ j, j + 1 < c ∧ (p.1, (pl hd c s p F (i * c + j)).1) ∉ D.asked (look F) ∧
      (p.1, (pl hd c s p F (i * c + j + 1)).1) ∈ D.asked (look F) := by
    by_contra hall
    push Not at hall
    obtain ⟨j, hj, hn⟩ := hex
    have : ∀ k, j + k < c → (p.1, (pl hd c s p F (i * c + (j + k))).1) ∉ D.asked (look F) := by
      intro k
      induction k with
      | zero => exact fun _ => hn
      | succ k ih => exact fun h => hall (j + k) (by omega) (ih (by omega))
    have := this (c - 1 - j) (by omega)
    rw [show j + (c - 1 - j) = c - 1 by omega] at this
    exact this hlast
  obtain ⟨m, hm, e⟩ := List.mem_iff_getElem.mp hnext
  have h4 := Chain.length_asked D q hq (look F)
  refine ⟨i * c + j, Finset.mem_range.mpr (by have := hbound j (by omega); have := hbound (j + 1) hj; omega), m,
    Finset.mem_range.mpr (by omega), ⟨hD.mono hd c b s p (hbound j (by omega)), hn⟩, ?_⟩
  have hmod : (i * c + j + 1) % c ≠ 0 := by
    rw [Nat.add_assoc, Nat.mul_add_mod_self_right, Nat.mod_eq_of_lt hj]
    omega
  rw [List.getElem?_eq_getElem hm, e, pl_succ hd c s p F _ hmod]

theorem cnt_asks (hc : 0 < c) (q : ℕ) (hq : D.CostLe (fun _ => 1) (fun _ => 0) q) :
    Fintype.card (Str d) * cnt (fun F : Big n d => Dis hd c b s p (b * c - 1) F ∧ Asks hd c b s p D F ∧ times p D F < c) ≤
      b * c * q * Fintype.card (Big n d) := by
  refine (Nat.mul_le_mul_left _ (cnt_mono fun F hF => asks hd c b s p D hc q hq F hF.1 hF.2.1 hF.2.2)).trans ?_
  refine (Nat.mul_le_mul_left _ ((cnt_exists _ _).trans (Finset.sum_le_sum fun k _ => cnt_exists _ _))).trans ?_
  rw [Finset.mul_sum]
  refine (Finset.sum_le_sum (g := fun _ => q * Fintype.card (Big n d)) fun k _ => ?_).trans (le_of_eq ?_)
  · rw [Finset.mul_sum]
    refine (Finset.sum_le_sum fun j _ => guess hd c b s p D k j).trans (le_of_eq ?_)
    rw [Finset.sum_const, Finset.card_range, smul_eq_mul]
  · rw [Finset.sum_const, Finset.card_range, smul_eq_mul]
    ring

/-- A question is with one password. -/
theorem sum_times (G : Finset Pw) (q : ℕ) (hq : D.CostLe (fun _ => 1) (fun _ => 0) q) (F : Big n d) :
    ∑ p ∈ G, times p D F ≤ q := by
  classical
  have h4 := Chain.length_asked D q hq (look F)
  refine le_trans ?_ h4
  have h1 : ∀ (l : List (Bytes × Bytes)), ∑ p ∈ G, (l.filter fun v => v.1 = p.1).length ≤ l.length := by
    intro l
    induction l with
    | nil => simp
    | cons v l ih =>
      have h2 : ∀ p : Pw, ((v :: l).filter fun v => v.1 = p.1).length =
          (if v.1 = p.1 then 1 else 0) + (l.filter fun v => v.1 = p.1).length := by
        intro p
        rw [List.filter_cons]
        by_cases h : v.1 = p.1
        · simp [h]; omega
        · simp [h]
      rw [Finset.sum_congr rfl fun p _ => h2 p, Finset.sum_add_distrib, List.length_cons, Nat.add_comm]
      refine Nat.add_le_add ih ?_
      rw [← Finset.card_filter, Finset.card_le_one]
      intro x hx y hy
      have hx := (Finset.mem_filter.mp hx).2
      have hy := (Finset.mem_filter.mp hy).2
      exact Subtype.ext (hx.symm.trans hy)
  refine le_trans (le_of_eq (Finset.sum_congr rfl fun p _ => ?_)) (h1 (D.asked (look F)))
  rfl

/-- Not many passwords are asked for often. -/
theorem often (G : Finset Pw) (q : ℕ) (hq : D.CostLe (fun _ => 1) (fun _ => 0) q) (F : Big n d) :
    c * (G.filter fun p => c ≤ times p D F).card ≤ q := by
  refine le_trans ?_ (sum_times D G q hq F)
  rw [Nat.mul_comm, ← smul_eq_mul, ← Finset.sum_const]
  refine le_trans (Finset.sum_le_sum fun p hp => (Finset.mem_filter.mp hp).2) ?_
  exact Finset.sum_le_sum_of_subset (Finset.filter_subset _ _)

end Cryptopy.Dict
