import Mathlib.Analysis.SpecialFunctions.Pow.Real
import Verif.Lemmas.Bent
import Verif.Props.NonLinear

/-!
C143: how large the non-linearity of lists and substitution tables can be, and what the extreme lists are.
-/

namespace Cryptopy.Props
open Model Spec

section lists
variable (n : Nat) (t : List Nat) (hl : t.length = 2 ^ n) (ht : ∀ v ∈ t, v < 2)

private theorem natAbs_two_pow {v : Int} {m : Nat} : v.natAbs = 2 ^ m ↔ v = 2 ^ m ∨ v = -2 ^ m := by
  rw [Int.natAbs_eq_iff]
  push_cast
  exact Iff.rfl

private theorem sq_two_pow {v : Int} {m : Nat} : v ^ 2 = 2 ^ (2 * m) ↔ v = 2 ^ m ∨ v = -2 ^ m := by
  rw [mul_comm 2 m, pow_mul, sq_eq_sq_iff_eq_or_eq_neg]

include ht in
/-- The autocorrelation counts the inputs on which a list differs from its translate. -/
private theorem autocorr_card (a : Nat) : autocorr n (signs t) a =
    2 ^ n - 2 * (((Finset.range (2 ^ n)).filter fun x => t.getD x 0 ≠ t.getD (x ^^^ a) 0).card : Int) := by
  have h : ∀ x, signs t x * signs t (x ^^^ a) = 1 - 2 * (if t.getD x 0 ≠ t.getD (x ^^^ a) 0 then 1 else 0) := by
    intro x
    have h1 := getD_binary ht x
    have h2 := getD_binary ht (x ^^^ a)
    have h3 : t.getD x 0 = 0 ∨ t.getD x 0 = 1 := by omega
    have h4 : t.getD (x ^^^ a) 0 = 0 ∨ t.getD (x ^^^ a) 0 = 1 := by omega
    rw [signs, signs]
    rcases h3 with h3 | h3 <;> rcases h4 with h4 | h4 <;> rw [h3, h4] <;> decide
  rw [autocorr]
  simp only [h]
  rw [Finset.sum_sub_distrib, ← Finset.mul_sum, Finset.card_filter]
  push_cast
  simp

include hl ht in
/-- C143: among the lists of `4^m` bits the value `2^(2m-1) - 2^(m-1)` is returned exactly for those whose whole Walsh
transform consists of `2^m` and `-2^m`. -/
theorem C143_bent_iff (m : Nat) (hm : 1 ≤ m) (hn : n = 2 * m) :
    nonLinearity t = .ok (2 ^ (2 * m - 1) - 2 ^ (m - 1) : ℚ) ↔
      ∃ ws, walshTransform t = .ok ws ∧ ∀ v ∈ ws, v = 2 ^ m ∨ v = -2 ^ m := by
  obtain ⟨k, rfl⟩ : ∃ k, m = k + 1 := ⟨m - 1, by omega⟩
  subst hn
  obtain ⟨M, h1, h2, h3⟩ := nonLinearity_eq _ t hl ht
  have hw := walshTransform_eq _ t hl ht
  have e1 : 2 * (k + 1) - 1 = 2 * k + 1 := by omega
  have hM : nonLinearity t = .ok (2 ^ (2 * (k + 1) - 1) - 2 ^ (k + 1 - 1) : ℚ) ↔ M = 2 ^ (k + 1) := by
    rw [h1, Except.ok.injEq, e1, Nat.add_sub_cancel, show 2 * (k + 1) = 2 * k + 1 + 1 by ring, pow_succ 2 (2 * k + 1),
      Nat.mul_div_cancel _ (by norm_num)]
    push_cast
    constructor
    · intro h
      have : (M : ℚ) = 2 ^ (k + 1) := by rw [pow_succ]; linarith
      exact_mod_cast this
    · intro h; rw [h]; push_cast; rw [pow_succ 2 k]; ring
  rw [hM]
  constructor
  · intro he
    subst he
    refine ⟨_, hw, fun v hv => ?_⟩
    obtain ⟨w, hwr, rfl⟩ := List.mem_map.mp hv
    have hp := wht_parseval (2 * (k + 1)) (signs t) fun x _ => signs_sq t x
    have hle : ∀ w ∈ Finset.range (2 ^ (2 * (k + 1))), wht (2 * (k + 1)) (signs t) w ^ 2 ≤ 2 ^ (2 * (k + 1)) := by
      intro w hw
      have := h3 w (Finset.mem_range.mp hw)
      rw [← Int.natAbs_sq, mul_comm 2, pow_mul (2 : Int)]
      exact pow_le_pow_left₀ (by positivity) (by exact_mod_cast (mul_comm (k + 1) 2 ▸ this)) 2
    have hs : (∑ w ∈ Finset.range (2 ^ (2 * (k + 1))), (2 : Int) ^ (2 * (k + 1))) = 4 ^ (2 * (k + 1)) := by
      rw [Finset.sum_const, Finset.card_range, nsmul_eq_mul]
      push_cast
      rw [← mul_pow]; norm_num
    have hall := (Finset.sum_eq_sum_iff_of_le hle).mp (hp.trans hs.symm)
    exact sq_two_pow.mp (hall w (Finset.mem_range.mpr (List.mem_range.mp hwr)))
  · rintro ⟨ws, h4, h5⟩
    rw [hw] at h4
    injection h4 with h4
    subst h4
    have h6 : ∀ w < 2 ^ (2 * (k + 1)), (wht (2 * (k + 1)) (signs t) w).natAbs = 2 ^ (k + 1) := fun w hw =>
      natAbs_two_pow.mpr (h5 _ (List.mem_map.mpr ⟨w, List.mem_range.mpr hw, rfl⟩))
    have h7 := nonlin_of_max _ t ht (2 ^ (k + 1)) (fun w hw => (h6 w hw).le) ⟨0, by positivity, h6 0 (by positivity)⟩
    omega
example := C143_bent_iff 4 [0, 0, 0, 1, 0, 0, 0, 1, 0, 0, 0, 1, 1, 1, 1, 0] rfl (by decide) 2 (by decide) rfl

include hl ht in
/-- C143: they are also the lists that differ from each of their translates in exactly half of the places. -/
theorem C143_derivative (m : Nat) (hm : 1 ≤ m) (hn : n = 2 * m) :
    nonLinearity t = .ok (2 ^ (2 * m - 1) - 2 ^ (m - 1) : ℚ) ↔
      ∀ a < 2 ^ n, a ≠ 0 →
        2 * ((Finset.range (2 ^ n)).filter fun x => t.getD x 0 ≠ t.getD (x ^^^ a) 0).card = 2 ^ n := by
  rw [C143_bent_iff n t hl ht m hm hn]
  have h1 : (∃ ws, walshTransform t = .ok ws ∧ ∀ v ∈ ws, v = 2 ^ m ∨ v = -2 ^ m) ↔
      ∀ w < 2 ^ n, wht n (signs t) w ^ 2 = 2 ^ n := by
    rw [walshTransform_eq n t hl ht]
    constructor
    · rintro ⟨ws, h4, h5⟩ w hw
      injection h4 with h4
      subst h4
      have := sq_two_pow.mpr (h5 _ (List.mem_map.mpr ⟨w, List.mem_range.mpr hw, rfl⟩))
      rw [this, hn]
    · intro h
      refine ⟨_, rfl, fun v hv => ?_⟩
      obtain ⟨w, hw, rfl⟩ := List.mem_map.mp hv
      apply sq_two_pow.mp
      rw [h w (List.mem_range.mp hw), hn]
  rw [h1, bent_autocorr n _ fun x _ => signs_sq t x]
  refine forall_congr' fun a => forall_congr' fun _ => forall_congr' fun _ => ?_
  rw [autocorr_card n t ht]
  constructor
  · intro h
    have : (2 * (((Finset.range (2 ^ n)).filter fun x => t.getD x 0 ≠ t.getD (x ^^^ a) 0).card : Int)) =
        ((2 ^ n : Nat) : Int) := by push_cast; linarith
    exact_mod_cast this
  · intro h
    have : (2 * (((Finset.range (2 ^ n)).filter fun x => t.getD x 0 ≠ t.getD (x ^^^ a) 0).card : Int)) =
        ((2 ^ n : Nat) : Int) := by exact_mod_cast h
    push_cast at this; linarith
example := C143_derivative 4 [0, 0, 0, 1, 0, 0, 0, 1, 0, 0, 0, 1, 1, 1, 1, 0] rfl (by decide) 2 (by decide) rfl

private theorem count_filter (t : List Nat) : t.count 1 = ((Finset.range t.length).filter fun x => t.getD x 0 = 1).card := by
  induction t using List.reverseRecOn with
  | nil => rfl
  | append_singleton l b ih =>
    rw [List.count_append, ih, List.length_append, List.length_singleton, Finset.range_add_one, Finset.filter_insert]
    have h1 : (l ++ [b]).getD l.length 0 = b := by simp
    have h2 : (Finset.range l.length).filter (fun x => (l ++ [b]).getD x 0 = 1) =
        (Finset.range l.length).filter fun x => l.getD x 0 = 1 := by
      refine Finset.filter_congr fun x hx => ?_
      rw [List.getD_append _ _ _ _ (Finset.mem_range.mp hx)]
    rw [h1, h2]
    by_cases hb : b = 1
    · subst hb
      rw [if_pos rfl, Finset.card_insert_of_notMem (by simp)]; rfl
    · rw [if_neg hb]
      simp [hb]

include hl ht in
/-- C143: such a list is never balanced: the number of its ones is `2^(2m-1) ± 2^(m-1)`. -/
theorem C143_weight (m : Nat) (hm : 1 ≤ m) (hn : n = 2 * m)
    (h : nonLinearity t = .ok (2 ^ (2 * m - 1) - 2 ^ (m - 1) : ℚ)) :
    t.count 1 + 2 ^ (m - 1) = 2 ^ (2 * m - 1) ∨ t.count 1 = 2 ^ (2 * m - 1) + 2 ^ (m - 1) := by
  obtain ⟨ws, h1, h2⟩ := (C143_bent_iff n t hl ht m hm hn).mp h
  rw [walshTransform_eq n t hl ht] at h1
  injection h1 with h1
  subst h1
  have h3 := h2 _ (List.mem_map.mpr ⟨0, List.mem_range.mpr (by positivity), rfl⟩)
  have h4 : wht n (signs t) 0 = 2 ^ n - 2 * (t.count 1 : Int) := by
    rw [wht_distance ht, count_filter, hl]
    congr 3
    rw [distance]
    congr 1
    refine Finset.filter_congr fun x _ => ?_
    have : linear (bits n 0) x = false := by
      rw [linear, bits]; simp
    rw [this, ofTable]
    simp
  rw [h4] at h3
  subst hn
  obtain ⟨k, rfl⟩ : ∃ k, m = k + 1 := ⟨m - 1, by omega⟩
  rw [show 2 * (k + 1) - 1 = 2 * k + 1 by omega, Nat.add_sub_cancel]
  rw [show 2 * (k + 1) = 2 * k + 1 + 1 by ring, pow_succ (2 : Int) (2 * k + 1), pow_succ (2 : Int) k] at h3
  have c1 : ((2 : Int) ^ (2 * k + 1)) = ((2 ^ (2 * k + 1) : Nat) : Int) := by push_cast; rfl
  have c2 : ((2 : Int) ^ k) = ((2 ^ k : Nat) : Int) := by push_cast; rfl
  rw [c1, c2] at h3
  omega
example := C143_weight 4 [0, 0, 0, 1, 0, 0, 0, 1, 0, 0, 0, 1, 1, 1, 1, 0] rfl (by decide) 2 (by decide) rfl (by decide +kernel)

include hl ht in
/-- C143: for an odd number of inputs the bound of C89 is never met. -/
theorem C143_odd (hn : Odd n) (q : ℚ) (h : nonLinearity t = .ok q) : (q : ℝ) < 2 ^ n / 2 - Real.sqrt (2 ^ n) / 2 := by
  have h1 : 1 ≤ n := hn.pos
  have h2 := C89_nonlinearity n t hl ht h1
  rw [h] at h2
  injection h2 with h2
  have h3 := C89_bound n t hl ht
  subst h2
  push_cast
  refine lt_of_le_of_ne h3 fun he => ?_
  obtain ⟨k, rfl⟩ := hn
  obtain ⟨M, -, h5, -⟩ := nonLinearity_eq (2 * k + 1) t hl ht
  have h6 : Real.sqrt (2 ^ (2 * k + 1)) = M := by
    have : (2 * (nonlin (2 * k + 1) (ofTable t) : ℝ) + M) = 2 ^ (2 * k + 1) := by exact_mod_cast h5
    linarith
  have h7 : ((M : ℝ)) ^ 2 = 2 ^ (2 * k + 1) := by rw [← h6, Real.sq_sqrt (by positivity)]
  have h8 : M ^ 2 = 2 ^ (2 * k + 1) := by exact_mod_cast h7
  have h9 : IsSquare (2 ^ (2 * k + 1)) := ⟨M, by rw [← h8, pow_two]⟩
  have h10 : M ∣ 2 ^ (2 * k + 1) := ⟨M, by rw [← h8, pow_two]⟩
  obtain ⟨j, -, rfl⟩ := (Nat.dvd_prime_pow Nat.prime_two).mp h10
  rw [← pow_mul] at h8
  have := Nat.pow_right_injective (le_refl 2) h8
  omega
example := C143_odd 3 [0, 0, 0, 1, 0, 1, 1, 1] rfl (by decide) (by decide) 2 (by decide +kernel)

end lists

/-! ### Existence -/

/-- C143: for every even number of inputs there is a list that meets the bound. -/
theorem C143_exists (m : Nat) (hm : 1 ≤ m) : ∃ t : List Nat, t.length = 2 ^ (2 * m) ∧ (∀ v ∈ t, v < 2) ∧
    nonLinearity t = .ok (2 ^ (2 * m - 1) - 2 ^ (m - 1) : ℚ) := by
  set t := (List.range (2 ^ (2 * m))).map fun x => par ((x / 2 ^ m) &&& (x % 2 ^ m)) with hT
  have hl : t.length = 2 ^ (2 * m) := by rw [hT]; simp
  have ht : ∀ v ∈ t, v < 2 := by
    intro v hv
    obtain ⟨x, -, rfl⟩ := List.mem_map.mp hv
    exact par_lt _
  refine ⟨t, hl, ht, (C143_bent_iff _ t hl ht m hm rfl).mpr ⟨_, walshTransform_eq _ t hl ht, fun v hv => ?_⟩⟩
  obtain ⟨w, hw, rfl⟩ := List.mem_map.mp hv
  rw [List.mem_range] at hw
  have hN : 2 ^ (2 * m) = 2 ^ m * 2 ^ m := by rw [two_mul, pow_add]
  have hpos : 0 < 2 ^ m := by positivity
  have hwd : w / 2 ^ m < 2 ^ m := by rw [Nat.div_lt_iff_lt_mul hpos, ← hN]; exact hw
  have hwm : w % 2 ^ m < 2 ^ m := Nat.mod_lt _ hpos
  -- the terms, by halves of the input
  have hterm : ∀ a < 2 ^ m, ∀ b < 2 ^ m, signs t (2 ^ m * a + b) * chr w (2 ^ m * a + b) =
      chr (w / 2 ^ m) a * (chr a b * chr (w % 2 ^ m) b) := by
    intro a ha b hb
    have hx : 2 ^ m * a + b < 2 ^ (2 * m) := by rw [hN]; nlinarith
    have hd : (2 ^ m * a + b) / 2 ^ m = a := by
      rw [Nat.mul_add_div hpos, Nat.div_eq_of_lt hb, add_zero]
    have hr : (2 ^ m * a + b) % 2 ^ m = b := by rw [Nat.mul_add_mod, Nat.mod_eq_of_lt hb]
    have h1 : signs t (2 ^ m * a + b) = chr a b := by
      rw [signs, hT, List.getD_eq_getElem _ _ (by simpa using hx), List.getElem_map, List.getElem_range, hd, hr]; rfl
    have h2 : 2 ^ m * a + b = 2 ^ m * a ^^^ b := by
      rw [Nat.two_pow_add_eq_or_of_lt hb]
      apply Nat.eq_of_testBit_eq
      intro i
      rw [Nat.testBit_or, Nat.testBit_xor, Nat.testBit_two_pow_mul]
      by_cases hi : m ≤ i
      · rw [Nat.testBit_lt_two_pow (lt_of_lt_of_le hb (Nat.pow_le_pow_right (by omega) hi))]; simp
      · simp [hi]
    have h3 : chr w (2 ^ m * a) = chr (w / 2 ^ m) a := by
      rw [chr, chr]
      congr 1
      have e : w &&& 2 ^ m * a = 2 ^ m * ((w / 2 ^ m) &&& a) := by
        apply Nat.eq_of_testBit_eq
        intro i
        rw [Nat.testBit_and, Nat.testBit_two_pow_mul, Nat.testBit_two_pow_mul, Nat.testBit_and, Nat.testBit_div_two_pow]
        by_cases hi : m ≤ i
        · rw [Nat.sub_add_cancel hi]
          cases w.testBit i <;> cases a.testBit (i - m) <;> simp [hi]
        · simp [hi]
      rw [e]
      generalize (w / 2 ^ m) &&& a = z
      clear * -
      induction m with
      | zero => rw [pow_zero, one_mul]
      | succ m ih =>
        rw [← ih, par_eq, pow_succ]
        have h1 : 2 ^ m * 2 * z % 2 = 0 := by rw [mul_assoc, mul_comm (2 ^ m), mul_assoc]; exact Nat.mul_mod_right _ _
        have h2 : 2 ^ m * 2 * z / 2 = 2 ^ m * z := by
          rw [mul_comm (2 ^ m) 2, mul_assoc, Nat.mul_div_cancel_left _ (by norm_num)]
        rw [h1, h2, Nat.zero_xor]
    have h4 : chr w b = chr (w % 2 ^ m) b := by
      rw [chr, chr]
      congr 2
      apply Nat.eq_of_testBit_eq
      intro i
      rw [Nat.testBit_and, Nat.testBit_and, Nat.testBit_mod_two_pow]
      by_cases hi : i < m
      · simp [hi]
      · rw [Nat.testBit_lt_two_pow (lt_of_lt_of_le hb (Nat.pow_le_pow_right (by omega) (by omega : m ≤ i)))]
        simp
    rw [h1]
    nth_rw 1 [h2]
    rw [chr_xor_right, h3, h4]
    ring
  have hsplit : ∀ f : Nat → Int, (∑ x ∈ Finset.range (2 ^ (2 * m)), f x) =
      ∑ a ∈ Finset.range (2 ^ m), ∑ b ∈ Finset.range (2 ^ m), f (2 ^ m * a + b) := by
    intro f
    rw [← Finset.sum_product', hN]
    refine Finset.sum_bij' (fun x _ => (x / 2 ^ m, x % 2 ^ m)) (fun p _ => 2 ^ m * p.1 + p.2) ?_ ?_ ?_ ?_ ?_
    · intro x hx
      rw [Finset.mem_range] at hx
      rw [Finset.mem_product, Finset.mem_range, Finset.mem_range]
      exact ⟨by rw [Nat.div_lt_iff_lt_mul hpos]; exact hx, Nat.mod_lt _ hpos⟩
    · intro p hp
      rw [Finset.mem_product, Finset.mem_range, Finset.mem_range] at hp
      rw [Finset.mem_range]
      nlinarith [hp.1, hp.2]
    · intro x _; exact Nat.div_add_mod x _
    · intro p hp
      rw [Finset.mem_product, Finset.mem_range, Finset.mem_range] at hp
      ext
      · change (2 ^ m * p.1 + p.2) / 2 ^ m = p.1
        rw [Nat.mul_add_div hpos, Nat.div_eq_of_lt hp.2, add_zero]
      · change (2 ^ m * p.1 + p.2) % 2 ^ m = p.2
        rw [Nat.mul_add_mod, Nat.mod_eq_of_lt hp.2]
    · intro x _
      change f x = f (2 ^ m * (x / 2 ^ m) + x % 2 ^ m)
      rw [Nat.div_add_mod]
  have hwht : wht (2 * m) (signs t) w = 2 ^ m * chr (w / 2 ^ m) (w % 2 ^ m) := by
    rw [wht, hsplit]
    have : ∀ a ∈ Finset.range (2 ^ m), (∑ b ∈ Finset.range (2 ^ m), signs t (2 ^ m * a + b) * chr w (2 ^ m * a + b)) =
        if w % 2 ^ m = a then 2 ^ m * chr (w / 2 ^ m) a else 0 := by
      intro a ha
      rw [Finset.sum_congr rfl fun b hb => hterm a (Finset.mem_range.mp ha) b (Finset.mem_range.mp hb),
        ← Finset.mul_sum]
      have : ∀ b, chr a b * chr (w % 2 ^ m) b = chr b a * chr b (w % 2 ^ m) := fun b => by
        rw [chr_comm a, chr_comm (w % 2 ^ m)]
      simp only [this]
      rw [chr_orth m a _ (Finset.mem_range.mp ha) hwm]
      by_cases h : w % 2 ^ m = a
      · rw [if_pos h, if_pos h.symm, mul_comm]
      · rw [if_neg h, if_neg (Ne.symm h), mul_zero]
    rw [Finset.sum_congr rfl this, Finset.sum_ite_eq, if_pos (Finset.mem_range.mpr hwm)]
  rw [hwht]
  rcases mul_self_eq_one_iff.mp (chr_sq (w / 2 ^ m) (w % 2 ^ m)) with h | h
  · left; rw [h, mul_one]
  · right; rw [h, mul_neg_one]
example := C143_exists 5 (by decide)

/-! ### Substitution tables -/

private theorem sbox_bound (n : Nat) (hn : 1 ≤ n) (sbox : List Nat) (hl : sbox.length = 2 ^ n) (lo : Nat)
    (hlo : ∀ c, 1 ≤ c → c < 2 ^ n → lo ≤ nonlin n (ofTable (sbox.map (binaryInnerProduct c)))) :
    2 * lo ≤ 2 ^ n ∧ 2 ^ (n + 1) ≤ ((2 : Int) ^ n - 2 * lo) ^ 2 := by
  have hb : ∀ c, ∀ v ∈ sbox.map (binaryInnerProduct c), v < 2 := by
    intro c v hv
    obtain ⟨x, -, rfl⟩ := List.mem_map.mp hv
    exact bip_lt _ _
  have hc : ∀ c, (sbox.map (binaryInnerProduct c)).length = 2 ^ n := by intro c; rw [List.length_map, hl]
  have hle : ∀ c, 1 ≤ c → c < 2 ^ n → ∀ w < 2 ^ n,
      (wht n (signs (sbox.map (binaryInnerProduct c))) w).natAbs + 2 * lo ≤ 2 ^ n := by
    intro c h1 h2 w hw
    obtain ⟨M, -, h3, h4⟩ := nonLinearity_eq n _ (hc c) (hb c)
    have := h4 w hw
    have := hlo c h1 h2
    omega
  have h1 : 2 * lo ≤ 2 ^ n := by
    have := hle 1 (le_refl _) (Nat.one_lt_two_pow (by omega)) 0 (by positivity)
    omega
  refine ⟨h1, components_bound n hn (fun x => sbox.getD x 0) _ fun c c1 c2 w hw => ?_⟩
  have e : wht n (fun x => chr c (sbox.getD x 0)) w = wht n (signs (sbox.map (binaryInnerProduct c))) w := by
    rw [wht, wht]
    refine Finset.sum_congr rfl fun x hx => ?_
    have hx' := Finset.mem_range.mp hx
    have e2 : (sbox.map (binaryInnerProduct c)).getD x 0 = binaryInnerProduct c (sbox.getD x 0) := by
      rw [List.getD_eq_getElem _ 0 (by rw [hc]; exact hx'), List.getElem_map, ← List.getD_eq_getElem _ 0 (by omega)]
    rw [signs, e2, bip_eq]; rfl
  have := hle c c1 c2 w hw
  rw [e, ← Int.natAbs_sq]
  have h2 : (((wht n (signs (sbox.map (binaryInnerProduct c))) w).natAbs : Nat) : Int) ≤ 2 ^ n - 2 * lo := by
    have : (((wht n (signs (sbox.map (binaryInnerProduct c))) w).natAbs + 2 * lo : Nat) : Int) ≤ ((2 ^ n : Nat) : Int) := by
      exact_mod_cast this
    push_cast at this ⊢; linarith
  exact pow_le_pow_left₀ (by positivity) h2 2

private theorem sbox_least (n : Nat) (hn : 1 ≤ n) (sbox : List Nat) (hl : sbox.length = 2 ^ n) (lo : Nat)
    (h : IsLeast {d | ∃ S ⊆ Finset.range n, S.Nonempty ∧ d = component n sbox S} lo) :
    2 * lo ≤ 2 ^ n ∧ 2 ^ (n + 1) ≤ ((2 : Int) ^ n - 2 * lo) ^ 2 :=
  sbox_bound n hn sbox hl lo fun c c1 c2 => by
    obtain ⟨h3, h4⟩ := (masks n (bits n c)).mpr ⟨c, c1, c2, rfl⟩
    exact h.2 ⟨_, h3, h4, component_eq n sbox hl c c2⟩

/-- C143: whatever the table of `2^n` entries, the smaller of the two returned numbers is at most
`(2^n - √(2^(n+1))) / 2`. -/
theorem C143_sbox (n : Nat) (hn : 1 ≤ n) (sbox : List Nat) (hl : sbox.length = 2 ^ n) :
    ∃ lo hi : ℚ, sboxNonlinearity sbox = .ok (lo, hi) ∧ (lo : ℝ) ≤ 2 ^ n / 2 - Real.sqrt (2 ^ (n + 1)) / 2 := by
  obtain ⟨lo, hi, h, hlo, -⟩ := C94_sbox n hn sbox hl
  refine ⟨lo, hi, h, ?_⟩
  obtain ⟨h1, h2⟩ := sbox_least n hn sbox hl lo hlo
  have h3 : (0 : ℝ) ≤ 2 ^ n - 2 * lo := by
    have : (2 * lo : ℝ) ≤ 2 ^ n := by exact_mod_cast h1
    linarith
  have h4 : Real.sqrt (2 ^ (n + 1)) ≤ 2 ^ n - 2 * lo := by
    rw [Real.sqrt_le_left h3]
    exact_mod_cast h2
  push_cast
  linarith
example := C143_sbox 8 (by decide) aesSbox (by decide +kernel)

/-- The distance of two functions that are one on an even number of inputs each is even. -/
private theorem even_distance (n : Nat) (f g : Nat → Bool) (hf : Even ((Finset.range (2 ^ n)).filter fun x => f x = true).card)
    (hg : Even ((Finset.range (2 ^ n)).filter fun x => g x = true).card) : Even (distance n f g) := by
  have h : distance n f g + 2 * ((Finset.range (2 ^ n)).filter fun x => f x = true ∧ g x = true).card =
      ((Finset.range (2 ^ n)).filter fun x => f x = true).card + ((Finset.range (2 ^ n)).filter fun x => g x = true).card := by
    rw [distance, Finset.card_filter, Finset.card_filter, Finset.card_filter, Finset.card_filter, Finset.mul_sum,
      ← Finset.sum_add_distrib, ← Finset.sum_add_distrib]
    refine Finset.sum_congr rfl fun x _ => ?_
    cases f x <;> cases g x <;> rfl
  have h2 := hf.add hg
  rw [← h] at h2
  exact (Nat.even_add.mp h2).mpr (even_two_mul _)

private theorem linear_inter (n : Nat) (S : Finset Nat) {x : Nat} (hx : x < 2 ^ n) :
    linear S x = linear (S ∩ Finset.range n) x := by
  rw [linear, linear]
  congr 4
  ext i
  rw [Finset.mem_filter, Finset.mem_filter, Finset.mem_inter, Finset.mem_range]
  constructor
  · rintro ⟨h1, h2⟩
    refine ⟨⟨h1, ?_⟩, h2⟩
    by_contra h3
    rw [Nat.testBit_lt_two_pow (lt_of_lt_of_le hx (Nat.pow_le_pow_right (by omega) (by omega)))] at h2
    cases h2
  · rintro ⟨⟨h1, -⟩, h2⟩; exact ⟨h1, h2⟩

private theorem even_affine (n : Nat) (hn : 2 ≤ n) (S : Finset Nat) (c : Bool) :
    Even ((Finset.range (2 ^ n)).filter fun x => affine S c x = true).card := by
  have e : (Finset.range (2 ^ n)).filter (fun x => affine S c x = true) =
      (Finset.range (2 ^ n)).filter fun x => linear (S ∩ Finset.range n) x ≠ c := by
    refine Finset.filter_congr fun x hx => ?_
    rw [affine, linear_inter n S (Finset.mem_range.mp hx)]
    cases c <;> cases linear (S ∩ Finset.range n) x <;> decide
  rw [e]
  obtain ⟨k, rfl⟩ : ∃ k, n = k + 2 := ⟨n - 2, by omega⟩
  by_cases h : (S ∩ Finset.range (k + 2)).Nonempty
  · have := linear_balanced (k + 2) _ Finset.inter_subset_right h c
    refine ⟨2 ^ k, ?_⟩
    have hp : 2 ^ (k + 2) = 4 * 2 ^ k := by rw [pow_add]; ring
    omega
  · rw [Finset.not_nonempty_iff_eq_empty.mp h]
    cases c
    · have : (Finset.range (2 ^ (k + 2))).filter (fun x => linear ∅ x ≠ false) = ∅ := by
        rw [Finset.filter_eq_empty_iff]; intro x _; simp [linear]
      rw [this]; exact Even.zero
    · have : (Finset.range (2 ^ (k + 2))).filter (fun x => linear ∅ x ≠ true) = Finset.range (2 ^ (k + 2)) := by
        rw [Finset.filter_eq_self]; intro x _; simp [linear]
      rw [this, Finset.card_range]
      exact ⟨2 * 2 ^ k, by rw [pow_add]; ring⟩

private theorem even_component {n : Nat} (hn : 2 ≤ n) {s r : List Nat} (h : InverseTables n s r) (S : Finset Nat)
    (hS : S ⊆ Finset.range n) (hne : S.Nonempty) : Even (component n s S) := by
  have hm : component n s S ∈ {d | ∃ T c, d = distance n (fun x => linear S (s.getD x 0)) (affine T c)} :=
    Nat.sInf_mem ⟨_, ∅, false, rfl⟩
  obtain ⟨T, c, e⟩ := hm
  rw [e]
  refine even_distance n _ _ ?_ (even_affine n hn T c)
  have h1 := distance_inverse h (linear S) (fun _ => false)
  have h2 : distance n (fun x => linear S (s.getD x 0)) (fun _ => false) =
      ((Finset.range (2 ^ n)).filter fun x => linear S (s.getD x 0) = true).card := by
    rw [distance]; congr 1; refine Finset.filter_congr fun x _ => ?_; simp
  have h3 : distance n (fun _ => false) (linear S) =
      ((Finset.range (2 ^ n)).filter fun x => linear S x ≠ false).card := by
    rw [distance]; congr 1; refine Finset.filter_congr fun x _ => ne_comm
  have h4 := linear_balanced n S hS hne false
  rw [← h2, h1, h3]
  obtain ⟨k, rfl⟩ : ∃ k, n = k + 2 := ⟨n - 2, by omega⟩
  refine ⟨2 ^ k, ?_⟩
  have hp : 2 ^ (k + 2) = 4 * 2 ^ k := by rw [pow_add]; ring
  omega

/-- C143: for an invertible table of at least four entries both returned numbers are even. -/
theorem C143_permutation (n : Nat) (hn : 2 ≤ n) (s r : List Nat) (h : InverseTables n s r) :
    ∃ lo hi : Nat, sboxNonlinearity s = .ok ((lo : ℚ), (hi : ℚ)) ∧ Even lo ∧ Even hi := by
  obtain ⟨lo, hi, e, ⟨⟨S, s1, s2, s3⟩, -⟩, ⟨S', s1', s2', s3'⟩, -⟩ := C94_sbox n (by omega) s h.1
  exact ⟨lo, hi, e, s3 ▸ even_component hn h S s1 s2, s3' ▸ even_component hn h S' s1' s2'⟩
example := C143_permutation 2 (by decide) [2, 0, 3, 1] [1, 3, 0, 2] ⟨rfl, rfl, by decide⟩

/-- C143: no table of sixteen entries, invertible or not, returns more than 5 as the smaller number; an invertible one
returns at most 4. -/
theorem C143_four (s : List Nat) (hl : s.length = 16) :
    ∃ lo hi : Nat, sboxNonlinearity s = .ok ((lo : ℚ), (hi : ℚ)) ∧ lo ≤ 5 ∧ ((∃ r, InverseTables 4 s r) → lo ≤ 4) := by
  obtain ⟨lo, hi, e, hlo, -⟩ := C94_sbox 4 (by omega) s hl
  obtain ⟨h1, h2⟩ := sbox_least 4 (by omega) s hl lo hlo
  have h3 : lo ≤ 5 := by
    by_contra h
    have h4 : (lo : Int) ≥ 6 := by exact_mod_cast (by omega : 6 ≤ lo)
    have h5 : (lo : Int) ≤ 8 := by exact_mod_cast (by omega : lo ≤ 8)
    norm_num at h2
    nlinarith
  refine ⟨lo, hi, e, h3, ?_⟩
  rintro ⟨r, hr⟩
  obtain ⟨lo', hi', e', ⟨k, h4⟩, -⟩ := C143_permutation 4 (by omega) s r hr
  rw [e] at e'
  injection e' with e'
  have : lo = lo' := Nat.cast_injective (R := ℚ) (Prod.ext_iff.mp e').1
  omega
example := C143_four [12, 5, 6, 11, 9, 0, 10, 13, 3, 14, 15, 8, 4, 7, 1, 2] rfl

/-- C143: no table of 256 entries returns more than 116 as the smaller number. -/
theorem C143_eight (s : List Nat) (hl : s.length = 256) :
    ∃ lo hi : Nat, sboxNonlinearity s = .ok ((lo : ℚ), (hi : ℚ)) ∧ lo ≤ 116 := by
  obtain ⟨lo, hi, e, hlo, -⟩ := C94_sbox 8 (by omega) s hl
  obtain ⟨h1, h2⟩ := sbox_least 8 (by omega) s hl lo hlo
  refine ⟨lo, hi, e, ?_⟩
  by_contra h
  have h4 : (lo : Int) ≥ 117 := by exact_mod_cast (by omega : 117 ≤ lo)
  have h5 : (lo : Int) ≤ 128 := by exact_mod_cast (by omega : lo ≤ 128)
  norm_num at h2
  nlinarith

/-! ### Non-vacuity -/

/-- A list of sixteen bits that meets the bound, and the shipped tables for the hypotheses on tables. -/
example : ([0, 0, 0, 1, 0, 0, 0, 1, 0, 0, 0, 1, 1, 1, 1, 0] : List Nat).length = 2 ^ (2 * 2) ∧
    walshTransform [0, 0, 0, 1, 0, 0, 0, 1, 0, 0, 0, 1, 1, 1, 1, 0] =
      .ok [4, 4, 4, -4, 4, 4, 4, -4, 4, 4, 4, -4, -4, -4, -4, 4] := by decide +kernel
example : aesSbox.length = 256 ∧ aesSbox.length = 2 ^ 8 := by decide +kernel

end Cryptopy.Props
