import Mathlib.Data.List.GetD
import Mathlib.Algebra.Order.Floor.Ring
import Verif.Lemmas.Machin
import Verif.Model.Pi

/-!
The digits of pi (C92).
-/

namespace Cryptopy.Props
open Model

/-- The value of a string of digits. -/
def dval (s : Bytes) : Nat := s.foldl (fun a c => 10 * a + (c.toNat - 48)) 0

theorem dfold_append (t : Bytes) (a : Nat) :
    t.foldl (fun a c => 10 * a + (c.toNat - 48)) a = a * 10 ^ t.length + dval t := by
  induction t generalizing a with
  | nil => simp [dval]
  | cons c t ih =>
    have h1 : dval (c :: t) = t.foldl (fun a c => 10 * a + (c.toNat - 48)) (10 * 0 + (c.toNat - 48)) := rfl
    rw [List.foldl_cons, h1, ih, ih, List.length_cons, pow_succ]
    ring

theorem dval_append (s t : Bytes) : dval (s ++ t) = dval s * 10 ^ t.length + dval t := by
  rw [dval, List.foldl_append, dfold_append t]; rfl

theorem dval_lt (s : Bytes) (h : ∀ c ∈ s, c.toNat - 48 < 10) : dval s < 10 ^ s.length := by
  induction s with
  | nil => simp [dval]
  | cons c s ih =>
    have h1 := h c List.mem_cons_self
    have h2 := ih fun d hd => h d (List.mem_cons_of_mem _ hd)
    rw [dval, List.foldl_cons, dfold_append s, List.length_cons, pow_succ]
    generalize 10 ^ s.length = m at *
    have : (10 * 0 + (c.toNat - 48)) * m ≤ 9 * m := Nat.mul_le_mul_right _ (by omega)
    omega

theorem rowChars_mem (r : Nat) : ∀ c ∈ rowChars r, 48 ≤ c.toNat ∧ c.toNat ≤ 57 := by
  intro c hc
  obtain ⟨i, -, rfl⟩ := List.mem_map.mp hc
  have : r / 10 ^ (49 - i) % 10 < 10 := Nat.mod_lt _ (by norm_num)
  generalize r / 10 ^ (49 - i) % 10 = d at *
  rw [UInt8.toNat_ofNat']
  omega

theorem dval_digits (r n : Nat) (h : r < 10 ^ n) :
    dval ((List.range n).map fun i => UInt8.ofNat (48 + r / 10 ^ (n - 1 - i) % 10)) = r := by
  induction n generalizing r with
  | zero =>
    have : r = 0 := by simpa using h
    rw [this]; rfl
  | succ n ih =>
    rw [List.range_succ, List.map_append, dval_append, List.length_map]
    have h1 : (List.range n).map (fun i => UInt8.ofNat (48 + r / 10 ^ (n + 1 - 1 - i) % 10)) =
        (List.range n).map fun i => UInt8.ofNat (48 + (r / 10) / 10 ^ (n - 1 - i) % 10) := by
      refine List.map_congr_left fun i hi => ?_
      rw [Nat.div_div_eq_div_mul, ← pow_succ', show n + 1 - 1 - i = n - 1 - i + 1 by
        have := List.mem_range.mp hi; omega]
    rw [h1, ih _ (by rw [pow_succ] at h; omega)]
    have h2 : dval [UInt8.ofNat (48 + r / 10 ^ (n + 1 - 1 - n) % 10)] = r % 10 := by
      rw [show n + 1 - 1 - n = 0 by omega, pow_zero, Nat.div_one]
      have : r % 10 < 10 := Nat.mod_lt _ (by norm_num)
      generalize r % 10 = d at *
      rw [dval, List.foldl_cons, List.foldl_nil, UInt8.toNat_ofNat']
      omega
    rw [List.map_cons, List.map_nil, h2]
    simp only [List.length_singleton, pow_one]
    omega

theorem dval_row (r : Nat) (h : r < 10 ^ 50) : dval (rowChars r) = r := dval_digits r 50 h

theorem rowChars_length (r : Nat) : (rowChars r).length = 50 := by simp [rowChars]

theorem rows_length (l : List Nat) : (l.flatMap rowChars).length = 50 * l.length := by
  induction l with
  | nil => rfl
  | cons r l ih => rw [List.flatMap_cons, List.length_append, ih, rowChars_length, List.length_cons]; omega

theorem rows_value (l : List Nat) (h : ∀ r ∈ l, r < 10 ^ 50) (a : Nat) :
    l.foldl (fun a r => 10 ^ 50 * a + r) a = a * 10 ^ (50 * l.length) + dval (l.flatMap rowChars) := by
  induction l generalizing a with
  | nil => simp [dval]
  | cons r l ih =>
    rw [List.foldl_cons, ih (fun x hx => h x (List.mem_cons_of_mem _ hx)), List.flatMap_cons, dval_append,
      dval_row r (h r List.mem_cons_self), rows_length, List.length_cons, Nat.mul_succ, pow_add]
    ring

theorem piRows_lt : ∀ r ∈ piRows, r < 10 ^ 50 := by
  have : piRows.all (fun r => Nat.blt r (10 ^ 50)) = true := by decide +kernel
  intro r hr
  have := List.all_eq_true.mp this r hr
  exact Nat.le_of_ble_eq_true this

theorem piRows_length : piRows.length = 1000 := by decide +kernel

/-- The digits after the point. -/
def piFraction : Bytes := piRows.flatMap rowChars

theorem piFraction_length : piFraction.length = 50000 := by
  rw [piFraction, rows_length, piRows_length]

theorem piFraction_mem : ∀ c ∈ piFraction, 48 ≤ c.toNat ∧ c.toNat ≤ 57 := by
  intro c hc
  obtain ⟨r, -, hr⟩ := List.mem_flatMap.mp hc
  exact rowChars_mem r c hr

/-- Three and the digits as one number. -/
def piValue : Nat := piRows.foldl (fun a r => 10 ^ 50 * a + r) 3

theorem piValue_check : machinCheck 15 13 50000 piValue = true := by decide +kernel

theorem piValue_bounds : ∃ K : Nat, K = 50000 ∧ (piValue : ℝ) ≤ Real.pi * 10 ^ K ∧
    Real.pi * 10 ^ K < piValue + 1 ∧ piValue = 3 * 10 ^ K + dval piFraction := by
  obtain ⟨K, hK⟩ : ∃ K : Nat, K = 50000 := ⟨_, rfl⟩
  have hc := piValue_check
  rw [← hK] at hc
  have hl : 50 * piRows.length = K := by rw [piRows_length, hK]
  have hv := rows_value piRows piRows_lt 3
  rw [hl] at hv
  obtain ⟨h1, h2⟩ := machin_spec 15 13 K piValue hc
  exact ⟨K, hK, h1, h2, hv⟩

/-- A prefix of the digits. -/
theorem prefix_floor (d : Nat) (hd : d ≤ piFraction.length) :
    ⌊Real.pi * 10 ^ d⌋ = (3 * 10 ^ d + dval (piFraction.take d) : ℕ) := by
  obtain ⟨K, hK, h1, h2, hv⟩ := piValue_bounds
  rw [← piFraction_length] at hK
  rw [← hK] at hd
  have hsplit : dval piFraction = dval (piFraction.take d) * 10 ^ (K - d) + dval (piFraction.drop d) := by
    conv_lhs => rw [← List.take_append_drop d piFraction]
    rw [dval_append, List.length_drop, hK]
  have hlt : dval (piFraction.drop d) < 10 ^ (K - d) := by
    have := dval_lt (piFraction.drop d) fun c hc => by
      have := piFraction_mem c (List.mem_of_mem_drop hc); omega
    rwa [List.length_drop, ← hK] at this
  have hp : (10 : ℝ) ^ K = 10 ^ d * 10 ^ (K - d) := by rw [← pow_add, Nat.add_sub_cancel' hd]
  have hp' : (10 : ℕ) ^ K = 10 ^ d * 10 ^ (K - d) := by rw [← pow_add, Nat.add_sub_cancel' hd]
  rw [hp', hsplit] at hv
  have hv2 : piValue = (3 * 10 ^ d + dval (piFraction.take d)) * 10 ^ (K - d) + dval (piFraction.drop d) := by
    rw [hv]; ring
  generalize 3 * 10 ^ d + dval (piFraction.take d) = v at *
  generalize dval (piFraction.drop d) = u at *
  rw [hp, ← mul_assoc] at h1 h2
  have hm : (0 : ℝ) < 10 ^ (K - d) := by positivity
  have hu : (u : ℝ) + 1 ≤ 10 ^ (K - d) := by exact_mod_cast hlt
  have hv3 : (piValue : ℝ) = v * 10 ^ (K - d) + u := by exact_mod_cast hv2
  rw [hv3] at h1 h2
  rw [Int.floor_eq_iff]
  constructor
  · push_cast
    have : (v : ℝ) * 10 ^ (K - d) ≤ Real.pi * 10 ^ d * 10 ^ (K - d) := by
      have : (0 : ℝ) ≤ u := Nat.cast_nonneg u
      linarith
    exact le_of_mul_le_mul_right this hm
  · push_cast
    have : Real.pi * 10 ^ d * 10 ^ (K - d) < ((v : ℝ) + 1) * 10 ^ (K - d) := by linarith
    exact lt_of_mul_lt_mul_right this hm.le

theorem decimal_eq (s : Bytes) (h : s ≠ []) (hd : ∀ c ∈ s, 48 ≤ c.toNat ∧ c.toNat ≤ 57) :
    decimal s = .ok (dval s) := by
  rw [decimal, if_neg h, if_pos]
  · rfl
  · rw [List.all_eq_true]
    intro c hc
    obtain ⟨h1, h2⟩ := hd c hc
    rw [Bool.and_eq_true, decide_eq_true_eq, decide_eq_true_eq, UInt8.le_iff_toNat_le, UInt8.le_iff_toNat_le]
    exact ⟨h1, h2⟩

theorem piString_eq : piString = [0x33, 0x2e] ++ piFraction := rfl

attribute [local irreducible] piString piFraction piRows

theorem length_two (s : Bytes) : ([0x33, 0x2e] ++ s).length = s.length + 2 := rfl

theorem piString_length : piString.length = piFraction.length + 2 := by rw [piString_eq, length_two]

theorem piString_max : (piString.length : Int) - 2 = piFraction.length := by
  rw [piString_length]; push_cast; ring

/-- The last lines of `pi`. -/
def tailOf (s : Bytes) (d : Int) : Py ℚ := do
  let k ← decimal (Py.slice s 2 (d + 2))
  if d < 0 then .error .type else .ok (3 + (k : ℚ) / 10 ^ d.toNat)

theorem piOf_none (s : Bytes) : piOf s none = tailOf s ((s.length : Int) - 2) := rfl

theorem piOf_some (s : Bytes) (n : Int) : piOf s (some n) = if n = 0 then tailOf s ((s.length : Int) - 2)
    else if n ≤ (s.length : Int) - 2 then tailOf s n else .error .assertion := by
  rw [piOf]
  split
  · rfl
  · rw [Py.assert]
    split <;> rfl

/-- The last lines of `pi`. -/
def piTail (d : Int) : Py ℚ := tailOf piString d

theorem pi_none : pi none = piTail ((piString.length : Int) - 2) := by
  rw [pi, piOf_none, piTail]

theorem pi_some (n : Int) : pi (some n) = if n = 0 then piTail ((piString.length : Int) - 2)
    else if n ≤ (piString.length : Int) - 2 then piTail n else .error .assertion := by
  rw [pi, piOf_some, piTail, piTail]

theorem clamp_two (n : Nat) : Py.clampIdx (n + 2) 2 = 2 := by
  rw [Py.clampIdx, if_neg (by omega)]; omega

theorem slice_eq (d : Int) : Py.slice piString 2 (d + 2) =
    piFraction.take (Py.clampIdx (piFraction.length + 2) (d + 2) - 2) := by
  rw [Py.slice, piString_length, clamp_two, piString_eq]
  generalize Py.clampIdx _ _ = b
  match b with
  | 0 => rfl
  | 1 => rfl
  | b + 2 => rfl

theorem piTail_value (d : Nat) (h1 : 1 ≤ d) (hd : d ≤ piFraction.length) :
    piTail d = .ok ((⌊Real.pi * 10 ^ d⌋ : ℚ) / 10 ^ d) := by
  have hc : Py.clampIdx (piFraction.length + 2) ((d : Int) + 2) - 2 = d := by
    rw [Py.clampIdx, if_neg (by omega)]; omega
  rw [piTail, tailOf, slice_eq, hc, decimal_eq]
  · change (if (d : Int) < 0 then (.error .type : Py ℚ) else
      .ok (3 + (dval (piFraction.take d) : ℚ) / 10 ^ (d : Int).toNat)) = _
    rw [if_neg (by omega), prefix_floor d hd, Int.toNat_natCast]
    congr 1
    push_cast
    have : (10 : ℚ) ^ d ≠ 0 := by positivity
    field_simp
  · intro he
    have := congrArg List.length he
    rw [List.length_take, List.length_nil] at this
    omega
  · exact fun c hc => piFraction_mem c (List.mem_of_mem_take hc)

/-- C92: for `1 ≤ d ≤ 50000`, `pi(d)` is pi truncated to `d` decimal places. -/
theorem C92_truncation (d : Nat) (h1 : 1 ≤ d) (hd : d ≤ 50000) :
    pi (some d) = .ok ((⌊Real.pi * 10 ^ d⌋ : ℚ) / 10 ^ d) := by
  rw [← piFraction_length] at hd
  rw [← piTail_value d h1 hd, pi_some, piString_max, if_neg (by omega), if_pos (by omega)]
example := C92_truncation 1000 (by decide) (by decide)

/-- C92: so the error is non-negative and below `10^-d`. -/
theorem C92_error (d : Nat) (h1 : 1 ≤ d) (hd : d ≤ 50000) :
    ∃ q, pi (some d) = .ok q ∧ (0 : ℝ) ≤ Real.pi - q ∧ Real.pi - q < 1 / 10 ^ d := by
  refine ⟨_, C92_truncation d h1 hd, ?_, ?_⟩
  all_goals
    push_cast
    have hp : (0 : ℝ) < 10 ^ d := by positivity
    have a1 := Int.floor_le (Real.pi * 10 ^ d)
    have a2 := Int.lt_floor_add_one (Real.pi * 10 ^ d)
  · rw [sub_nonneg, div_le_iff₀ hp]; exact a1
  · rw [sub_lt_iff_lt_add, ← add_div, lt_div_iff₀ hp]; linarith
example := C92_error 50000 (by decide) (by decide)

/-- C92: without an argument, and with 0, all 50000 digits are used. -/
theorem C92_default : pi none = pi (some 50000) ∧ pi (some 0) = pi (some 50000) := by
  have hl := piFraction_length
  rw [pi_none, pi_some, pi_some, if_pos rfl, piString_max]
  generalize hK : piFraction.length = K at *
  subst hl
  generalize hn : (50000 : Int) = n
  have hn' : ((50000 : Nat) : Int) = n := by rw [← hn]; rfl
  rw [hn', if_neg (by omega), if_pos le_rfl]
  exact ⟨rfl, rfl⟩

/-- C92: more digits are an `AssertionError`. -/
theorem C92_more (d : Int) (h : 50000 < d) : pi (some d) = .error .assertion := by
  have hl := piFraction_length
  rw [pi_some, piString_max, if_neg (by omega), if_neg (by omega)]
example := C92_more 50001 (by decide)

/-- C92: a negative number of digits raises: `ValueError` when no digit is left in the slice, otherwise
`TypeError`. -/
theorem C92_negative (d : Int) (h : d < 0) :
    pi (some d) = .error (if d = -1 ∨ d = -2 ∨ d ≤ -50002 then .value else .type) := by
  have hl := piFraction_length
  rw [pi_some, piString_max, if_neg (by omega), if_pos (by omega), piTail, tailOf, slice_eq]
  have hcl : Py.clampIdx (piFraction.length + 2) (d + 2) - 2 =
      if d = -1 ∨ d = -2 ∨ d ≤ -50002 then 0 else (50002 + d).toNat := by
    rw [Py.clampIdx, hl]
    split <;> split <;> omega
  rw [hcl]
  split
  · rw [List.take_zero]; rfl
  · next hd =>
    rw [decimal_eq]
    · rfl
    · intro he
      have := congrArg List.length he
      rw [List.length_take, List.length_nil] at this
      omega
    · exact fun c hc => piFraction_mem c (List.mem_of_mem_take hc)

/-- The hypotheses are met for 2 digits; the value is then 3.14. -/
example : pi (some 2) = .ok (314 / 100) := by
  have h := piTail_value 2 (by omega) (by rw [piFraction_length]; omega)
  have hf := prefix_floor 2 (by rw [piFraction_length]; omega)
  have : dval (piFraction.take 2) = 14 := by decide +kernel
  rw [this] at hf
  rw [hf] at h
  rw [pi_some, piString_max, if_neg (by omega), if_pos (by rw [piFraction_length]; omega)]
  refine h.trans ?_
  norm_num

end Cryptopy.Props
