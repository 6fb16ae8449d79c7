import Mathlib.Data.Nat.Digits.Lemmas
import Verif.Model.Seeds
import Verif.Props.Pi

/-!
C133: the seeds that `brainpool_seeds` takes from the digits of pi.
-/

namespace Cryptopy
open Model Props

namespace PiSeeds

theorem foldlM_some (l : List Nat) (a : Nat) :
    (l.map some).foldlM hexStep a = .ok (l.foldl (fun a d => 16 * a + d) a) := by
  induction l generalizing a with
  | nil => rfl
  | cons d l ih => rw [List.map_cons, List.foldlM_cons]; exact ih _

theorem foldl_reverse (l : List Nat) : l.reverse.foldl (fun a d => 16 * a + d) 0 = Nat.ofDigits 16 l := by
  induction l with
  | nil => rfl
  | cons d l ih =>
    rw [List.reverse_cons, List.foldl_append, ih, List.foldl_cons, List.foldl_nil, Nat.ofDigits_cons]
    ring

/-- A slice of the digits of a number. -/
theorem slice (N T u v : Nat) (hN : N ≠ 0) (hT : (Nat.digits 16 N).length = T) (huv : u < v) (hv : v ≤ T) (hT' : T ≤ 1000) :
    intBase16 (((((hexLong N).take 1002).drop 2).take v).drop u) = .ok (N / 16 ^ (T - v) % 16 ^ (v - u)) := by
  have e1 : (((hexLong N).take 1002).drop 2).take v = ((Nat.digits 16 N).reverse.map some).take v := by
    rw [hexLong, hexDigits, if_neg hN, List.take_succ_cons, List.take_succ_cons, List.drop_succ_cons, List.drop_succ_cons,
      List.drop_zero, List.take_take, List.take_append_of_le_length (by simp [hT]; omega), min_eq_left (by omega)]
  have e2 : (((Nat.digits 16 N).reverse.take v).drop u) = (((Nat.digits 16 N).drop (T - v)).take (v - u)).reverse := by
    rw [List.take_reverse, List.drop_reverse, hT, List.length_drop, hT]
    congr 2; omega
  rw [e1, ← List.map_take, ← List.map_drop, e2, intBase16, if_neg, foldlM_some, foldl_reverse]
  · congr 1
    have h1 := Nat.self_div_pow_eq_ofDigits_drop (p := 16) (T - v) N (by norm_num)
    have h2 := Nat.ofDigits_mod_pow_eq_ofDigits_take (p := 16) (v - u) (by norm_num) ((Nat.digits 16 N).drop (T - v))
      (fun l hl => Nat.digits_lt_base (by norm_num) (List.mem_of_mem_drop hl))
    rw [h1, h2]
  · intro h
    have := congrArg List.length h
    simp [hT] at this
    omega

/-- Three and the digits of `pi1k` as one number. -/
def value : Nat := pi1kRows.foldl (fun a r => 10 ^ 50 * a + r) 3

theorem rows_eq : pi1kRows = piRows.take 20 := by decide +kernel

theorem rows_lt : ∀ r ∈ pi1kRows, r < 10 ^ 50 := by
  rw [rows_eq]
  exact fun r hr => piRows_lt r (List.mem_of_mem_take hr)

theorem rows_count : pi1kRows.length = 20 := by decide +kernel

theorem ascii : piAscii.length = 50 * pi1kRows.length + 2 ∧ piAscii.drop 2 = pi1kRows.flatMap rowChars := by
  constructor
  · rw [piAscii, List.length_cons, List.length_cons, rows_length]
  · rfl

/-- The facts that are checked by evaluation. -/
theorem checked : ∃ K, K = 1000 ∧ 3 * 10 ^ K ≤ value ∧ value < 4 * 10 ^ K ∧ value.gcd 10 = 1 ∧
    (List.range 830).all (fun m => Nat.ble (value * 16 ^ m % 10 ^ K + 16 ^ m) (10 ^ K)) = true ∧
    ∃ M, M = 3321 ∧ 2 ^ M < 10 ^ K ∧ 10 ^ K < 2 ^ (M + 1) :=
  ⟨1000, rfl, by decide +kernel, by decide +kernel, by decide +kernel, by decide +kernel, 3321, rfl, by decide +kernel,
    by decide +kernel⟩

theorem take_rows : piFraction.take (50 * 20) = pi1kRows.flatMap rowChars := by
  rw [rows_eq, piFraction]
  have h := List.take_append_drop 20 piRows
  have hl : ((piRows.take 20).flatMap rowChars).length = 50 * 20 := by
    rw [rows_length, List.length_take, piRows_length]; rfl
  conv_lhs => rw [← h, List.flatMap_append]
  exact List.take_left' hl

theorem value_eq : value = 3 * 10 ^ (50 * pi1kRows.length) + dval (pi1kRows.flatMap rowChars) := rows_value _ rows_lt 3

attribute [local irreducible] value piFraction pi1kRows piAscii

theorem mapM_ok {α β : Type} (f : α → Py β) (g : α → β) (l : List α) (h : ∀ x ∈ l, f x = .ok (g x)) :
    l.mapM f = .ok (l.map g) := by
  induction l with
  | nil => rfl
  | cons x l ih =>
    rw [List.mapM_cons, h x (by simp), ih fun y hy => h y (List.mem_cons_of_mem _ hy)]
    rfl

/-- What the program and the proof need to know about the digits: `V / 10 ^ K` is the fraction. -/
structure Digits (V K : Nat) : Prop where
  fraction : pi1k = .ok ((V : ℚ) / (10 ^ K : ℕ))
  low : 3 * 10 ^ K ≤ V
  high : V < 4 * 10 ^ K
  coprime : V.gcd 10 = 1
  below : (V : ℝ) ≤ Real.pi * 10 ^ K
  above : Real.pi * 10 ^ K < V + 1
  enough : ∀ m < 830, V * 16 ^ m % 10 ^ K + 16 ^ m ≤ 10 ^ K
  limit : ∀ b, 10 ^ K > 2 ^ b ↔ b ≤ 3321

theorem digits : ∃ K, K = 1000 ∧ Digits value K := by
  obtain ⟨K, hK, c1, c2, c3, c4, M, hM, c5, c6⟩ := checked
  have hK' : K = 50 * pi1kRows.length := by rw [rows_count, hK]
  have hV := value_eq
  rw [← hK'] at hV
  refine ⟨K, hK, ?_, c1, c2, c3, ?_, ?_, ?_, ?_⟩
  · obtain ⟨a1, a2⟩ := ascii
    have hne : pi1kRows.flatMap rowChars ≠ [] := by
      intro h
      have := congrArg List.length h
      rw [rows_length, ← hK', hK] at this
      simp at this
    rw [pi1k, a1, a2, decimal_eq _ hne, ← hK', Nat.add_sub_cancel]
    · rw [hV]
      generalize dval _ = k
      have h10 : (10 : ℚ) ^ K ≠ 0 := by positivity
      have e : ((3 * 10 ^ K + k : ℕ) : ℚ) / ((10 ^ K : ℕ) : ℚ) = 3 + (k : ℚ) / 10 ^ K := by
        push_cast
        field_simp
      rw [e]
      rfl
    · intro c hc
      obtain ⟨r, -, hr⟩ := List.mem_flatMap.mp hc
      exact rowChars_mem r c hr
  · have h := prefix_floor (50 * 20) (by rw [piFraction_length]; norm_num)
    rw [take_rows, ← rows_count, ← hK', ← hV, Int.floor_eq_iff] at h
    exact_mod_cast h.1
  · have h := prefix_floor (50 * 20) (by rw [piFraction_length]; norm_num)
    rw [take_rows, ← rows_count, ← hK', ← hV, Int.floor_eq_iff] at h
    exact_mod_cast h.2
  · intro m hm
    exact Nat.le_of_ble_eq_true (List.all_eq_true.mp c4 m (List.mem_range.mpr hm))
  · intro b
    rw [← hM]
    constructor
    · intro h
      by_contra hb
      have hb' : M + 1 ≤ b := by omega
      exact absurd (lt_of_lt_of_le c6 (Nat.pow_le_pow_right (by norm_num) hb')) (not_lt.mpr h.le)
    · intro h
      exact lt_of_le_of_lt (Nat.pow_le_pow_right (by norm_num) h) c5

section
variable {V K : Nat} (d : Digits V K)
include d

theorem floor_pi (m : Nat) (hm : m < 830) : ⌊Real.pi * 16 ^ m⌋ = (V * 16 ^ m / 10 ^ K : ℕ) := by
  have h1 := d.below
  have h2 := d.above
  have h3 := d.enough m hm
  have h4 := Nat.div_add_mod (V * 16 ^ m) (10 ^ K)
  obtain ⟨D, hD⟩ : ∃ D : Nat, D = 10 ^ K := ⟨_, rfl⟩
  have hD' : (10 : ℝ) ^ K = D := by rw [hD]; push_cast; rfl
  rw [hD'] at h1 h2
  rw [← hD] at h3 h4 ⊢
  have hpos : (0 : ℝ) < D := by rw [← hD']; positivity
  have hm' : (0 : ℝ) < 16 ^ m := by positivity
  generalize V * 16 ^ m / D = q at *
  generalize hr0 : V * 16 ^ m % D = r at *
  have h4' : (D : ℝ) * q + r = V * 16 ^ m := by exact_mod_cast h4
  have h3' : (r : ℝ) + 16 ^ m ≤ D := by exact_mod_cast h3
  have hr : (0 : ℝ) ≤ r := Nat.cast_nonneg r
  rw [Int.floor_eq_iff]
  push_cast
  constructor
  · refine le_of_mul_le_mul_right ?_ hpos
    have := mul_le_mul_of_nonneg_right h1 hm'.le
    nlinarith
  · refine lt_of_mul_lt_mul_right ?_ hpos.le
    have := mul_lt_mul_of_pos_right h2 hm'
    nlinarith

theorem den_eq : ((V : ℚ) / (10 ^ K : ℕ)).den = 10 ^ K := by
  have h := Rat.den_div_eq_of_coprime (a := (V : Int)) (b := ((10 ^ K : ℕ) : Int))
    (by positivity) (by rw [Int.natAbs_natCast, Int.natAbs_natCast]; exact Nat.Coprime.pow_right _ d.coprime)
  rw [Int.cast_natCast, Int.cast_natCast] at h
  exact Int.natCast_inj.mp h

end

theorem floor_eq (V D b : Nat) : ((V : ℚ) / (D : ℕ) * 2 ^ b).floor.toNat = V * 2 ^ b / D := by
  have h := Rat.floor_natCast_div_natCast (V * 2 ^ b) D
  have e : ((V : ℚ) / (D : ℕ) * 2 ^ b) = ((V * 2 ^ b : ℕ) : ℚ) / (D : ℚ) := by
    push_cast; ring
  rw [e]
  change (⌊((V * 2 ^ b : ℕ) : ℚ) / (D : ℚ)⌋).toNat = _
  rw [h]
  exact Int.toNat_natCast _

end PiSeeds

/-- C133: `brainpool_seeds(n, w)` raises a string when `n * w` is above 3321 or `w` is no multiple of 8; for `w = 0` it
raises a `ValueError` unless no seed is asked for; otherwise seed `i` consists of the hexadecimal digits of pi, the leading
3 included, from number `i * w / 4` to number `(i + 1) * w / 4`. -/
theorem C133_seeds (n w : Nat) :
    (3321 < n * w ∨ w % 8 ≠ 0 → brainpoolSeeds n w = .error .stringRaise) ∧
    (w = 0 → 0 < n → brainpoolSeeds n w = .error .value) ∧
    (n * w ≤ 3321 → w % 8 = 0 → 0 < w ∨ n = 0 → brainpoolSeeds n w =
      .ok ((List.range n).map fun i => (⌊Real.pi * 2 ^ (w * (i + 1) - 4)⌋ % 2 ^ w).toNat)) := by
  obtain ⟨K, -, d⟩ := PiSeeds.digits
  generalize PiSeeds.value = V at d
  have start : brainpoolSeeds n w = brainpoolSeedsOf ((V : ℚ) / (10 ^ K : ℕ)) n w := by
    rw [brainpoolSeeds, d.fraction]; rfl
  rw [start, brainpoolSeedsOf]
  simp only [PiSeeds.den_eq d, PiSeeds.floor_eq, d.limit]
  refine ⟨fun h => ?_, fun hw hn => ?_, fun h1 h2 h3 => ?_⟩
  · by_cases h1 : n * w ≤ 3321
    · rw [if_neg (by simpa using h1), if_pos (by omega)]
    · rw [if_pos h1]
  · subst hw
    rw [if_neg (by simp), if_neg (by simp)]
    obtain ⟨n, rfl⟩ : ∃ k, n = k + 1 := ⟨n - 1, by omega⟩
    rw [List.range_succ_eq_map, List.mapM_cons]
    simp [intBase16]
    rfl
  · rw [if_neg (by simpa using h1), if_neg (by simpa using h2)]
    apply PiSeeds.mapM_ok
    intro i hi
    have hi := List.mem_range.mp hi
    obtain ⟨o, rfl⟩ : ∃ o, w = 8 * o := ⟨w / 8, by omega⟩
    have ho : 0 < o := by omega
    have hin : (i + 1) * o ≤ n * o := Nat.mul_le_mul_right o (by omega)
    have hio : (i + 1) * o = i * o + o := by ring
    have e1 : n * (8 * o) = 4 * (2 * (n * o)) := by ring
    rw [e1] at h1 ⊢
    generalize n * o = no at *
    have hpos : 0 < 10 ^ K := by positivity
    have lo := d.low
    have hi' := d.high
    set N := V * 2 ^ (4 * (2 * no)) / 10 ^ K with hN
    have p16 : (2 : Nat) ^ (4 * (2 * no)) = 16 ^ (2 * no) := by rw [pow_mul]; norm_num
    have n1 : 3 * 16 ^ (2 * no) ≤ N := by
      rw [hN, p16, Nat.le_div_iff_mul_le hpos]
      calc _ = 3 * 10 ^ K * 16 ^ (2 * no) := by ring
        _ ≤ _ := Nat.mul_le_mul_right _ lo
    have n2 : N < 4 * 16 ^ (2 * no) := by
      rw [hN, p16, Nat.div_lt_iff_lt_mul hpos]
      calc _ < 4 * 10 ^ K * 16 ^ (2 * no) := Nat.mul_lt_mul_of_pos_right hi' (by positivity)
        _ = _ := by ring
    have q0 : 0 < 16 ^ (2 * no) := by positivity
    have hT : (Nat.digits 16 N).length = 2 * no + 1 := by
      have a1 := (Nat.lt_digits_length_iff (b := 16) (k := 2 * no) (by norm_num) N).mpr (by omega)
      have a2 := (Nat.digits_length_le_iff (b := 16) (k := 2 * no + 1) (by norm_num) N).mpr (by rw [pow_succ]; omega)
      omega
    have e2 : 8 * o / 8 = o := by omega
    rw [e2, PiSeeds.slice N (2 * no + 1) (i * o * 2) ((i + 1) * o * 2) (by omega) hT (by omega) (by omega) (by omega)]
    refine congrArg Except.ok ?_
    obtain ⟨m, hm⟩ : ∃ m, (i + 1) * o * 2 = m + 1 := ⟨(i + 1) * o * 2 - 1, by omega⟩
    have hm8 : 8 * o * (i + 1) - 4 = 4 * m := by
      have : 8 * o * (i + 1) = 4 * ((i + 1) * o * 2) := by ring
      omega
    have hfl := PiSeeds.floor_pi d m (by omega)
    have e3 : (2 : ℝ) ^ (4 * m) = 16 ^ m := by rw [pow_mul]; norm_num
    have e4 : V * 16 ^ m / 10 ^ K = N / 16 ^ (2 * no - m) := by
      rw [hN, p16, Nat.div_div_eq_div_mul, show 2 * no = m + (2 * no - m) by omega, pow_add, ← mul_assoc,
        show m + (2 * no - m) - m = 2 * no - m by omega]
      exact (Nat.mul_div_mul_right _ _ (by positivity)).symm
    rw [hm8, e3, hfl, e4, hm, show 2 * no + 1 - (m + 1) = 2 * no - m by omega, show m + 1 - i * o * 2 = 2 * o by omega]
    have e5 : (16 : Nat) ^ (2 * o) = 2 ^ (8 * o) := by
      rw [show (16 : Nat) = 2 ^ 4 by norm_num, ← pow_mul, show 4 * (2 * o) = 8 * o by ring]
    rw [e5]
    have e6 : ((2 : Int) ^ (8 * o)) = ((2 ^ (8 * o) : Nat) : Int) := by push_cast; rfl
    rw [e6, ← Int.natCast_mod, Int.toNat_natCast]

/-- C133: `brainPoolRequirements` never returns. -/
theorem C133_requirements (p : Int) :
    brainPoolRequirements p = .error (if 3 < p ∧ p % 4 = 3 then .name else .assertion) := by
  rw [brainPoolRequirements, Py.assert, Py.assert, Int.fmod_eq_emod_of_nonneg _ (by norm_num)]
  by_cases h1 : 3 < p
  · by_cases h2 : p % 4 = 3
    · rw [if_pos h1, if_pos h2, if_pos ⟨h1, h2⟩]; rfl
    · rw [if_pos h1, if_neg h2, if_neg (c := 3 < p ∧ p % 4 = 3) fun h => h2 h.2]; rfl
  · rw [if_neg h1, if_neg (c := 3 < p ∧ p % 4 = 3) fun h => h1 h.1]; rfl

/-- The seeds of the default arguments are in the admitted range. -/
example : 7 * 160 ≤ 3321 ∧ 160 % 8 = 0 ∧ 0 < 160 := by decide

end Cryptopy
