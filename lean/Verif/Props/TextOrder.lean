import Mathlib.Data.Char
import Mathlib.Data.List.Lex
import Verif.Props.Encoding
import Verif.Props.TextLength

/-!
C151: when encoded texts and octet strings sort as the numbers they stand for.  Texts and octet strings are compared as
Python compares strings, which is the lexicographic order of lists.
-/

namespace Cryptopy
open Model Spec

private theorem posValue_lt (b : Nat) (ds : List Nat) (h : ∀ d ∈ ds, d < b) : posValue b ds < b ^ ds.length := by
  induction ds with
  | nil => simp [posValue]
  | cons d ds ih =>
    rw [posValue, List.length_cons, pow_succ]
    have h1 := ih fun x hx => h x (List.mem_cons_of_mem _ hx)
    have h2 : d + 1 ≤ b := h d List.mem_cons_self
    have h3 : (d + 1) * b ^ ds.length ≤ b * b ^ ds.length := Nat.mul_le_mul_right _ h2
    rw [add_mul, one_mul] at h3
    rw [mul_comm (b ^ ds.length) b]
    omega

private theorem posValue_lex (b : Nat) : ∀ ds es : List Nat, ds.length = es.length → (∀ d ∈ ds, d < b) → (∀ d ∈ es, d < b) →
    (posValue b ds < posValue b es ↔ ds < es)
  | [], [], _, _, _ => by simp [posValue]
  | [], e :: es, h, _, _ => by simp at h
  | d :: ds, [], h, _, _ => by simp at h
  | d :: ds, e :: es, h, hd, he => by
    have hl : ds.length = es.length := by simpa using h
    have hd' : ∀ x ∈ ds, x < b := fun x hx => hd x (List.mem_cons_of_mem _ hx)
    have he' : ∀ x ∈ es, x < b := fun x hx => he x (List.mem_cons_of_mem _ hx)
    have h1 := posValue_lt b ds hd'
    have h2 := posValue_lt b es he'
    rw [posValue, posValue, List.cons_lt_cons_iff, ← posValue_lex b ds es hl hd' he', hl]
    rw [hl] at h1
    generalize b ^ es.length = w at *
    rcases lt_trichotomy d e with h3 | h3 | h3
    · have h4 : (d + 1) * w ≤ e * w := Nat.mul_le_mul_right _ h3
      rw [add_mul, one_mul] at h4
      exact iff_of_true (by omega) (Or.inl h3)
    · subst h3
      simp
    · have h4 : (e + 1) * w ≤ d * w := Nat.mul_le_mul_right _ h3
      rw [add_mul, one_mul] at h4
      exact iff_of_false (by omega) (by omega)

private theorem beValue_pos (s : Bytes) : beValue s = posValue 256 (s.map UInt8.toNat) := by
  induction s with
  | nil => rfl
  | cons c s ih => rw [beValue, List.map_cons, posValue, List.length_map, ih]

private theorem map_lex {α β : Type} [LT α] [LT β] (f : α → β) (l m : List α)
    (hf : ∀ x ∈ l ++ m, ∀ y ∈ l ++ m, (f x < f y ↔ x < y) ∧ (f x = f y → x = y)) : l.map f < m.map f ↔ l < m := by
  induction l generalizing m with
  | nil => cases m <;> simp
  | cons a l ih =>
    cases m with
    | nil => simp
    | cons b m =>
      rw [List.map_cons, List.map_cons, List.cons_lt_cons_iff, List.cons_lt_cons_iff]
      obtain ⟨h1, h2⟩ := hf a (by simp) b (by simp)
      have h3 : f a = f b ↔ a = b := ⟨h2, fun h => h ▸ rfl⟩
      rw [h1, h3, ih m]
      intro x hx y hy
      refine hf x ?_ y ?_
      · rcases List.mem_append.mp hx with h | h <;> simp [h]
      · rcases List.mem_append.mp hy with h | h <;> simp [h]

/-- C151: octet strings of one length sort as the numbers that `string_to_int` gives. -/
theorem C151_octets (a b : Bytes) (h : a.length = b.length) : a < b ↔ stringToInt a < stringToInt b := by
  rw [stringToInt_eq, stringToInt_eq, beValue_pos, beValue_pos, posValue_lex 256]
  · exact (map_lex UInt8.toNat a b fun x _ y _ => ⟨UInt8.lt_iff_toNat_lt.symm, UInt8.toNat_inj.mp⟩).symm
  · simpa using h
  · intro d hd; obtain ⟨c, -, rfl⟩ := List.mem_map.mp hd; exact c.toNat_lt
  · intro d hd; obtain ⟨c, -, rfl⟩ := List.mem_map.mp hd; exact c.toNat_lt
example := C151_octets [1, 255] [2, 0] rfl

/-- C151: numbers written by `int_to_string` with one positive `padto` sort as the numbers. -/
theorem C151_padded (m n : Int) (k : Int) (hk : k ≠ 0) (s t : Bytes) (hs : intToString m (some k) = .ok s)
    (ht : intToString n (some k) = .ok t) : s < t ↔ m < n := by
  have h1 := C01_int_roundtrip m _ s hs
  have h2 := C01_int_roundtrip n _ t ht
  have hl : ∀ (m : Int) (s : Bytes), intToString m (some k) = .ok s → (s.length : Int) = k := by
    intro m s h
    have key : ∀ o : Bytes, padToStep o (some k) = .ok s → (s.length : Int) = k := by
      intro o h
      rw [padToStep] at h
      simp only [if_neg hk] at h
      split at h
      · next h3 =>
        injection h with h
        rw [← h, List.length_append, Py.repeat, List.length_replicate]
        push_cast
        omega
      · cases h
    rw [intToString] at h
    split at h
    · exact key _ h
    · split at h
      · exact key _ h
      · cases h
  rw [C151_octets s t (by have := hl m s hs; have := hl n t ht; omega)]
  omega
example := C151_padded 511 512 2 (by decide) [1, 255] [2, 0] (by decide +kernel) (by decide +kernel)

/-- C151: over a strictly ascending alphabet texts of different length sort by length, and texts of one length sort as
strings, as the encoded numbers do. -/
theorem C151_ascending {α : Type} [LinearOrder α] (A : List α) (h2 : 2 ≤ A.length) (hA : A.Pairwise (· < ·)) (a b : Bytes)
    (t u : List α) (ht : baseNEncode a A = some (.ok t)) (hu : baseNEncode b A = some (.ok u)) :
    stringToInt a < stringToInt b ↔ t.length < u.length ∨ (t.length = u.length ∧ t < u) := by
  obtain ⟨t', ht', hlt⟩ := C131_length A h2 a
  obtain ⟨u', hu', hlu⟩ := C131_length A h2 b
  obtain rfl : t' = t := by rw [ht'] at ht; injection ht with ht; injection ht
  obtain rfl : u' = u := by rw [hu'] at hu; injection hu with hu; injection hu
  rw [← stringToInt_eq] at hlt hlu
  rcases lt_trichotomy t'.length u'.length with h | h | h
  · refine iff_of_true ?_ (Or.inl h)
    have h3 := (hlt t'.length).mp (le_refl _)
    have h4 : ¬ stringToInt b < A.length ^ t'.length := fun h5 => by have := (hlu t'.length).mpr h5; omega
    omega
  · rw [baseNEncode, baseNEncodeLoop_eq A h2, List.append_nil] at ht' hu'
    injection ht' with ht'
    injection ht' with ht'
    injection hu' with hu'
    injection hu' with hu'
    have hda : ∀ d ∈ (Nat.digits A.length (stringToInt a)).reverse, d < A.length := fun d hd =>
      Nat.digits_lt_base (by omega) (List.mem_reverse.mp hd)
    have hdb : ∀ d ∈ (Nat.digits A.length (stringToInt b)).reverse, d < A.length := fun d hd =>
      Nat.digits_lt_base (by omega) (List.mem_reverse.mp hd)
    have hlen : (Nat.digits A.length (stringToInt a)).reverse.length = (Nat.digits A.length (stringToInt b)).reverse.length := by
      rw [← ht', ← hu'] at h
      simpa using h
    have hv := posValue_lex A.length _ _ hlen hda hdb
    rw [posValue_reverse, posValue_reverse, Nat.ofDigits_digits, Nat.ofDigits_digits] at hv
    rw [hv, ← ht', ← hu', map_lex]
    · simp only [List.length_map, hlen, lt_irrefl, false_or, true_and]
    · have hget : ∀ d (hd : d < A.length), (A[d]?).getD (A[0]'(by omega)) = A[d] := by
        intro d hd; rw [List.getElem?_eq_getElem hd]; rfl
      have hmono : ∀ x y (hx : x < A.length) (hy : y < A.length), x < y → A[x] < A[y] := fun x y hx hy hxy =>
        List.pairwise_iff_getElem.mp hA x y hx hy hxy
      intro x hx y hy
      have hx' : x < A.length := (List.mem_append.mp hx).elim (hda x) (hdb x)
      have hy' : y < A.length := (List.mem_append.mp hy).elim (hda y) (hdb y)
      rw [hget x hx', hget y hy']
      rcases lt_trichotomy x y with h5 | h5 | h5
      · have h6 := hmono x y hx' hy' h5
        exact ⟨iff_of_true h6 h5, fun e => absurd h6 (by rw [e]; exact lt_irrefl _)⟩
      · subst h5
        exact ⟨iff_of_false (lt_irrefl _) (lt_irrefl _), fun _ => rfl⟩
      · have h6 := hmono y x hy' hx' h5
        exact ⟨iff_of_false (not_lt.mpr h6.le) (by omega), fun e => absurd h6 (by rw [e]; exact lt_irrefl _)⟩
  · refine iff_of_false ?_ (by omega)
    have h3 := (hlu u'.length).mp (le_refl _)
    have h4 : ¬ stringToInt a < A.length ^ u'.length := fun h5 => by have := (hlt u'.length).mpr h5; omega
    omega

/-- C151: the alphabet of `b94encode` is ascending, so its texts sort by length and then as strings as the numbers. -/
theorem C151_b94 (a b : Bytes) (t u : List Char) (ht : b94encode a = some (.ok t)) (hu : b94encode b = some (.ok u)) :
    stringToInt a < stringToInt b ↔ t.length < u.length ∨ (t.length = u.length ∧ t < u) :=
  C151_ascending asciiPrintable (by decide) (by decide +kernel) a b t u ht hu

/-- C151: the alphabets of `b27encode` and `b85encode` are not ascending: one octet strings with `a < b` and texts of one
symbol in the reverse order. -/
theorem C151_not_b27_b85 :
    (∃ a b : UInt8, a < b ∧ ∃ c d : Char, b27encode [a] = some (.ok [c]) ∧ b27encode [b] = some (.ok [d]) ∧ d < c) ∧
    (∃ a b : UInt8, a < b ∧ ∃ c d : Char, b85encode [a] = some (.ok [c]) ∧ b85encode [b] = some (.ok [d]) ∧ d < c) := by
  have key : ∀ (A : List Char) (h2 : 2 ≤ A.length) (n : Nat), 0 < n → n < A.length → n < 256 →
      baseNEncode [UInt8.ofNat n] A = some (.ok [(A[n]?).getD (A[0]'(by omega))]) := by
    intro A h2 n h0 hn h256
    have : stringToInt [UInt8.ofNat n] = n := by
      rw [stringToInt_eq]
      simp [beValue, Nat.mod_eq_of_lt h256]
    rw [baseNEncode, baseNEncodeLoop_eq A h2, this, Nat.digits_of_lt _ n (by omega) hn]
    rfl
  refine ⟨⟨19, 20, by decide, 'Z', '2', ?_, ?_, by decide⟩, ⟨61, 62, by decide, 'z', '!', ?_, ?_, by decide⟩⟩
  · exact key b27chars (by decide) 19 (by decide) (by decide) (by decide)
  · exact key b27chars (by decide) 20 (by decide) (by decide) (by decide)
  · exact key b85chars (by decide) 61 (by decide) (by decide) (by decide)
  · exact key b85chars (by decide) 62 (by decide) (by decide) (by decide)

/-- C151: string comparison alone is not enough even for `b94encode`: 93 is written with one symbol, 94 with two, and
the longer text is the smaller string. -/
theorem C151_length_matters : ∃ t u : List Char, b94encode [93] = some (.ok t) ∧ b94encode [94] = some (.ok u) ∧
    t.length < u.length ∧ u < t := by
  refine ⟨['~'], ['"', '!'], ?_, ?_, by decide, by decide⟩
  · rw [b94encode, baseNEncode, baseNEncodeLoop_eq asciiPrintable (by decide)]
    have h : Nat.digits asciiPrintable.length (stringToInt [93]) = [93] := by
      rw [show asciiPrintable.length = 94 by decide, show stringToInt [93] = 93 by decide]
      norm_num
    rw [h]
    rfl
  · rw [b94encode, baseNEncode, baseNEncodeLoop_eq asciiPrintable (by decide)]
    have h : Nat.digits asciiPrintable.length (stringToInt [94]) = [0, 1] := by
      rw [show asciiPrintable.length = 94 by decide, show stringToInt [94] = 94 by decide]
      norm_num
    rw [h]
    rfl

/-- Texts that `C151_b94` and `C151_ascending` apply to. -/
example : ∃ t u, b94encode [93] = some (.ok t) ∧
    (stringToInt [93] < stringToInt [94] ↔ t.length < u.length ∨ (t.length = u.length ∧ t < u)) := by
  obtain ⟨t, u, h1, h2, -⟩ := C151_length_matters
  exact ⟨t, u, h1, C151_b94 _ _ t u h1 h2⟩

/-- Octet strings of one length and padded numbers that the theorems apply to. -/
example : ([1, 255] : Bytes) < [2, 0] ∧ stringToInt [1, 255] < stringToInt [2, 0] ∧
    intToString 511 (some 2) = .ok [1, 255] ∧ asciiPrintable.Pairwise (· < ·) := by
  refine ⟨by decide, by decide, by rw [intToString]; decide +kernel, by decide +kernel⟩

end Cryptopy
