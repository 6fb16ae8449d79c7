import Verif.Lemmas.Encoding

/-!
Properties C01 to C08: octet string conversions, base N text and xor.
-/

namespace Cryptopy
open Model Spec

/-- C01: whatever `int_to_string` returns, `string_to_int` maps it back to the integer. -/
theorem C01_int_roundtrip (n : Int) (padto : Option Int) (s : Bytes)
    (h : intToString n padto = .ok s) : (stringToInt s : Int) = n := by
  rw [stringToInt_eq]
  rcases lt_trichotomy n 0 with hn | rfl | hn
  · simp [intToString, show ¬ n > 0 by omega, show n ≠ 0 by omega] at h
  · have hz : ∀ s, padToStep [0] padto = .ok s → beValue s = 0 := by
      intro s hs
      rcases padto with _ | k
      · simp [padToStep] at hs; subst hs; simp [beValue]
      · unfold padToStep at hs
        split at hs
        · simp at *
        · next he =>
          simp only [Option.some.injEq] at he; subst he
          split at hs
          · simp at hs; subst hs; simp [beValue]
          · simp only at hs
            split at hs
            · simp only [Except.ok.injEq] at hs; subst hs
              rw [beValue_append, Py.repeat, beValue_replicate_zero]; simp [beValue]
            · simp at hs
    simp [intToString] at h
    simpa using hz s h
  · obtain ⟨m, rfl⟩ := Int.eq_ofNat_of_zero_le hn.le
    have hm : 0 < m := by omega
    simp only [intToString, hn, if_true, Int.toNat_natCast] at h
    rcases padto with _ | k
    · simp [padToStep] at h; subst h; rw [beValue_intToStringLoop]
    · rcases lt_trichotomy k 0 with hk | rfl | hk
      · rw [padToStep_neg _ hk] at h; simp at h
      · simp [padToStep] at h; subst h; rw [beValue_intToStringLoop]
      · obtain ⟨j, rfl⟩ := Int.eq_ofNat_of_zero_le hk.le
        rw [padToStep_pos _ (by omega)] at h
        split at h
        · simp only [Except.ok.injEq] at h; subst h
          rw [beValue_append, beValue_replicate_zero, beValue_intToStringLoop]; simp
        · simp at h
example := C01_int_roundtrip 65537 (some 4) [0, 1, 0, 1] (by decide +kernel)

/-- C01 for the copy in `ecc/ecc.py`. -/
theorem C01_ecc_int_roundtrip (n : Int) (padto : Option Int) (s : Bytes)
    (h : eccIntToString n padto = .ok s) : (stringToInt s : Int) = n := by
  unfold eccIntToString at h
  split at h
  · split at h
    · next h0 => simp at h; subst h; subst h0; simp [stringToInt]
    · refine C01_int_roundtrip n padto s ?_
      rw [intToString, if_pos (by omega)]; exact h
  · simp at h

example : intToString 65537 (some 4) = .ok [0, 1, 0, 1] := by decide +kernel
example : eccIntToString 65537 (some 4) = .ok [0, 1, 0, 1] := by decide +kernel

/-- C02: a non-empty octet string survives the trip through an integer when padded to its own
length. -/
theorem C02_bytes_roundtrip (s : Bytes) (hs : s ≠ []) :
    intToString (stringToInt s) (some s.length) = .ok s := by
  have hl : 0 < s.length := List.length_pos_iff.mpr hs
  obtain ⟨t, ht, hlen, hv⟩ := (intToString_pad (beValue s) hl).1 (beValue_lt s)
  rw [stringToInt_eq, ht, beValue_inj hlen hv]
example := C02_bytes_roundtrip [0, 0, 7] (by decide)

/-- C02 for the copy in `ecc/ecc.py`: it fails exactly on all-zero strings of two or more octets
(and on the empty string, where the answer is one zero octet). -/
theorem C02_ecc_bytes_roundtrip (s : Bytes) :
    eccIntToString (stringToInt s) (some s.length) = .ok s ↔
      s.length = 1 ∨ ∃ c ∈ s, c ≠ 0 := by
  have hzero : ∀ s : Bytes, beValue s = 0 ↔ ∀ c ∈ s, c = 0 := by
    intro s
    induction s with
    | nil => simp [beValue]
    | cons c s ih =>
      simp only [beValue, Nat.add_eq_zero_iff, Nat.mul_eq_zero, ih, List.mem_cons,
        forall_eq_or_imp, Nat.pow_eq_zero]
      constructor
      · rintro ⟨h1, h2⟩
        refine ⟨UInt8.toNat_inj.mp (by simpa using h1), h2⟩
      · rintro ⟨rfl, h2⟩
        exact ⟨by simp, h2⟩
  rw [stringToInt_eq]
  by_cases h0 : beValue s = 0
  · have hall := (hzero s).mp h0
    rw [h0]
    have e : eccIntToString ((0 : Nat) : Int) (some s.length) = .ok [0] := by
      simp [eccIntToString]
    rw [e]
    constructor
    · intro h
      simp only [Except.ok.injEq] at h
      left; rw [← h]; rfl
    · rintro (h | ⟨c, hc, hne⟩)
      · obtain ⟨c, rfl⟩ := List.length_eq_one_iff.mp h
        have := hall c (by simp)
        rw [this]
      · exact absurd (hall c hc) hne
  · constructor
    · intro _
      right
      by_contra hne
      push Not at hne
      exact h0 ((hzero s).mpr hne)
    · intro _
      have hs : s ≠ [] := by rintro rfl; simp [beValue] at h0
      have := C02_bytes_roundtrip s hs
      rw [stringToInt_eq] at this
      rw [← this]
      have hp : (beValue s : Int) > 0 := by omega
      have hp' : (beValue s : Int) ≥ 0 := by omega
      rw [eccIntToString, if_pos hp', if_neg (by omega), intToString, if_pos hp]

example : intToString (stringToInt [0, 0, 7]) (some 3) = .ok [0, 0, 7] := by decide +kernel
/-- Two zero octets are returned as one by the `ecc/ecc.py` copy. -/
example : eccIntToString (stringToInt [0, 0]) (some 2) = .ok [0] := by decide +kernel

/-- C03: the complete input-output contract of `int_to_string`. -/
theorem C03_int_to_string_contract (n : Int) (padto : Option Int) :
    (n < 0 → intToString n padto = .error .value) ∧
    (0 ≤ n → (padto = none ∨ padto = some 0) →
      ∃ s, intToString n padto = .ok s ∧ Canonical s ∧ (beValue s : Int) = n) ∧
    (∀ k : Int, padto = some k → k ≠ 0 → 0 ≤ n → n < 256 ^ k.toNat → 0 < k →
      ∃ s, intToString n padto = .ok s ∧ (s.length : Int) = k ∧ (beValue s : Int) = n) ∧
    (∀ k : Int, padto = some k → k ≠ 0 → 0 ≤ n → (256 ^ k.toNat ≤ n ∨ k < 0) →
      intToString n padto = .error .assertion) := by
  refine ⟨?_, ?_, ?_, ?_⟩
  · intro h
    rw [intToString, if_neg (by omega), if_neg (by omega)]
  · intro h hp
    obtain ⟨m, rfl⟩ := Int.eq_ofNat_of_zero_le h
    obtain ⟨s, hs, hc, hv⟩ := intToString_none m
    refine ⟨s, ?_, hc, by simp [hv]⟩
    rcases hp with rfl | rfl
    · exact hs
    · rw [← hs]; simp [intToString, padToStep]
  · rintro k rfl hk h hlt hk0
    obtain ⟨m, rfl⟩ := Int.eq_ofNat_of_zero_le h
    obtain ⟨j, rfl⟩ := Int.eq_ofNat_of_zero_le hk0.le
    obtain ⟨s, hs, hl, hv⟩ := (intToString_pad m (k := j) (by omega)).1 (by simpa using (by exact_mod_cast hlt))
    exact ⟨s, hs, by simp [hl], by simp [hv]⟩
  · rintro k rfl hk h hor
    obtain ⟨m, rfl⟩ := Int.eq_ofNat_of_zero_le h
    rcases lt_or_gt_of_ne hk with hneg | hpos
    · by_cases hm : (m : Int) > 0
      · rw [intToString, if_pos hm, padToStep_neg _ hneg]
      · rw [intToString, if_neg hm, if_pos (by omega), padToStep_neg _ hneg]
    · obtain ⟨j, rfl⟩ := Int.eq_ofNat_of_zero_le hpos.le
      refine (intToString_pad m (k := j) (by omega)).2 ?_
      rcases hor with h1 | h1
      · intro hc
        have : (m : Int) < 256 ^ j := by exact_mod_cast hc
        simp at h1
        omega
      · omega

example : intToString 256 (some 1) = .error .assertion := by decide +kernel
example : intToString 255 (some 1) = .ok [255] := by decide +kernel
example : intToString 0 (some 0) = .ok [0] := by decide +kernel

section baseN
variable {α : Type} [DecidableEq α]

private theorem map_getElem_idxOf (A : List α) (hA : A.Nodup) (d0 : α) (ds : List Nat)
    (hds : ∀ d ∈ ds, d < A.length) :
    (ds.map (fun d => (A[d]?).getD d0)).map (A.idxOf ·) = ds := by
  induction ds with
  | nil => rfl
  | cons d ds ih =>
    have hd : d < A.length := hds d (by simp)
    rw [List.map_cons, List.map_cons, ih (fun x hx => hds x (by simp [hx]))]
    congr 1
    rw [List.getElem?_eq_getElem hd]
    simpa using hA.idxOf_getElem d hd

/-- C04: base N text round trip, for every alphabet of at least two distinct symbols.  The encoder
terminates and emits only alphabet symbols. -/
theorem C04_base_n_roundtrip (A : List α) (hA : A.Nodup) (h2 : 2 ≤ A.length) (s : Bytes)
    (hs : s ≠ []) :
    ∃ t, baseNEncode s A = some (.ok t) ∧ (∀ c ∈ t, c ∈ A) ∧
      baseNDecode t A (some s.length) = .ok s := by
  set ds := (Nat.digits A.length (stringToInt s)).reverse with hds
  have hlt : ∀ d ∈ ds, d < A.length := by
    intro d hd
    exact Nat.digits_lt_base (by omega) (by simpa [hds] using hd)
  refine ⟨ds.map (fun d => (A[d]?).getD (A[0]'(by omega))), ?_, ?_, ?_⟩
  · rw [baseNEncode, baseNEncodeLoop_eq A h2]; simp [hds]
  · intro c hc
    obtain ⟨d, hd, rfl⟩ := List.mem_map.mp hc
    rw [List.getElem?_eq_getElem (hlt d hd)]; simp
  · have hmem : ∀ c ∈ ds.map (fun d => (A[d]?).getD (A[0]'(by omega))), c ∈ A := by
      intro c hc
      obtain ⟨d, hd, rfl⟩ := List.mem_map.mp hc
      rw [List.getElem?_eq_getElem (hlt d hd)]; simp
    rw [baseNDecode, baseNDecodeLoop_eq, if_pos hmem, map_getElem_idxOf A hA _ ds hlt]
    simp only [Nat.zero_mul, Nat.zero_add]
    rw [hds, posValue_reverse, Nat.ofDigits_digits]
    exact C02_bytes_roundtrip s hs

example : baseNEncode [1, 0] ['a', 'b'] = some (.ok "baaaaaaaa".toList) := by
  rw [baseNEncode, baseNEncodeLoop_eq _ (by decide)]; decide +kernel
example : baseNDecode "baaaaaaaa".toList ['a', 'b'] (some 2) = .ok [1, 0] := by decide +kernel

/-- C06: a foreign symbol raises `ValueError`; without one the decoded number is the positional
value of the symbol positions, in shortest octet form when no padding is requested. -/
theorem C06_decode_positional (A : List α) (t : List α) (padto : Option Int) :
    (baseNDecode t A padto = .error .value ↔ ∃ c ∈ t, c ∉ A) ∧
    ((∀ c ∈ t, c ∈ A) → ∃ r ds, baseNDecode t A none = .ok r ∧ Canonical r ∧
      ds.length = t.length ∧ (∀ i (h1 : i < ds.length) (h2 : i < t.length), A[ds[i]]? = some t[i]) ∧
      beValue r = posValue A.length ds) := by
  constructor
  · constructor
    · intro h
      by_contra hne
      push Not at hne
      rw [baseNDecode, baseNDecodeLoop_eq, if_pos hne] at h
      simp only at h
      set m := 0 * A.length ^ t.length + posValue A.length (t.map (A.idxOf ·))
      have hc := C03_int_to_string_contract (m : Int) padto
      rcases padto with _ | k
      · obtain ⟨s, hs, _⟩ := hc.2.1 (by omega) (Or.inl rfl)
        rw [hs] at h; simp at h
      · by_cases hk : k = 0
        · subst hk
          obtain ⟨s, hs, _⟩ := hc.2.1 (by omega) (Or.inr rfl)
          rw [hs] at h; simp at h
        · by_cases hlt : (m : Int) < 256 ^ k.toNat ∧ 0 < k
          · obtain ⟨s, hs, _⟩ := hc.2.2.1 k rfl hk (by omega) hlt.1 hlt.2
            rw [hs] at h; simp at h
          · rw [hc.2.2.2 k rfl hk (by omega) (by
              by_contra hx
              push Not at hx
              exact hlt ⟨hx.1, by omega⟩)] at h
            simp at h
    · rintro ⟨c, hc, hn⟩
      rw [baseNDecode, baseNDecodeLoop_eq, if_neg (by
        intro hall; exact hn (hall c hc))]
  · intro hall
    obtain ⟨s, hs, hcan, hv⟩ := intToString_none (posValue A.length (t.map (A.idxOf ·)))
    refine ⟨s, t.map (A.idxOf ·), ?_, hcan, by simp, ?_, hv⟩
    · rw [baseNDecode, baseNDecodeLoop_eq, if_pos hall]
      simpa using hs
    · intro i h1 h2
      have hm := hall t[i] (List.getElem_mem h2)
      have hlt := List.idxOf_lt_length_of_mem hm
      simp [List.getElem?_eq_getElem hlt]

example : baseNDecode ['a', 'z'] ['a', 'b'] = .error .value := by decide +kernel
example : baseNDecode "bab".toList ['a', 'b'] = .ok [5] := by decide +kernel

private theorem digits_posValue (b : Nat) (hb : 2 ≤ b) (ds : List Nat) (h : ∀ d ∈ ds, d < b) :
    (Nat.digits b (posValue b ds)).reverse = ds.dropWhile (· == 0) := by
  induction ds with
  | nil => simp [posValue]
  | cons d ds ih =>
    have hds : ∀ x ∈ ds, x < b := fun x hx => h x (by simp [hx])
    by_cases h0 : d = 0
    · subst h0
      simp [posValue, ih hds]
    · have e : posValue b (d :: ds) = Nat.ofDigits b (d :: ds).reverse := by
        rw [← posValue_reverse]; simp
      rw [e, Nat.digits_ofDigits b (by omega)]
      · simp [h0]
      · intro x hx; exact h x (by simpa [or_comm] using hx)
      · intro hne
        simpa using h0

/-- C07: decoding and encoding again removes exactly the leading zero symbols. -/
theorem C07_encode_decode (A : List α) (hA : A.Nodup) (h2 : 2 ≤ A.length) (t : List α)
    (ht : ∀ c ∈ t, c ∈ A) :
    ∃ r, baseNDecode t A = .ok r ∧
      baseNEncode r A = some (.ok (t.dropWhile (· == A[0]'(by omega)))) := by
  obtain ⟨s, hs, hcan, hv⟩ := intToString_none (posValue A.length (t.map (A.idxOf ·)))
  refine ⟨s, ?_, ?_⟩
  · rw [baseNDecode, baseNDecodeLoop_eq, if_pos ht]
    simpa using hs
  · rw [baseNEncode, baseNEncodeLoop_eq A h2, stringToInt_eq, hv, digits_posValue _ h2]
    · rw [List.append_nil]
      congr 2
      clear hs hcan hv
      induction t with
      | nil => simp
      | cons c t ih =>
        have hc : c ∈ A := ht c (by simp)
        have hlt := List.idxOf_lt_length_of_mem hc
        have iff0 : A.idxOf c = 0 ↔ c = A[0]'(by omega) := by
          constructor
          · intro h
            have := List.getElem_idxOf hlt
            rw [← this]; congr 1
          · intro h
            rw [h]; exact hA.idxOf_getElem 0 (by omega)
        by_cases h0 : c = A[0]'(by omega)
        · have : A.idxOf c = 0 := iff0.mpr h0
          simp only [List.map_cons, this]
          rw [List.dropWhile_cons_of_pos (by simp), List.dropWhile_cons_of_pos (by simpa using h0)]
          exact ih (fun x hx => ht x (by simp [hx]))
        · have hne : A.idxOf c ≠ 0 := fun h => h0 (iff0.mp h)
          rw [List.map_cons, List.dropWhile_cons_of_neg (by simpa using hne),
            List.dropWhile_cons_of_neg (by simpa using h0)]
          have : ∀ u : List α, (∀ x ∈ u, x ∈ A) →
              (u.map (A.idxOf ·)).map (fun d => (A[d]?).getD (A[0]'(by omega))) = u := by
            intro u hu
            induction u with
            | nil => rfl
            | cons x u ihu =>
              have hx := List.idxOf_lt_length_of_mem (hu x (by simp))
              rw [List.map_cons, List.map_cons, ihu (fun y hy => hu y (by simp [hy]))]
              simp [List.getElem?_eq_getElem hx]
          exact this (c :: t) ht
    · intro d hd
      obtain ⟨c, hc, rfl⟩ := List.mem_map.mp hd
      exact List.idxOf_lt_length_of_mem (ht c hc)
example := C07_encode_decode b27chars (by decide) (by decide) "AAHEN".toList (by decide)

/-- C07: texts that do not start with the zero symbol are recovered, and two of them with the same
octets are equal. -/
theorem C07_decode_injective (A : List α) (hA : A.Nodup) (h2 : 2 ≤ A.length) (t u : List α)
    (ht : ∀ c ∈ t, c ∈ A) (hu : ∀ c ∈ u, c ∈ A)
    (ht0 : t.head? ≠ some (A[0]'(by omega))) (hu0 : u.head? ≠ some (A[0]'(by omega)))
    (h : baseNDecode t A = baseNDecode u A) : t = u := by
  obtain ⟨r, hr, he⟩ := C07_encode_decode A hA h2 t ht
  obtain ⟨r', hr', he'⟩ := C07_encode_decode A hA h2 u hu
  have hrr : r = r' := by
    rw [hr, hr'] at h; simpa using h
  subst hrr
  rw [he] at he'
  have drop : ∀ v : List α, v.head? ≠ some (A[0]'(by omega)) →
      v.dropWhile (· == A[0]'(by omega)) = v := by
    intro v hv
    cases v with
    | nil => rfl
    | cons c v => rw [List.dropWhile_cons_of_neg]; simpa using hv
  rw [drop t ht0, drop u hu0] at he'
  simpa using he'
example (u : List Char) := C07_decode_injective b27chars (by decide) (by decide) "HEN".toList u (by decide)

end baseN

/-- C07: the shipped alphabets have 27, 85 and 94 distinct symbols. -/
theorem C07_alphabets :
    (b27chars.Nodup ∧ b27chars.length = 27) ∧ (b85chars.Nodup ∧ b85chars.length = 85) ∧
      (asciiPrintable.Nodup ∧ asciiPrintable.length = 94) := by
  decide +kernel

/-- C07: the symbols are graphic ASCII characters, and the base 94 alphabet is all of them in the order of
their codes. -/
theorem C07_graphic :
    (∀ c : Char, c ∈ asciiPrintable ↔ 33 ≤ c.toNat ∧ c.toNat ≤ 126) ∧
      (∀ i (h : i < asciiPrintable.length), asciiPrintable[i].toNat = 33 + i) ∧
      (∀ c ∈ b85chars, 33 ≤ c.toNat ∧ c.toNat ≤ 126) ∧
      (∀ c ∈ b27chars, (48 ≤ c.toNat ∧ c.toNat ≤ 57) ∨ (65 ≤ c.toNat ∧ c.toNat ≤ 90)) := by
  have h1 : ∀ i (h : i < asciiPrintable.length), asciiPrintable[i].toNat = 33 + i := by decide +kernel
  refine ⟨fun c => ⟨fun h => ?_, fun h => ?_⟩, h1, by decide +kernel, by decide +kernel⟩
  · have : ∀ c ∈ asciiPrintable, 33 ≤ c.toNat ∧ c.toNat ≤ 126 := by decide +kernel
    exact this c h
  · have hlen : asciiPrintable.length = 94 := C07_alphabets.2.2.2
    have h2 := h1 (c.toNat - 33) (by omega)
    have h3 : asciiPrintable[c.toNat - 33]'(by omega) = c := by
      apply Char.ext
      apply UInt32.toNat_inj.mp
      change (asciiPrintable[c.toNat - 33]'(by omega)).toNat = c.toNat
      omega
    rw [← h3]
    exact List.getElem_mem _

private theorem canonical_iff_unpadded {α : Type} [DecidableEq α] (A : List α) (hA : A.Nodup)
    (h2 : 2 ≤ A.length) (s : Bytes) (t : List α) (h : baseNEncode s A = some (.ok t)) :
    baseNDecode t A = .ok s ↔ Canonical s := by
  set ds := (Nat.digits A.length (stringToInt s)).reverse with hds
  have hlt : ∀ d ∈ ds, d < A.length := by
    intro d hd
    exact Nat.digits_lt_base (by omega) (by simpa [hds] using hd)
  have ht : t = ds.map (fun d => (A[d]?).getD (A[0]'(by omega))) := by
    rw [baseNEncode, baseNEncodeLoop_eq A h2] at h
    simpa [hds] using h.symm
  have hmem : ∀ c ∈ t, c ∈ A := by
    intro c hc
    rw [ht] at hc
    obtain ⟨d, hd, rfl⟩ := List.mem_map.mp hc
    rw [List.getElem?_eq_getElem (hlt d hd)]; simp
  have hdec : baseNDecode t A = intToString (beValue s) none := by
    rw [baseNDecode, baseNDecodeLoop_eq, if_pos hmem, ht, map_getElem_idxOf A hA _ ds hlt]
    simp only [Nat.zero_mul, Nat.zero_add]
    rw [hds, posValue_reverse, Nat.ofDigits_digits, stringToInt_eq]
  obtain ⟨r, hr, hcan, hv⟩ := intToString_none (beValue s)
  rw [hdec, hr]
  constructor
  · intro he
    simp only [Except.ok.injEq] at he
    rwa [← he]
  · intro hc
    rw [Canonical.eq_of_beValue hcan hc hv]

/-- C05: for the three shipped codecs the round trip holds exactly for canonical strings, whatever
`padto` is passed to the decoder. -/
theorem C05_padto_ignored (s : Bytes) (padto : Option Int) :
    (∃ t, b27encode s = some (.ok t) ∧ (b27decode t padto = .ok s ↔ Canonical s)) ∧
    (∃ t, b85encode s = some (.ok t) ∧ (b85decode t padto = .ok s ↔ Canonical s)) ∧
    (∃ t, b94encode s = some (.ok t) ∧ (b94decode t padto = .ok s ↔ Canonical s)) := by
  obtain ⟨⟨n1, l1⟩, ⟨n2, l2⟩, ⟨n3, l3⟩⟩ := C07_alphabets
  have key : ∀ (A : List Char), A.Nodup → 2 ≤ A.length →
      ∃ t, baseNEncode s A = some (.ok t) ∧ (baseNDecode t A = .ok s ↔ Canonical s) := by
    intro A hA h2
    have e := baseNEncodeLoop_eq A h2 (stringToInt s) []
    exact ⟨_, e, canonical_iff_unpadded A hA h2 s _ e⟩
  exact ⟨key _ n1 (by omega), key _ n2 (by omega), key _ n3 (by omega)⟩

/-- A leading zero octet is lost even though `padto` asks for it. -/
example : b27decode "B".toList (some 2) = .ok [1] ∧ ¬ Canonical [0, 1] := by
  refine ⟨by decide +kernel, ?_⟩
  rintro (h | ⟨c, t, h, hc⟩)
  · simp at h
  · simp at h; exact hc h.1.symm

/-- C08: `xor` refuses different lengths and is otherwise the octet-wise exclusive or. -/
theorem C08_xor (a b : Bytes) :
    (a.length ≠ b.length → Model.xor a b = .error .assertion) ∧
    (a.length = b.length →
      ∃ c, Model.xor a b = .ok c ∧ c.length = a.length ∧
        (∀ i (h1 : i < c.length) (h2 : i < a.length) (h3 : i < b.length), c[i] = a[i] ^^^ b[i]) ∧
        Model.xor b a = .ok c ∧ Model.xor c b = .ok a) := by
  constructor
  · intro h; rw [xor_eq, if_neg h]
  · intro h
    have hl : (xorBytes a b).length = a.length := by rw [length_xorBytes]; omega
    refine ⟨xorBytes a b, by rw [xor_eq, if_pos h], hl, ?_, ?_, ?_⟩
    · intro i h1 h2 h3; simp [xorBytes]
    · rw [xor_eq, if_pos h.symm, xorBytes_comm]
    · rw [xor_eq, if_pos (by omega), xorBytes_self_right _ _ (by omega)]

/-- C08: `xor_min` never raises and is `xor` of the strings cut to the shorter length. -/
theorem C08_xor_min (a b : Bytes) :
    ∃ c, xorMin a b = .ok c ∧ c.length = min a.length b.length ∧
      Model.xor (a.take b.length) (b.take a.length) = .ok c := by
  refine ⟨xorBytes a b, xorMin_eq a b, length_xorBytes a b, ?_⟩
  rw [xor_eq, if_pos (by simp [Nat.min_comm])]
  congr 1
  have h1 := xorMin_eq a b
  rw [xorMin, xorLoop_eq _ _ _ (by omega) (by omega)] at h1
  simp only [Except.ok.injEq] at h1
  rw [← h1, xorBytes]
  congr 1
  · rcases Nat.le_total a.length b.length with h | h
    · rw [Nat.min_eq_left h, List.take_of_length_le h]; simp
    · rw [Nat.min_eq_right h]
  · rcases Nat.le_total a.length b.length with h | h
    · rw [Nat.min_eq_left h]
    · rw [Nat.min_eq_right h, List.take_of_length_le h]; simp

example : Model.xor [1, 2] [3, 255] = .ok [2, 253] := by decide +kernel
example : Model.xor [1, 2] [3] = .error .assertion := by decide +kernel
example : xorMin [1, 2] [3] = .ok [2] := by decide +kernel

end Cryptopy
