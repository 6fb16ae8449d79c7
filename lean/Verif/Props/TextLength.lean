import Verif.Props.Encoding

/-!
C131: how long base-N texts are.
-/

namespace Cryptopy
open Model Spec

/-- C131: a text has at most `L` symbols exactly when the octets, read as a big-endian number, are below `N ** L`; so the
empty text stands for every string of zero octets, and the length changes with the value, not only with the number of
octets. -/
theorem C131_length {α : Type} (A : List α) (h2 : 2 ≤ A.length) (s : Bytes) :
    ∃ t, baseNEncode s A = some (.ok t) ∧ ∀ L, t.length ≤ L ↔ beValue s < A.length ^ L := by
  refine ⟨_, by rw [baseNEncode, baseNEncodeLoop_eq A h2], fun L => ?_⟩
  rw [List.append_nil, List.length_map, List.length_reverse, Nat.digits_length_le_iff (by omega), stringToInt_eq]

private theorem beValue_ff (n : Nat) : beValue (List.replicate n 0xff) = 256 ^ n - 1 := by
  induction n with
  | zero => rfl
  | succ n ih =>
    have : 0 < 256 ^ n := by positivity
    rw [List.replicate_succ, beValue, ih, List.length_replicate, pow_succ, show (0xff : UInt8).toNat = 255 by rfl]
    omega

/-- C131: `L` symbols are enough for all strings of `n` octets exactly when `256 ** n ≤ N ** L`, and the longest text is
that of `n` octets `ff`. -/
theorem C131_enough {α : Type} (A : List α) (h2 : 2 ≤ A.length) (n L : Nat) :
    (256 ^ n ≤ A.length ^ L ↔ ∀ s t, s.length = n → baseNEncode s A = some (.ok t) → t.length ≤ L) ∧
    (256 ^ n ≤ A.length ^ L ↔ ∀ t, baseNEncode (List.replicate n 0xff) A = some (.ok t) → t.length ≤ L) := by
  have hpos : 0 < 256 ^ n := by positivity
  have one : ∀ s t, s.length = n → baseNEncode s A = some (.ok t) → 256 ^ n ≤ A.length ^ L → t.length ≤ L := by
    intro s t hs ht h
    obtain ⟨t', e, hL⟩ := C131_length A h2 s
    rw [ht] at e
    obtain rfl : t = t' := by simpa using e
    rw [hL]
    have := beValue_lt s
    rw [hs] at this
    omega
  have two : (∀ t, baseNEncode (List.replicate n 0xff) A = some (.ok t) → t.length ≤ L) → 256 ^ n ≤ A.length ^ L := by
    intro h
    obtain ⟨t, e, hL⟩ := C131_length A h2 (List.replicate n 0xff)
    have := (hL L).mp (h t e)
    rw [beValue_ff] at this
    omega
  refine ⟨⟨fun h s t hs ht => one s t hs ht h, fun h => two fun t ht => h _ t (by simp) ht⟩,
    fun h t ht => one _ t (by simp) ht h, two⟩
example := C131_enough b85chars (by decide) 16 20

/-- The longest texts of 6 octets (service identifiers) and 16 octets (universal ones), by base. -/
theorem C131_shipped (s : Bytes) :
    (s.length = 6 → ∃ t u v, b27encode s = some (.ok t) ∧ b85encode s = some (.ok u) ∧ b94encode s = some (.ok v) ∧
      t.length ≤ 11 ∧ u.length ≤ 8 ∧ v.length ≤ 8) ∧
    (s.length = 16 → ∃ t u v, b27encode s = some (.ok t) ∧ b85encode s = some (.ok u) ∧ b94encode s = some (.ok v) ∧
      t.length ≤ 27 ∧ u.length ≤ 20 ∧ v.length ≤ 20) := by
  obtain ⟨⟨-, l1⟩, ⟨-, l2⟩, ⟨-, l3⟩⟩ := C07_alphabets
  have key : ∀ (A : List Char) (L n : Nat), 2 ≤ A.length → 256 ^ n ≤ A.length ^ L → s.length = n →
      ∃ t, baseNEncode s A = some (.ok t) ∧ t.length ≤ L := by
    intro A L n h2 hL hs
    obtain ⟨t, e, -⟩ := C131_length A h2 s
    exact ⟨t, e, (C131_enough A h2 n L).1.mp hL s t hs e⟩
  constructor
  · intro hs
    obtain ⟨t, e1, h1⟩ := key b27chars 11 6 (by omega) (by rw [l1]; norm_num) hs
    obtain ⟨u, e2, h2⟩ := key b85chars 8 6 (by omega) (by rw [l2]; norm_num) hs
    obtain ⟨v, e3, h3⟩ := key asciiPrintable 8 6 (by omega) (by rw [l3]; norm_num) hs
    exact ⟨t, u, v, e1, e2, e3, h1, h2, h3⟩
  · intro hs
    obtain ⟨t, e1, h1⟩ := key b27chars 27 16 (by omega) (by rw [l1]; norm_num) hs
    obtain ⟨u, e2, h2⟩ := key b85chars 20 16 (by omega) (by rw [l2]; norm_num) hs
    obtain ⟨v, e3, h3⟩ := key asciiPrintable 20 16 (by omega) (by rw [l3]; norm_num) hs
    exact ⟨t, u, v, e1, e2, e3, h1, h2, h3⟩

/-- Four octets need five symbols of base 85, as 85 ** 4 is below 2 ** 32. -/
example : ∃ t, b85encode [0xff, 0xff, 0xff, 0xff] = some (.ok t) ∧ ¬ t.length ≤ 4 := by
  obtain ⟨t, e, h⟩ := C131_length b85chars (by decide +kernel) [0xff, 0xff, 0xff, 0xff]
  exact ⟨t, e, by rw [h]; decide +kernel⟩

end Cryptopy
