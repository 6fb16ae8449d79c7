import Verif.Model.Encoding
import Verif.Spec.Encoding
import Mathlib.Data.Nat.Digits.Lemmas
import Mathlib.Tactic.Linarith
import Mathlib.Tactic.Ring

namespace Cryptopy
open Model Spec

theorem beValue_append (a b : Bytes) :
    beValue (a ++ b) = beValue a * 256 ^ b.length + beValue b := by
  induction a with
  | nil => simp [beValue]
  | cons c a ih => simp [beValue, ih, pow_add]; ring

theorem beValue_lt (s : Bytes) : beValue s < 256 ^ s.length := by
  induction s with
  | nil => simp [beValue]
  | cons c s ih =>
    have hc : c.toNat < 256 := c.toNat_lt
    simp only [beValue, List.length_cons, pow_succ]
    nlinarith [Nat.pow_pos (n := s.length) (show 0 < 256 by norm_num)]

theorem stringToInt_foldl (s : Bytes) (a : Nat) :
    s.foldl (fun acc c => 256 * acc + c.toNat) a = a * 256 ^ s.length + beValue s := by
  induction s generalizing a with
  | nil => simp [beValue]
  | cons c s ih => simp [beValue, ih, pow_succ]; ring

theorem stringToInt_eq (s : Bytes) : stringToInt s = beValue s := by
  simp [stringToInt, stringToInt_foldl]

theorem intToStringLoop_acc (n : Nat) (acc : Bytes) :
    intToStringLoop n acc = intToStringLoop n [] ++ acc := by
  induction n using Nat.strong_induction_on generalizing acc with
  | _ n ih =>
    by_cases h : n > 0
    · rw [intToStringLoop, if_pos h, ih _ (by omega)]
      conv_rhs => rw [intToStringLoop, if_pos h, ih _ (by omega)]
      simp
    · rw [intToStringLoop, if_neg h]
      conv_rhs => rw [intToStringLoop, if_neg h]
      simp

theorem intToStringLoop_zero : intToStringLoop 0 [] = [] := by
  rw [intToStringLoop]; simp

theorem intToStringLoop_pos {n : Nat} (h : 0 < n) :
    intToStringLoop n [] = intToStringLoop (n / 256) [] ++ [UInt8.ofNat (n % 256)] := by
  rw [intToStringLoop, if_pos h, intToStringLoop_acc]

theorem beValue_intToStringLoop (n : Nat) : beValue (intToStringLoop n []) = n := by
  induction n using Nat.strong_induction_on with
  | _ n ih =>
    by_cases h : 0 < n
    · rw [intToStringLoop_pos h, beValue_append, ih _ (by omega)]
      simp [beValue]
      omega
    · have : n = 0 := by omega
      subst this; simp [intToStringLoop_zero, beValue]

theorem intToStringLoop_canonical {n : Nat} (h : 0 < n) :
    ∃ c t, intToStringLoop n [] = c :: t ∧ c ≠ 0 := by
  induction n using Nat.strong_induction_on with
  | _ n ih =>
    rw [intToStringLoop_pos h]
    by_cases h2 : 0 < n / 256
    · obtain ⟨c, t, he, hc⟩ := ih (n / 256) (by omega) h2
      exact ⟨c, t ++ [UInt8.ofNat (n % 256)], by simp [he], hc⟩
    · have : n / 256 = 0 := by omega
      refine ⟨UInt8.ofNat (n % 256), [], by simp [this, intToStringLoop_zero], ?_⟩
      intro hz
      have := congrArg UInt8.toNat hz
      simp at this
      omega

theorem intToStringLoop_length_le {n k : Nat} :
    (intToStringLoop n []).length ≤ k ↔ n < 256 ^ k := by
  constructor
  · intro h
    have := beValue_lt (intToStringLoop n [])
    rw [beValue_intToStringLoop] at this
    exact lt_of_lt_of_le this (Nat.pow_le_pow_right (by norm_num) h)
  · intro h
    by_contra hlt
    push Not at hlt
    rcases Nat.eq_zero_or_pos n with rfl | hn
    · simp [intToStringLoop_zero] at hlt
    · obtain ⟨c, t, he, hc⟩ := intToStringLoop_canonical hn
      have hv := beValue_intToStringLoop n
      rw [he] at hv hlt
      simp only [beValue, List.length_cons] at hv hlt
      have hc' : 1 ≤ c.toNat := by
        rcases Nat.eq_zero_or_pos c.toNat with h0 | h0
        · exact absurd (UInt8.toNat_inj.mp (by simpa using h0)) hc
        · exact h0
      have : 256 ^ k ≤ 256 ^ t.length := Nat.pow_le_pow_right (by norm_num) (by omega)
      nlinarith

theorem beValue_replicate_zero (k : Nat) : beValue (List.replicate k 0) = 0 := by
  induction k with
  | zero => rfl
  | succ k ih => simp [List.replicate_succ, beValue, ih]

/-- A big-endian representation of fixed length is unique. -/
theorem beValue_inj {a b : Bytes} (hl : a.length = b.length) (h : beValue a = beValue b) :
    a = b := by
  induction a generalizing b with
  | nil => cases b with
    | nil => rfl
    | cons => simp at hl
  | cons c a ih =>
    cases b with
    | nil => simp at hl
    | cons d b =>
      simp only [List.length_cons, Nat.add_right_cancel_iff] at hl
      simp only [beValue, hl] at h
      have ha := beValue_lt a
      have hb := beValue_lt b
      rw [hl] at ha
      have h1 := congrArg (· / 256 ^ b.length) h
      have h2 := congrArg (· % 256 ^ b.length) h
      have hp : 0 < 256 ^ b.length := Nat.pow_pos (by norm_num)
      simp only [Nat.add_comm (_ * _), Nat.add_mul_div_right _ _ hp, Nat.div_eq_of_lt ha,
        Nat.div_eq_of_lt hb, Nat.zero_add] at h1
      simp only [Nat.add_comm (_ * _), Nat.add_mul_mod_self_right, Nat.mod_eq_of_lt ha,
        Nat.mod_eq_of_lt hb] at h2
      rw [UInt8.toNat_inj.mp h1, ih hl h2]

theorem Canonical.ne_nil {s : Bytes} (h : Canonical s) : s ≠ [] := by
  rcases h with rfl | ⟨c, t, rfl, _⟩ <;> simp

theorem u8_pos {c : UInt8} (h : c ≠ 0) : 1 ≤ c.toNat := by
  rcases Nat.eq_zero_or_pos c.toNat with h0 | h0
  · exact absurd (UInt8.toNat_inj.mp (by simpa using h0)) h
  · exact h0

theorem Canonical.eq_of_beValue {a b : Bytes} (ha : Canonical a) (hb : Canonical b)
    (h : beValue a = beValue b) : a = b := by
  have key : ∀ (c : UInt8) (t : Bytes) (d : UInt8) (u : Bytes), c ≠ 0 → d ≠ 0 →
      beValue (c :: t) = beValue (d :: u) → t.length ≤ u.length := by
    intro c t d u hc hd h
    by_contra hlt
    push Not at hlt
    have h1 : 256 ^ t.length ≤ beValue (c :: t) := by
      simp only [beValue]; nlinarith [u8_pos hc, Nat.pow_pos (n := t.length) (show 0 < 256 by norm_num)]
    have h2 := beValue_lt (d :: u)
    have h3 : 256 ^ (d :: u).length ≤ 256 ^ t.length :=
      Nat.pow_le_pow_right (by norm_num) (by simpa using hlt)
    omega
  have zero : ∀ (c : UInt8) (t : Bytes), c ≠ 0 → beValue (c :: t) ≠ beValue [0] := by
    intro c t hc he
    simp [beValue] at he
    have := u8_pos hc
    omega
  rcases ha with rfl | ⟨c, t, rfl, hc⟩ <;> rcases hb with rfl | ⟨d, u, rfl, hd⟩
  · rfl
  · exact absurd h.symm (zero d u hd)
  · exact absurd h (zero c t hc)
  · apply beValue_inj _ h
    have h1 := key c t d u hc hd h
    have h2 := key d u c t hd hc h.symm
    simp; omega

/-- What `int_to_string` does without padding. -/
theorem intToString_none (n : Nat) :
    ∃ s, intToString n none = .ok s ∧ Canonical s ∧ beValue s = n := by
  rcases Nat.eq_zero_or_pos n with rfl | hn
  · exact ⟨[0], by simp [intToString, padToStep], Or.inl rfl, by simp [beValue]⟩
  · refine ⟨intToStringLoop n [], ?_, Or.inr (intToStringLoop_canonical hn), beValue_intToStringLoop n⟩
    simp [intToString, padToStep, hn]

theorem padToStep_pos (s : Bytes) {k : Nat} (hk : 0 < k) :
    padToStep s (some (k : Int)) =
      if s.length ≤ k then .ok (List.replicate (k - s.length) 0 ++ s) else .error .assertion := by
  have : (k : Int) ≠ 0 := by omega
  simp only [padToStep, this, if_false, Py.repeat]
  by_cases h : s.length ≤ k
  · have h' : (k : Int) - s.length ≥ 0 := by omega
    rw [if_pos h', if_pos h]
    congr 3
    omega
  · have h' : ¬ (k : Int) - s.length ≥ 0 := by omega
    rw [if_neg h', if_neg h]

theorem padToStep_neg (s : Bytes) {k : Int} (hk : k < 0) :
    padToStep s (some k) = .error .assertion := by
  have : k ≠ 0 := by omega
  have h' : ¬ k - (s.length : Int) ≥ 0 := by omega
  simp only [padToStep, this, if_false]
  rw [if_neg h']

/-- What `int_to_string` does with a positive `padto`. -/
theorem intToString_pad (n : Nat) {k : Nat} (hk : 0 < k) :
    (n < 256 ^ k → ∃ s, intToString n (some (k : Int)) = .ok s ∧ s.length = k ∧ beValue s = n) ∧
    (¬ n < 256 ^ k → intToString n (some (k : Int)) = .error .assertion) := by
  rcases Nat.eq_zero_or_pos n with rfl | hn
  · constructor
    · intro _
      refine ⟨List.replicate (k - 1) 0 ++ [0], ?_, ?_, ?_⟩
      · simp [intToString, padToStep_pos _ hk]
        omega
      · simp; omega
      · rw [beValue_append, beValue_replicate_zero]; simp [beValue]
    · intro h
      exact absurd (Nat.pow_pos (by norm_num)) h
  · have hn' : (n : Int) > 0 := by omega
    have e : intToString n (some (k : Int)) =
        padToStep (intToStringLoop n []) (some (k : Int)) := by
      simp [intToString, hn]
    rw [e, padToStep_pos _ hk]
    constructor
    · intro h
      have hl := intToStringLoop_length_le.mpr h
      refine ⟨_, if_pos hl, ?_, ?_⟩
      · simp; omega
      · rw [beValue_append, beValue_replicate_zero, beValue_intToStringLoop]; simp
    · intro h
      have hl := fun x => h (intToStringLoop_length_le.mp x)
      rw [if_neg hl]

/-! ### xor -/

theorem xorLoop_eq (a b : Bytes) (n : Nat) (ha : n ≤ a.length) (hb : n ≤ b.length) :
    xorLoop a b n = .ok (List.zipWith (· ^^^ ·) (a.take n) (b.take n)) := by
  induction n with
  | zero => rfl
  | succ n ih =>
    have h := ih (by omega) (by omega)
    unfold xorLoop at h ⊢
    rw [List.range_succ, List.foldlM_append, h]
    have h1 : a[n]? = some (a[n]'(by omega)) := List.getElem?_eq_getElem (by omega)
    have h2 : b[n]? = some (b[n]'(by omega)) := List.getElem?_eq_getElem (by omega)
    have h1' : a.take (n+1) = a.take n ++ [a[n]'(by omega)] := by
      rw [List.take_add_one, h1]; rfl
    have h2' : b.take (n+1) = b.take n ++ [b[n]'(by omega)] := by
      rw [List.take_add_one, h2]; rfl
    simp only [bind, Except.bind, List.foldlM, h1, h2, pure, Except.pure]
    rw [h1', h2', List.zipWith_append]
    · simp
    · simp; omega

theorem xor_eq (a b : Bytes) :
    Model.xor a b = if a.length = b.length then .ok (xorBytes a b) else .error .assertion := by
  unfold Model.xor
  split
  · next h =>
    rw [xorLoop_eq _ _ _ le_rfl (by omega)]
    simp [xorBytes, h]
    rw [← h]; simp
  · rfl

theorem xorMin_eq (a b : Bytes) : xorMin a b = .ok (xorBytes a b) := by
  rw [xorMin, xorLoop_eq _ _ _ (by omega) (by omega)]
  congr 1
  simp only [xorBytes]
  induction a generalizing b with
  | nil => simp
  | cons c a ih =>
    cases b with
    | nil => simp
    | cons d b =>
      have : min (c :: a).length (d :: b).length = min a.length b.length + 1 := by
        simp only [List.length_cons]; omega
      rw [this]
      simp [ih b]

theorem length_xorBytes (a b : Bytes) : (xorBytes a b).length = min a.length b.length := by
  simp [xorBytes]

theorem xorBytes_comm (a b : Bytes) : xorBytes a b = xorBytes b a := by
  simp only [xorBytes]
  rw [List.zipWith_comm]
  congr 1
  funext x y
  exact UInt8.xor_comm y x

theorem xorBytes_self_right (a b : Bytes) (h : a.length ≤ b.length) :
    xorBytes (xorBytes a b) b = a := by
  induction a generalizing b with
  | nil => simp [xorBytes]
  | cons c a ih =>
    cases b with
    | nil => simp at h
    | cons d b =>
      have := ih b (by simpa using h)
      simp only [xorBytes] at this
      simp [xorBytes, this, UInt8.xor_assoc]

/-! ### base N -/

section baseN
variable {α : Type}

/-- Digits of `n` in base `b`, most significant first. -/
theorem baseNEncodeLoop_eq (A : List α) (hA : 2 ≤ A.length) (n : Nat) (out : List α) :
    baseNEncodeLoop A n out =
      some (.ok ((Nat.digits A.length n).reverse.map (fun d => (A[d]?).getD (A[0]'(by omega))) ++ out)) := by
  induction n using Nat.strong_induction_on generalizing out with
  | _ n ih =>
    rw [baseNEncodeLoop]
    by_cases h : n > 0
    · have hm : n % A.length < A.length := Nat.mod_lt _ (by omega)
      have he : A[n % A.length]? = some (A[n % A.length]'hm) := List.getElem?_eq_getElem hm
      rw [if_pos h, if_neg (by omega)]
      simp only [he]
      rw [ih _ (Nat.div_lt_self h (by omega))]
      rw [Nat.digits_def' (b := A.length) (n := n) (by omega) h]
      simp [hm]
    · have : n = 0 := by omega
      subst this
      simp

theorem posValue_append (b : Nat) (l : List Nat) (d : Nat) :
    posValue b (l ++ [d]) = b * posValue b l + d := by
  induction l with
  | nil => simp [posValue]
  | cons x l ih => simp [posValue, ih, pow_succ]; ring

theorem posValue_reverse (b : Nat) (l : List Nat) :
    posValue b l.reverse = Nat.ofDigits b l := by
  induction l with
  | nil => simp [posValue]
  | cons d l ih => rw [List.reverse_cons, posValue_append, ih, Nat.ofDigits_cons]; ring

variable [DecidableEq α]

theorem alphabetIndex_eq (A : List α) (c : α) :
    alphabetIndex A c = if c ∈ A then .ok (A.idxOf c) else .error .value := by
  unfold alphabetIndex
  have : A.idxOf? c = if c ∈ A then some (A.idxOf c) else none := by
    induction A with
    | nil => simp
    | cons x A ih =>
      rw [List.idxOf?_cons, List.idxOf_cons, ih]
      by_cases hx : x = c
      · simp [hx]
      · have hx' : ¬ c = x := fun h => hx h.symm
        have hb : (x == c) = false := by simpa using hx
        rw [hb]
        by_cases hc : c ∈ A <;> simp [hx', hc]
  rw [this]
  by_cases h : c ∈ A <;> simp [h]

theorem baseNDecodeLoop_eq (A : List α) (t : List α) (acc : Nat) :
    baseNDecodeLoop A t acc =
      if ∀ c ∈ t, c ∈ A then .ok (acc * A.length ^ t.length + posValue A.length (t.map (A.idxOf ·)))
      else .error .value := by
  induction t generalizing acc with
  | nil => simp [baseNDecodeLoop, posValue]
  | cons c t ih =>
    simp only [baseNDecodeLoop, alphabetIndex_eq]
    by_cases hc : c ∈ A
    · simp only [hc, if_true, ih]
      by_cases ht : ∀ c ∈ t, c ∈ A
      · rw [if_pos ht, if_pos (by simpa [hc] using ht)]
        congr 1
        simp [posValue, pow_succ]; ring
      · rw [if_neg ht, if_neg (by simpa [hc] using ht)]
    · simp [hc]

end baseN

end Cryptopy
