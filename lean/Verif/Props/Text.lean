import Verif.Model.Text
import Mathlib.Data.Nat.Digits.Lemmas

/-!
C127: what the text form of a point or of a field element says.
-/

namespace Cryptopy
open Model (WPoint WCurve GFpElem decimalInt decimalNat)

namespace Text

/-- The value of a string of decimal digits, from left to right. -/
def readNat (s : List Char) : Nat := s.foldl (fun v c => 10 * v + (c.toNat - 48)) 0

/-- Reading an integer: an optional minus sign and digits. -/
def readInt : List Char → Int
  | '-' :: s => -(readNat s : Int)
  | s => readNat s

/-- Reading a point: the text between the parentheses, cut at the comma. -/
def readPoint (s : List Char) : Option Int × Option Int :=
  match s with
  | '(' :: t =>
    let u := t.takeWhile (· ≠ ',')
    let v := (t.dropWhile (· ≠ ',')).drop 1
    (some (readInt u), some (readInt v.dropLast))
  | _ => (none, none)

theorem digit_toNat (d : Nat) (h : d < 10) : (Char.ofNat (48 + d)).toNat = 48 + d := by
  have : ∀ d : Fin 10, (Char.ofNat (48 + d.val)).toNat = 48 + d.val := by decide
  exact this ⟨d, h⟩

theorem readNat_append (a : List Char) (c : Char) : readNat (a ++ [c]) = 10 * readNat a + (c.toNat - 48) := by
  unfold readNat
  rw [List.foldl_append]
  rfl

theorem readNat_digits (l : List Nat) (h : ∀ d ∈ l, d < 10) :
    readNat ((l.map fun d => Char.ofNat (48 + d)).reverse) = Nat.ofDigits 10 l := by
  induction l with
  | nil => rfl
  | cons d l ih =>
    rw [List.map_cons, List.reverse_cons, readNat_append, ih (fun e he => h e (List.mem_cons_of_mem _ he)),
      digit_toNat d (h d (by simp)), Nat.ofDigits_cons]
    simp
    omega

theorem readNat_decimalNat (n : Nat) : readNat (decimalNat n) = n := by
  unfold decimalNat
  split
  · next h => subst h; rfl
  · rw [readNat_digits _ (fun d hd => Nat.digits_lt_base (by omega) hd), Nat.ofDigits_digits]

theorem decimalNat_chars (n : Nat) : ∀ c ∈ decimalNat n, 48 ≤ c.toNat ∧ c.toNat < 58 := by
  unfold decimalNat
  split
  · decide
  · intro c hc
    rw [List.mem_reverse, List.mem_map] at hc
    obtain ⟨d, hd, rfl⟩ := hc
    have := Nat.digits_lt_base (show 1 < 10 by omega) hd
    rw [digit_toNat d this]
    omega

theorem decimalNat_no (n : Nat) (c : Char) (h : c.toNat < 48) : c ∉ decimalNat n := fun hc => by
  have := decimalNat_chars n c hc
  omega

theorem readInt_decimalInt (x : Int) : readInt (decimalInt x) = x := by
  unfold decimalInt
  split
  · next h =>
    rw [readInt, readNat_decimalNat]
    omega
  · next h =>
    have : readInt (decimalNat x.natAbs) = readNat (decimalNat x.natAbs) := by
      unfold readInt
      split
      · next s hs => exact absurd (by rw [hs]; simp) (decimalNat_no x.natAbs '-' (by decide))
      · rfl
    rw [this, readNat_decimalNat]
    omega

theorem decimalInt_no_comma (x : Int) : ',' ∉ decimalInt x := by
  unfold decimalInt
  split
  · rw [List.mem_cons, not_or]
    exact ⟨by decide, decimalNat_no _ _ (by decide)⟩
  · exact decimalNat_no _ _ (by decide)

theorem take_cut (a b : List Char) (h : ',' ∉ a) :
    (a ++ ',' :: b).takeWhile (· ≠ ',') = a ∧ (a ++ ',' :: b).dropWhile (· ≠ ',') = ',' :: b := by
  induction a with
  | nil => simp
  | cons c a ih =>
    rw [List.mem_cons, not_or] at h
    have := ih h.2
    have hc : (decide (c ≠ ',')) = true := by simpa using Ne.symm h.1
    rw [List.cons_append, List.takeWhile_cons, List.dropWhile_cons, hc]
    simpa using this

theorem readPoint_str (x y : Int) : readPoint ('(' :: decimalInt x ++ ',' :: decimalInt y ++ [')']) = (some x, some y) := by
  rw [List.cons_append, List.cons_append, List.append_assoc, List.cons_append, readPoint]
  obtain ⟨h1, h2⟩ := take_cut (decimalInt x) (decimalInt y ++ [')']) (decimalInt_no_comma x)
  simp only [h1, h2]
  simp [readInt_decimalInt]

end Text

open Text

/-- C127: the text form of the point at infinity is `IDENTITY`, that of a finite point is the pair of its stored
coordinates in decimal, from which both can be read back; a point with just one coordinate has none. -/
theorem C127_point (P : WPoint) :
    (∀ x y, P.x = some x → P.y = some y → ∃ s, P.str = .ok s ∧ s ≠ "IDENTITY".toList ∧ readPoint s = (some x, some y)) ∧
    (P.x = none → P.y = none → P.str = .ok "IDENTITY".toList) ∧
    (P.x.isSome ≠ P.y.isSome → P.str = .error .type) := by
  obtain ⟨c, px, py⟩ := P
  refine ⟨?_, ?_, ?_⟩
  · rintro x y hx hy
    simp only at hx hy
    subst hx hy
    refine ⟨'(' :: decimalInt x ++ ',' :: decimalInt y ++ [')'], ?_, ?_, readPoint_str x y⟩
    · rw [WPoint.str, if_neg (by simp [WPoint.eq, WCurve.identity])]
      rfl
    · simp
  · rintro hx hy
    simp only at hx hy
    subst hx hy
    rw [WPoint.str, if_pos (by simp [WPoint.eq, WCurve.identity])]
  · intro h
    cases px with
    | none =>
      cases py with
      | none => simp at h
      | some y =>
        rw [WPoint.str, if_neg (by simp [WPoint.eq, WCurve.identity])]
        rfl
    | some x =>
      cases py with
      | none =>
        rw [WPoint.str, if_neg (by simp [WPoint.eq, WCurve.identity])]
        rfl
      | some y => simp at h

/-- C127: two points of one curve object that have text forms have the same one exactly if they compare equal. -/
theorem C127_point_eq (P Q : WPoint) (hc : P.curve = Q.curve) (s t : List Char) (hs : P.str = .ok s)
    (ht : Q.str = .ok t) : s = t ↔ P.eq Q = true := by
  have key : ∀ P : WPoint, ∀ s, P.str = .ok s → readPoint s = (P.x, P.y) := by
    intro P s hs
    obtain ⟨h1, h2, h3⟩ := C127_point P
    rcases hx : P.x with _ | x <;> rcases hy : P.y with _ | y
    · rw [h2 hx hy] at hs
      cases hs
      rfl
    · rw [h3 (by rw [hx, hy]; simp)] at hs; cases hs
    · rw [h3 (by rw [hx, hy]; simp)] at hs; cases hs
    · obtain ⟨s', e, -, r⟩ := h1 x y hx hy
      rw [e] at hs
      cases hs
      exact r
  constructor
  · intro e
    have := (key P s hs).symm.trans ((congrArg readPoint e).trans (key Q t ht))
    simp only [Prod.mk.injEq] at this
    simp [WPoint.eq, hc, this.1, this.2]
  · intro e
    have e' : P.x = Q.x ∧ P.y = Q.y := by simpa [WPoint.eq, and_assoc, hc] using e
    have : P = Q := by
      obtain ⟨c, x, y⟩ := P
      obtain ⟨c', x', y'⟩ := Q
      simp only at hc e'
      rw [hc, e'.1, e'.2]
    rw [this, ht] at hs
    exact (Except.ok.inj hs).symm
example := C127_point_eq ⟨⟨0, 17, 2, 2, 19⟩, some 5, some (-1)⟩ ⟨⟨0, 17, 2, 2, 19⟩, some 5, some 16⟩ rfl "(5,-1)".toList "(5,16)".toList
  (by decide +kernel) (by decide +kernel)

/-- C127: the text form of a field element is its stored value in decimal; it does not show the field. -/
theorem C127_element (x y : GFpElem) : readInt x.str = x.value ∧ (x.str = y.str ↔ x.eq (.elem y) = true) := by
  refine ⟨readInt_decimalInt _, ?_⟩
  have : x.eq (.elem y) = true ↔ x.value = y.value := by
    rw [GFpElem.eq, GFpElem.cmp]
    simp only [Model.Operand.toInt]
    by_cases h : x.value = y.value <;> simp [h]
  rw [this]
  constructor
  · intro e
    have := congrArg readInt e
    rwa [GFpElem.str, GFpElem.str, readInt_decimalInt, readInt_decimalInt] at this
  · intro e
    rw [GFpElem.str, GFpElem.str, e]

/-- The usual way of writing an integer: digits, at least one of them, no zero in front of another
digit, and a minus sign in front of them exactly for negative numbers. -/
def IsNumeral (x : Int) (t : List Char) : Prop := ∃ s : List Char,
    t = (if x < 0 then ['-'] else []) ++ s ∧ s ≠ [] ∧ (readNat s : Int) = |x| ∧
    (∀ c ∈ s, '0' ≤ c ∧ c ≤ '9') ∧ (s.head? = some '0' → s = ['0'])

private theorem isNumeral (x : Int) : IsNumeral x (decimalInt x) := by
  refine ⟨decimalNat x.natAbs, ?_, ?_, ?_, ?_, ?_⟩
  · rw [decimalInt]
    split <;> rfl
  · unfold decimalNat
    split
    · simp
    · next h =>
      intro e
      rw [List.reverse_eq_nil_iff, List.map_eq_nil_iff] at e
      exact Nat.digits_ne_nil_iff_ne_zero.2 h e
  · rw [readNat_decimalNat, Int.abs_eq_natAbs]
  · intro c hc
    have h := decimalNat_chars _ c hc
    have e1 : ('0' : Char).toNat = 48 := rfl
    have e2 : ('9' : Char).toNat = 57 := rfl
    constructor
    · rw [Char.le_def, UInt32.le_iff_toNat_le]
      exact h.1
    · rw [Char.le_def, UInt32.le_iff_toNat_le]
      exact Nat.le_of_lt_succ h.2
  · unfold decimalNat
    split
    · simp
    · next h =>
      intro h0
      exfalso
      rw [List.head?_reverse, List.getLast?_map] at h0
      have hne : Nat.digits 10 x.natAbs ≠ [] := Nat.digits_ne_nil_iff_ne_zero.2 h
      rw [List.getLast?_eq_some_getLast hne, Option.map_some, Option.some.injEq] at h0
      have hl := Nat.getLast_digit_ne_zero 10 h
      have hlt := Nat.digits_lt_base (show 1 < 10 by omega) (List.getLast_mem hne)
      have := congrArg Char.toNat h0
      rw [digit_toNat _ hlt] at this
      have e1 : ('0' : Char).toNat = 48 := rfl
      omega

/-- C127: points and field elements show their numbers in the usual decimal notation. -/
theorem C127_numeral (e : GFpElem) (P : WPoint) (x y : Int) (hx : P.x = some x) (hy : P.y = some y) :
    IsNumeral e.value e.str ∧
    ∃ u v, IsNumeral x u ∧ IsNumeral y v ∧ P.str = .ok ('(' :: u ++ ',' :: v ++ [')']) := by
  refine ⟨isNumeral _, decimalInt x, decimalInt y, isNumeral x, isNumeral y, ?_⟩
  obtain ⟨c, px, py⟩ := P
  simp only at hx hy
  subst hx hy
  rw [WPoint.str, if_neg (by simp [WPoint.eq, WCurve.identity])]
  rfl

example : (⟨⟨0, 17, 2, 2, 19⟩, some 5, some (-1)⟩ : WPoint).str = .ok "(5,-1)".toList := by decide +kernel
example : (⟨7, 120⟩ : GFpElem).str = "120".toList := by decide +kernel

end Cryptopy
