/-
Python primitives used by the model.

The repository is Python 2 source.  Octet strings are lists of octets, integers are
unbounded, a call either returns a value or raises.
-/

namespace Cryptopy

/-- A Python 2 `str` used as an octet string. -/
abbrev Bytes := List UInt8

/-- The exception classes that the modelled code can raise.  `stringRaise` is
`raise 'some text'`, which Python 2.6 and later turn into a `TypeError`. -/
inductive PyErr where
  | assertion
  | value
  | type
  | name
  | attribute
  | zeroDivision
  | index
  | runtime
  | stringRaise
  | squareRoot
  | negativeExponent
  | exception
  deriving DecidableEq, Repr, Inhabited

/-- Result of a Python call. -/
abbrev Py (α : Type) := Except PyErr α

/-- `assert cond`. -/
def Py.assert (c : Prop) [Decidable c] : Py Unit :=
  if c then .ok () else .error .assertion

/-- `chr(n)`: an octet for `0 ≤ n ≤ 255`, otherwise `ValueError`. -/
def Py.chr (n : Int) : Py UInt8 :=
  if 0 ≤ n ∧ n < 256 then .ok (UInt8.ofNat n.toNat) else .error .value

/-- Normalise a Python slice index against a length: negative indexes count from the
end, everything is clamped to `[0, len]`. -/
def Py.clampIdx (len : Nat) (i : Int) : Nat :=
  if i < 0 then (len + i).toNat else min i.toNat len

/-- `s[i:j]`. -/
def Py.slice {α : Type} (s : List α) (i j : Int) : List α :=
  let a := Py.clampIdx s.length i
  let b := Py.clampIdx s.length j
  (s.take b).drop a

/-- `s[i:]`. -/
def Py.sliceFrom {α : Type} (s : List α) (i : Int) : List α :=
  s.drop (Py.clampIdx s.length i)

/-- `s[:j]`. -/
def Py.sliceTo {α : Type} (s : List α) (j : Int) : List α :=
  s.take (Py.clampIdx s.length j)

/-- `n * c` for a one-element string `c`; a negative `n` gives the empty string. -/
def Py.repeat {α : Type} (n : Int) (c : α) : List α :=
  List.replicate n.toNat c

/-- `range(n)` as the list of its naturals. -/
def Py.range (n : Int) : List Nat := List.range n.toNat

end Cryptopy
