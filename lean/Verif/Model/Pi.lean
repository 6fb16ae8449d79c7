import Mathlib.Algebra.Order.Ring.Rat
import Verif.Py
import Verif.Model.PiDigits

/-!
Model of `/repo/fmath/pi.py`.
-/

namespace Cryptopy.Model

/-- The 50 digits of a row, as characters.  `fmath/pi.py` lines 18-1018. -/
def rowChars (r : Nat) : Bytes := (List.range 50).map fun i => UInt8.ofNat (48 + r / 10 ^ (49 - i) % 10)

/-- `pi_string`, `fmath/pi.py` line 1022: the rows without the white space around them. -/
def piString : Bytes := 0x33 :: 0x2e :: piRows.flatMap rowChars

/-- `int(s)` for a string of digits; the empty string, and a string with another character, is a
`ValueError`.  (White space and signs, which `int` accepts, do not occur.).  `fmath/pi.py` line 1032. -/
def decimal (s : Bytes) : Py Nat :=
  if s = [] then .error .value
  else if s.all fun c => 48 ≤ c && c ≤ 57 then .ok (s.foldl (fun a c => 10 * a + (c.toNat - 48)) 0)
  else .error .value

/-- The body of `pi`, `fmath/pi.py` lines 1024-1032, with the global `pi_string` as an argument.  For a negative exponent
`10**num_digits` is a float, which `Fraction` refuses with a `TypeError`. -/
def piOf (piString : Bytes) (numDigits : Option Int) : Py ℚ := do
  let maxDigits : Int := piString.length - 2
  let d ← match numDigits with
    | none => .ok maxDigits
    | some n => if n = 0 then .ok maxDigits else do
        Py.assert (n ≤ maxDigits)
        .ok n
  let k ← decimal (Py.slice piString 2 (d + 2))
  if d < 0 then .error .type else .ok (3 + (k : ℚ) / 10 ^ d.toNat)

/-- `pi`, `fmath/pi.py` lines 1024-1032. -/
def pi (numDigits : Option Int) : Py ℚ := piOf piString numDigits

end Cryptopy.Model
