import Verif.Py

/-!
Model of `/repo/cipher/encoding.py`, of the conversion and xor helpers in
`/repo/cipher/common.py` and of the conversion helpers in `/repo/ecc/ecc.py`.
-/

namespace Cryptopy.Model

/-- The `while long_int > 0` loop of `int_to_string`.
`cipher/encoding.py` lines 20-22, `cipher/common.py` lines 32-34, `ecc/ecc.py` lines 314-317. -/
def intToStringLoop (n : Nat) (octets : Bytes) : Bytes :=
  if n > 0 then intToStringLoop (n / 256) (UInt8.ofNat (n % 256) :: octets) else octets
termination_by n
decreasing_by omega

/-- The padding step shared by all copies.  `if padto:` is false for `None` and `0`.
`cipher/encoding.py` lines 28-32, `cipher/common.py` lines 40-44, `ecc/ecc.py` lines 318-322. -/
def padToStep (octets : Bytes) (padto : Option Int) : Py Bytes :=
  match padto with
  | none => .ok octets
  | some k =>
    if k = 0 then .ok octets
    else
      let padlen : Int := k - octets.length
      if padlen ≥ 0 then .ok (Py.repeat padlen 0 ++ octets) else .error .assertion

/-- `int_to_string`, `cipher/encoding.py` lines 14-32; the copy in `cipher/common.py`
lines 26-44 is the same text. -/
def intToString (n : Int) (padto : Option Int := none) : Py Bytes :=
  if n > 0 then padToStep (intToStringLoop n.toNat []) padto
  else if n = 0 then padToStep [0] padto
  else .error .value

/-- `string_to_int`, `cipher/encoding.py` lines 34-39, `cipher/common.py` lines 46-51,
`ecc/ecc.py` lines 324-329.  The value is never negative, so it is a natural number. -/
def stringToInt (s : Bytes) : Nat :=
  s.foldl (fun acc c => 256 * acc + c.toNat) 0

/-- `int_to_string` of `ecc/ecc.py` lines 307-322: asserts `x >= 0` and returns a single zero
octet for `0` before looking at `padto`. -/
def eccIntToString (x : Int) (padto : Option Int := none) : Py Bytes :=
  if x ≥ 0 then
    if x = 0 then .ok [0] else padToStep (intToStringLoop x.toNat []) padto
  else .error .assertion

/-- The `while long_int > 0` loop of `base_N_encode`, `cipher/encoding.py` lines 48-50.
`none` means that the loop never ends (a one symbol alphabet). -/
def baseNEncodeLoop {α : Type} (alphabet : List α) (n : Nat) (out : List α) :
    Option (Py (List α)) :=
  if n > 0 then
    if alphabet.length = 0 then some (.error .zeroDivision)
    else
      match alphabet[n % alphabet.length]? with
      | none => some (.error .index)
      | some c => baseNEncodeLoop alphabet (n / alphabet.length) (c :: out)
  else some (.ok out)
partial_fixpoint

/-- `base_N_encode`, `cipher/encoding.py` lines 41-51. -/
def baseNEncode {α : Type} (octets : Bytes) (alphabet : List α) : Option (Py (List α)) :=
  baseNEncodeLoop alphabet (stringToInt octets) []

/-- `alphabet.index(c)`: the first position of `c`, `ValueError` if absent.  `cipher/encoding.py` line 60. -/
def alphabetIndex {α : Type} [DecidableEq α] (alphabet : List α) (c : α) : Py Nat :=
  match alphabet.idxOf? c with
  | some i => .ok i
  | none => .error .value

/-- The loop of `base_N_decode`, `cipher/encoding.py` lines 58-60. -/
def baseNDecodeLoop {α : Type} [DecidableEq α] (alphabet : List α) :
    List α → Nat → Py Nat
  | [], acc => .ok acc
  | c :: cs, acc =>
    match alphabetIndex alphabet c with
    | .ok i => baseNDecodeLoop alphabet cs (alphabet.length * acc + i)
    | .error e => .error e

/-- `base_N_decode`, `cipher/encoding.py` lines 53-62. -/
def baseNDecode {α : Type} [DecidableEq α] (text : List α) (alphabet : List α)
    (padto : Option Int := none) : Py Bytes :=
  match baseNDecodeLoop alphabet text 0 with
  | .ok n => intToString n padto
  | .error e => .error e

/-- `_b27chars`, `cipher/encoding.py` line 64. -/
def b27chars : List Char := "ABCDEFGHJKMNPQRTWXYZ2346789".toList

/-- `_b85chars`, `cipher/encoding.py` lines 73-76. -/
def b85chars : List Char :=
  ("0123456789" ++ "ABCDEFGHIJKLMNOPQRSTUVWXYZ" ++ "abcdefghijklmnopqrstuvwxyz" ++
    "!#$%&()*+-;<=>?@^_`{|}~").toList

/-- `ascii_printable`, `cipher/encoding.py` line 90. -/
def asciiPrintable : List Char := (List.range' 33 94).map Char.ofNat

/-- `b27encode`, `cipher/encoding.py` lines 65-67. -/
def b27encode (s : Bytes) : Option (Py (List Char)) := baseNEncode s b27chars
/-- `b27decode`, `cipher/encoding.py` lines 69-71: `padto` is not passed on. -/
def b27decode (t : List Char) (_padto : Option Int := none) : Py Bytes := baseNDecode t b27chars
/-- `b85encode`, `cipher/encoding.py` lines 78-84. -/
def b85encode (s : Bytes) : Option (Py (List Char)) := baseNEncode s b85chars
/-- `b85decode`, `cipher/encoding.py` lines 86-88: `padto` is not passed on. -/
def b85decode (t : List Char) (_padto : Option Int := none) : Py Bytes := baseNDecode t b85chars
/-- `b94encode`, `cipher/encoding.py` lines 91-93. -/
def b94encode (s : Bytes) : Option (Py (List Char)) := baseNEncode s asciiPrintable
/-- `b94decode`, `cipher/encoding.py` lines 95-97: `padto` is not passed on. -/
def b94decode (t : List Char) (_padto : Option Int := none) : Py Bytes :=
  baseNDecode t asciiPrintable

/-- The `for i in range(n): x.append(chr(ord(a[i])^ord(b[i])))` loop shared by the xor helpers.
An index past the end raises `IndexError`.  `cipher/common.py` lines 15-16 and 22-23, `cipher/aes_cmac.py` lines 71-72. -/
def xorLoop (a b : Bytes) (n : Nat) : Py Bytes :=
  (List.range n).foldlM (init := ([] : Bytes)) fun x i =>
    match a[i]?, b[i]? with
    | some u, some v => .ok (x ++ [u ^^^ v])
    | _, _ => .error .index

/-- `xor`, `cipher/common.py` lines 11-17 and the same text in `cipher/aes_cmac.py` lines 67-73. -/
def xor (a b : Bytes) : Py Bytes :=
  if a.length = b.length then xorLoop a b a.length else .error .assertion

/-- `xor_min`, `cipher/common.py` lines 19-24. -/
def xorMin (a b : Bytes) : Py Bytes := xorLoop a b (min a.length b.length)

end Cryptopy.Model
