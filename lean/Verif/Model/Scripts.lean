import Verif.Model.GaloisField
import Verif.Model.Encoding

/-!
The random part of `fmath/test/test_galoisfields.py`, the loop of `cipher/test/test_encoding.py`, the script part of
`cipher/encoding.py` and `cipher/test/example_encoding.py`.  Drawn numbers and the hash function are parameters; of the
printed lines only those of the second half of `example_encoding.py` are kept.
-/

namespace Cryptopy.Model

/-- `test_misc`, `fmath/test/test_galoisfields.py` lines 62-65: the loop over the numbers `x` drawn from `randrange(p)`. -/
def testMiscLoop (p : Int) (draws : List Int) : Py Unit :=
  draws.forM fun x => do
    let g ← gfpNew p x
    let invx ← g.rdiv (.int 1)
    let r ← invx.rmul (.int x)
    let one ← gfpNew p 1
    if r.eq (.elem one) then .ok () else .error .assertion

/-- `assert decode(encode(s)) == s`.  For example `cipher/test/example_encoding.py` line 34. -/
def assertRoundTrip (encode : Bytes → Option (Py (List Char))) (decode : List Char → Py Bytes) (s : Bytes) :
    Option (Py Unit) :=
  match encode s with
  | none => none
  | some (.error e) => some (.error e)
  | some (.ok t) =>
    match decode t with
    | .error e => some (.error e)
    | .ok r => some (if r = s then .ok () else .error .assertion)

/-- One statement after another, where either may run forever or raise.  `cipher/test/example_encoding.py` lines 30-80. -/
def thenDo {α : Type} (a : Option (Py Unit)) (b : Option (Py α)) : Option (Py α) :=
  match a with
  | none => none
  | some (.error e) => some (.error e)
  | some (.ok ()) => b

/-- `print encode(s)`, only for its effect on the rest of the run.  For example `cipher/test/example_encoding.py` line 33. -/
def printed (t : Option (Py (List Char))) : Option (Py Unit) := t.map fun r => r.map fun _ => ()

/-- `test_basic`, `cipher/test/test_encoding.py` lines 42-47, for one `i`. -/
def testBasicOne (i : Int) : Option (Py Unit) :=
  match intToString i with
  | .error e => some (.error e)
  | .ok octets =>
    thenDo (some (if (stringToInt octets : Int) = i then .ok () else .error .assertion))
      (thenDo (assertRoundTrip b27encode b27decode octets)
        (thenDo (assertRoundTrip b85encode b85decode octets) (assertRoundTrip b94encode b94decode octets)))

/-- `test_basic`, `cipher/test/test_encoding.py` lines 40-47, for the numbers of the loop. -/
def testBasic : List Int → Option (Py Unit)
  | [] => some (.ok ())
  | i :: rest => thenDo (testBasicOne i) (testBasic rest)

/-- The octets of an ASCII text.  For the texts in `cipher/test/example_encoding.py` lines 20-80. -/
def textOctets (t : List Char) : Bytes := t.map fun c => UInt8.ofNat c.toNat

/-- `service_name`, `cipher/encoding.py` line 103 and `cipher/test/example_encoding.py` line 24. -/
def serviceName : Bytes := textOctets "service.name.example".toList

/-- The script part of `cipher/encoding.py`, lines 99-129. -/
def encodingMain (sha : Bytes → Bytes) : Option (Py Unit) :=
  let usid := (sha serviceName).take 16
  let sid := (sha serviceName).take 6
  thenDo (printed (b27encode usid))
  (thenDo (assertRoundTrip b27encode b27decode usid)
  (thenDo (printed (b85encode usid))
  (thenDo (printed (b94encode usid))
  (thenDo (printed (b27encode sid))
  (thenDo (printed (b85encode sid))
  (thenDo (printed (baseNEncode sid asciiPrintable))
  (thenDo (assertRoundTrip b27encode b27decode usid)
  (thenDo (assertRoundTrip b85encode b85decode usid)
  (thenDo (assertRoundTrip b94encode b94decode usid)
  (match intToString 0x108000000000000000080800200c417a with
    | .error e => some (.error e)
    | .ok example1924 =>
      match b85encode example1924 with
      | none => none
      | some (.error e) => some (.error e)
      | some (.ok t) => some (if t = "4)+k&C#VzJ4br>0wv%Yp".toList then .ok () else .error .assertion)))))))))))

/-- `cipher/test/example_encoding.py` lines 45-80: `n` times the b27 text of the hash value of the last text. -/
def exampleChain (sha : Bytes → Bytes) : Nat → Bytes → Option (Py (List (List Char)))
  | 0, _ => some (.ok [])
  | n + 1, name =>
    match b27encode ((sha name).take 16) with
    | none => none
    | some (.error e) => some (.error e)
    | some (.ok t) => (exampleChain sha n (textOctets t)).map fun r => r.map fun ts => t :: ts

/-- `cipher/test/example_encoding.py` lines 20-80: the texts printed in lines 49-80. -/
def exampleEncoding (sha : Bytes → Bytes) : Option (Py (List (List Char))) :=
  let usid := (sha serviceName).take 16
  let sid := (sha serviceName).take 6
  thenDo (printed (b27encode usid))
  (thenDo (assertRoundTrip b27encode b27decode usid)
  (thenDo (printed (b85encode usid))
  (thenDo (printed (b94encode usid))
  (thenDo (printed (b27encode sid))
  (thenDo (printed (b85encode sid))
  (thenDo (printed (b94encode sid))
  (exampleChain sha 6 serviceName)))))))

end Cryptopy.Model
