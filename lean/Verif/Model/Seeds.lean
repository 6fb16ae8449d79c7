import Mathlib.Data.Nat.Digits.Defs
import Verif.Model.Curves
import Verif.Model.Pi

/-!
The seeds recorded in `ecc/curves.py`, and the functions of `ecc/test/test_brainpoolseeds.py`.
-/

namespace Cryptopy.Model

/-- The attributes `seed` and `seed_c` of the curves of `ecc/curves.py` that have both, lines 89-90, 114-115, 154-155, 398-399, 420-421. -/
def nistSeeds : List (WClass × Nat × Nat) :=
  [(SECP_192r1, 0x3045ae6fc8422f64ed579528d38120eae12196d5,
      0x3099d2bbbfcb2538542dcd5fb078b6ef5f3d6fe2c745de65),
    (SECP_224r1, 0xbd71344799d5c7fcdc45b59fa3b9ab8f6a948bc5,
      0x5b056c7e11dd68f40469ee7f3c7a7d74f7d121116506d031218291fb),
    (SECP_256r1, 0xc49d360886e704936a6678e1139d26b7819f7e90,
      0x7efba1662985be9403cb055c75d4f7e0ce8d84a9c5114abcaf3177680104fa0d),
    (SECP_384r1, 0xa335926aa319a27a1d00896a6773a4827acdac73,
      0x79d1e655f868f02fff48dcdee14151ddb80643c1406d0ca10dfe6fc52009540a495e8042ea5f744f6e184667cc722483),
    (SECP_521r1, 0xd09e8800291cb85396cc6717393284aaa0da64ba,
      0x0b48bfa5f420a34949539d2bdfc264eeeeb077688e44fbf0ad8f6d0edb37bd6b533281000518e19f1b9ffbe0fe9ed8a3c2200b8f875e523868c70c1e5bf55bad637)]

/-- The attributes `seed_p` and `seed_ab` of the random Brainpool curves, `ecc/curves.py` lines 446-447, 479-480, 510-511, 541-542, 570-571, 601-602, 632-633. -/
def brainpoolSeedTable : List (WClass × Nat × Nat) :=
  [(BrainPoolP160r1, 0x3243F6A8885A308D313198A2E03707344A409382, 0x2B7E151628AED2A6ABF7158809CF4F3C762E7160),
    (BrainPoolP192r1, 0x2299F31D0082EFA98EC4E6C89452821E638D0137, 0xF38B4DA56A784D9045190CFEF324E7738926CFBE),
    (BrainPoolP224r1, 0x7BE5466CF34E90C6CC0AC29B7C97C50DD3F84D5B, 0x5F4BF8D8D8C31D763DA06C80ABB1185EB4F7C7B5),
    (BrainPoolP256r1, 0x5B54709179216D5D98979FB1BD1310BA698DFB5A, 0x757F5958490CFD47D7C19BB42158D9554F7B46BC),
    (BrainPoolP320r1, 0xC2FFD72DBD01ADFB7B8E1AFED6A267E96BA7C904, 0xED55C4D79FD5F24D6613C31C3839A2DDF8A9A276),
    (BrainPoolP384r1, 0x5F12C7F9924A19947B3916CF70801F2E2858EFC1, 0xBCFBFA1C877C56284DAB79CD4C2B3293D20E9E5E),
    (BrainPoolP512r1, 0x6636920D871574E69A458FEA3F4933D7E0D95748, 0xAF02AC60ACC93ED874422A52ECB238FEEE5AB6AD)]

/-- The digits of `pi1k`, `ecc/test/test_brainpoolseeds.py` lines 19-38, without the `3.` of the first row; a row of 50
digits is written as a number. -/
def pi1kRows : List Nat :=
  [14159265358979323846264338327950288419716939937510,
    58209749445923078164062862089986280348253421170679,
    82148086513282306647093844609550582231725359408128,
    48111745028410270193852110555964462294895493038196,
    44288109756659334461284756482337867831652712019091,
    45648566923460348610454326648213393607260249141273,
    72458700660631558817488152092096282925409171536436,
    78925903600113305305488204665213841469519415116094,
    33057270365759591953092186117381932611793105118548,
    7446237996274956735188575272489122793818301194912,
    98336733624406566430860213949463952247371907021798,
    60943702770539217176293176752384674818467669405132,
    56812714526356082778577134275778960917363717872,
    14684409012249534301465495853710507922796892589235,
    42019956112129021960864034418159813629774771309960,
    51870721134999999837297804995105973173281609631859,
    50244594553469083026425223082533446850352619311881,
    71010003137838752886587533208381420617177669147303,
    59825349042875546873115956286388235378759375195778,
    18577805321712268066130019278766111959092164201989]

/-- `pi_ascii`, `ecc/test/test_brainpoolseeds.py` line 40. -/
def piAscii : Bytes := 0x33 :: 0x2e :: pi1kRows.flatMap rowChars

/-- The global `pi`, `ecc/test/test_brainpoolseeds.py` lines 43-44. -/
def pi1k : Py ℚ := do
  let numDigits := piAscii.length - 2
  let k ← decimal (piAscii.drop 2)
  .ok (3 + (k : ℚ) / 10 ^ numDigits)

/-- The digits of `hex(n)` for a natural number, most significant first, as values.
`ecc/test/test_brainpoolseeds.py` line 60. -/
def hexDigits (n : Nat) : List Nat := if n = 0 then [0] else (Nat.digits 16 n).reverse

/-- `hex(n)` for a long: `0x`, the digits, `L`.  A digit is represented by its value, the letters `x` and `L` by
`none`.  `ecc/test/test_brainpoolseeds.py` line 60. -/
def hexLong (n : Nat) : List (Option Nat) := some 0 :: none :: ((hexDigits n).map some ++ [none])

/-- One more character of `int(s, 16)`.  `ecc/test/test_brainpoolseeds.py` line 63. -/
def hexStep (a : Nat) : Option Nat → Py Nat
  | some d => .ok (16 * a + d)
  | none => .error .value

/-- `int(s, 16)` for such characters: a letter that is no digit, and the empty string, is a `ValueError`.
`ecc/test/test_brainpoolseeds.py` line 63. -/
def intBase16 (s : List (Option Nat)) : Py Nat :=
  if s = [] then .error .value
  else s.foldlM hexStep 0

/-- `brainpool_seeds`, `ecc/test/test_brainpoolseeds.py` lines 47-65, with the global `pi` as an argument, for natural
numbers as arguments.  The two
`raise` statements raise strings. -/
def brainpoolSeedsOf (pi : ℚ) (numSeeds seedBits : Nat) : Py (List Nat) := do
  let bits := numSeeds * seedBits
  if ¬ pi.den > 2 ^ bits then .error .stringRaise
  else
    let seedOctets := seedBits / 8
    if seedBits % 8 ≠ 0 then .error .stringRaise
    else
      let piSeed := (pi * 2 ^ bits).floor.toNat
      let hexSeedString := ((hexLong piSeed).take 1002).drop 2
      (List.range numSeeds).mapM fun i =>
        intBase16 ((hexSeedString.take ((i + 1) * seedOctets * 2)).drop (i * seedOctets * 2))

/-- `brainpool_seeds` with the global `pi`.  `ecc/test/test_brainpoolseeds.py` lines 43-65. -/
def brainpoolSeeds (numSeeds seedBits : Nat) : Py (List Nat) := do
  let pi ← pi1k
  brainpoolSeedsOf pi numSeeds seedBits

/-- `brainPoolRequirements`, `ecc/test/test_brainpoolseeds.py` lines 67-75; the name `prime` is not defined in the module. -/
def brainPoolRequirements (p : Int) : Py Unit := do
  Py.assert (p > 3)
  Py.assert (p.fmod 4 = 3)
  .error .name

end Cryptopy.Model
