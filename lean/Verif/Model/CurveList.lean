import Mathlib.Data.List.Sort
import Verif.Model.Curves
import Verif.Model.Edwards

/-!
The lists of curves that `ecc/curves.py` builds at the end of the module, and the descriptive attributes `curveId`,
`strength` and `oid` of the classes.
-/

namespace Cryptopy.Model

/-- The numbers of a curve class, by the three structures of `Model/Curves.lean` and `Model/Edwards.lean`.
`ecc/curves.py` lines 75-737. -/
inductive CurveNumbers where
  | weierstrass (K : WClass)
  | edwards (K : EClass)
  | montgomery (K : MClass)

/-- The attribute `n`.  `ecc/curves.py` lines 75-737. -/
def CurveNumbers.n : CurveNumbers → Int
  | .weierstrass K => K.n
  | .edwards K => K.n
  | .montgomery K => K.n

/-- A class as the collecting loop sees it: `__name__`, `__module__`, `__bases__[0].__name__`, and what reading the
attributes `curveId`, `strength` and `oid` gives (inherited values included; reading an `oid` that is not there is an
`AttributeError`).  `ecc/curves.py` lines 742-764. -/
structure CurveClass where
  name : String
  module : String
  base : String
  curveId : String
  strength : Int
  oid : Py (Option (List Nat))
  numbers : CurveNumbers

/-- The value bound to a name of a module: a class or anything else.  `ecc/curves.py` lines 744-746. -/
inductive Member where
  | cls (c : CurveClass)
  | other

/-- `get_all_classes`, `ecc/curves.py` lines 742-746, on the names of a module called `modname`.  `inspect.getmembers`
returns the pairs of name and value that pass the test, sorted by name. -/
def getAllClasses (modname : String) (ns : List (String × Member)) : List (String × CurveClass) :=
  (ns.filterMap fun (k, m) =>
    match m with
    | .cls c => if c.module = modname then some (k, c) else none
    | .other => none).insertionSort fun x y => x.1 ≤ y.1

/-- The five lists of `ecc/curves.py` lines 748-752. -/
structure CurveLists where
  smallWeierstrass : List CurveClass := []
  koblitz : List CurveClass := []
  twistedEdwards : List CurveClass := []
  edwards : List CurveClass := []
  montgomery : List CurveClass := []

/-- The body of the loop, `ecc/curves.py` lines 755-766. -/
def CurveLists.collect (l : CurveLists) (c : CurveClass) : CurveLists :=
  if c.base = "SmallWeierstrassCurveFp" then { l with smallWeierstrass := l.smallWeierstrass ++ [c] }
  else if c.base = "TwistedEdwardsCurveFp" then { l with twistedEdwards := l.twistedEdwards ++ [c] }
  else if c.base = "EdwardsCurveFp" then { l with edwards := l.edwards ++ [c] }
  else if c.base = "MontgomeryCurveFp" then { l with montgomery := l.montgomery ++ [c] }
  else if c.base = "KoblitzCurveFp" then { l with koblitz := l.koblitz ++ [c] }
  else l

/-- `allCurves`, `ecc/curves.py` line 768. -/
def CurveLists.all (l : CurveLists) : List CurveClass :=
  l.smallWeierstrass ++ l.koblitz ++ l.twistedEdwards ++ l.edwards ++ l.montgomery

/-- Binding a name of the module: an existing binding is replaced.  `ecc/curves.py` lines 73-768. -/
def bind (ns : List (String × Member)) (k : String) (m : Member) : List (String × Member) :=
  ns.filter (fun e => e.1 ≠ k) ++ [(k, m)]

/-- The loop of `ecc/curves.py` lines 754-766 with the statement before it: it fills the lists and leaves its variables
`curve_name` and `c` bound in the module. -/
def collectCurves (modname : String) (ns : List (String × Member)) : CurveLists × List (String × Member) :=
  (getAllClasses modname ns).foldl
    (fun s e => (s.1.collect e.2, bind (bind s.2 "curve_name" .other) "c" (.cls e.2))) ({}, ns)

/-- `class SECP_192r1`, `ecc/curves.py` line 75. -/
def clsSECP_192r1 : CurveClass :=
  ⟨"SECP_192r1", "curves", "SmallWeierstrassCurveFp", "secp192r1", 80, .ok (some [1, 2, 840, 10045, 3, 1, 1]),
    .weierstrass SECP_192r1⟩

/-- `class NIST_P192`, `ecc/curves.py` line 96; `strength` and `oid` are inherited from `SECP_192r1`. -/
def clsNIST_P192 : CurveClass :=
  ⟨"NIST_P192", "curves", "SECP_192r1", "nistP192", 80, .ok (some [1, 2, 840, 10045, 3, 1, 1]),
    .weierstrass NIST_P192⟩

/-- `class SECP_224r1`, `ecc/curves.py` line 100. -/
def clsSECP_224r1 : CurveClass :=
  ⟨"SECP_224r1", "curves", "SmallWeierstrassCurveFp", "secp224r1", 112, .ok (some [1, 3, 132, 0, 33]),
    .weierstrass SECP_224r1⟩

/-- `class NIST_P224`, `ecc/curves.py` line 118; `strength` and `oid` are inherited from `SECP_224r1`. -/
def clsNIST_P224 : CurveClass :=
  ⟨"NIST_P224", "curves", "SECP_224r1", "nistP224", 112, .ok (some [1, 3, 132, 0, 33]),
    .weierstrass NIST_P224⟩

/-- `class SECP_256k1`, `ecc/curves.py` line 122. -/
def clsSECP_256k1 : CurveClass :=
  ⟨"SECP_256k1", "curves", "KoblitzCurveFp", "secp256k1", 128, .ok (some [1, 3, 132, 0, 10]),
    .weierstrass SECP_256k1⟩

/-- `class SECP_256r1`, `ecc/curves.py` line 139. -/
def clsSECP_256r1 : CurveClass :=
  ⟨"SECP_256r1", "curves", "SmallWeierstrassCurveFp", "secp256r1", 128, .ok (some [1, 2, 840, 10045, 3, 1, 7]),
    .weierstrass SECP_256r1⟩

/-- `class NIST_P256`, `ecc/curves.py` line 158; `strength` and `oid` are inherited from `SECP_256r1`. -/
def clsNIST_P256 : CurveClass :=
  ⟨"NIST_P256", "curves", "SECP_256r1", "nistP256", 128, .ok (some [1, 2, 840, 10045, 3, 1, 7]),
    .weierstrass NIST_P256⟩

/-- `class WAPI`, `ecc/curves.py` line 162. -/
def clsWAPI : CurveClass :=
  ⟨"WAPI", "curves", "SmallWeierstrassCurveFp", "wapi", 96, .ok (some [1, 2, 156, 1001, 5, 40, 1]),
    .weierstrass WAPI⟩

/-- `class SWP256CCAO01`, `ecc/curves.py` line 179. -/
def clsSWP256CCAO01 : CurveClass :=
  ⟨"SWP256CCAO01", "curves", "SmallWeierstrassCurveFp", "swp256cccao01", 128, .ok none,
    .weierstrass SWP256CCAO01⟩

/-- `class SWP256SM2`, `ecc/curves.py` line 197. -/
def clsSWP256SM2 : CurveClass :=
  ⟨"SWP256SM2", "curves", "SmallWeierstrassCurveFp", "swp256sm2", 128, .ok none,
    .weierstrass SWP256SM2⟩

/-- `class GOST2001_test`, `ecc/curves.py` line 220. -/
def clsGOST2001_test : CurveClass :=
  ⟨"GOST2001_test", "curves", "SmallWeierstrassCurveFp", "GOST2001-test", 128, .ok (some [1, 2, 643, 2, 2, 35, 0]),
    .weierstrass GOST2001_test⟩

/-- `class GOST2001_CryptoPro_A`, `ecc/curves.py` line 234. -/
def clsGOST2001_CryptoPro_A : CurveClass :=
  ⟨"GOST2001_CryptoPro_A", "curves", "SmallWeierstrassCurveFp", "GOST2001-CryptoPro-A", 128, .ok (some [1, 2, 643, 2, 2, 35, 1]),
    .weierstrass GOST2001_CryptoPro_A⟩

/-- `class GOST2001_CryptoPro_B`, `ecc/curves.py` line 248. -/
def clsGOST2001_CryptoPro_B : CurveClass :=
  ⟨"GOST2001_CryptoPro_B", "curves", "SmallWeierstrassCurveFp", "GOST2001-CryptoPro-B", 128, .ok (some [1, 2, 643, 2, 2, 35, 2]),
    .weierstrass GOST2001_CryptoPro_B⟩

/-- `class GOST2001_CryptoPro_C`, `ecc/curves.py` line 262. -/
def clsGOST2001_CryptoPro_C : CurveClass :=
  ⟨"GOST2001_CryptoPro_C", "curves", "SmallWeierstrassCurveFp", "GOST2001-CryptoPro-C", 128, .ok (some [1, 2, 643, 2, 2, 35, 3]),
    .weierstrass GOST2001_CryptoPro_C⟩

/-- `class GOST2012_test`, `ecc/curves.py` line 276. -/
def clsGOST2012_test : CurveClass :=
  ⟨"GOST2012_test", "curves", "SmallWeierstrassCurveFp", "GOST2012-test", 255, .ok (some [1, 2, 643, 7, 1, 2, 1, 2, 0]),
    .weierstrass GOST2012_test⟩

/-- `class GOST2012_tc26_A`, `ecc/curves.py` line 290. -/
def clsGOST2012_tc26_A : CurveClass :=
  ⟨"GOST2012_tc26_A", "curves", "SmallWeierstrassCurveFp", "GOST2012-tc26-A", 512, .ok (some [1, 2, 643, 7, 1, 2, 1, 2, 1]),
    .weierstrass GOST2012_tc26_A⟩

/-- `class GOST2012_tc26_B`, `ecc/curves.py` line 304. -/
def clsGOST2012_tc26_B : CurveClass :=
  ⟨"GOST2012_tc26_B", "curves", "SmallWeierstrassCurveFp", "GOST2012-tc26-B", 512, .ok (some [1, 2, 643, 7, 1, 2, 1, 2, 2]),
    .weierstrass GOST2012_tc26_B⟩

/-- `class GOSTmsg05975te`, `ecc/curves.py` line 317. -/
def clsGOSTmsg05975te : CurveClass :=
  ⟨"GOSTmsg05975te", "curves", "TwistedEdwardsCurveFp", "GOSTmsg05975te", 256, .ok none,
    .edwards GOSTmsg05975te⟩

/-- `class GOSTmsg05975sw`, `ecc/curves.py` line 351. -/
def clsGOSTmsg05975sw : CurveClass :=
  ⟨"GOSTmsg05975sw", "curves", "SmallWeierstrassCurveFp", "GOSTmsg05975sw", 256, .ok none,
    .weierstrass GOSTmsg05975sw⟩

/-- `class FRP256v1`, `ecc/curves.py` line 369. -/
def clsFRP256v1 : CurveClass :=
  ⟨"FRP256v1", "curves", "SmallWeierstrassCurveFp", "frp256v1", 128, .ok (some [1, 2, 250, 1, 223, 101, 256, 1]),
    .weierstrass FRP256v1⟩

/-- `class SECP_384r1`, `ecc/curves.py` line 385. -/
def clsSECP_384r1 : CurveClass :=
  ⟨"SECP_384r1", "curves", "SmallWeierstrassCurveFp", "secp384r1", 192, .ok (some [1, 3, 132, 0, 34]),
    .weierstrass SECP_384r1⟩

/-- `class NIST_P384`, `ecc/curves.py` line 402; `strength` and `oid` are inherited from `SECP_384r1`. -/
def clsNIST_P384 : CurveClass :=
  ⟨"NIST_P384", "curves", "SECP_384r1", "nistP384", 192, .ok (some [1, 3, 132, 0, 34]),
    .weierstrass NIST_P384⟩

/-- `class SECP_521r1`, `ecc/curves.py` line 406. -/
def clsSECP_521r1 : CurveClass :=
  ⟨"SECP_521r1", "curves", "SmallWeierstrassCurveFp", "secp256r1", 256, .ok (some [1, 3, 132, 0, 35]),
    .weierstrass SECP_521r1⟩

/-- `class NIST_P521`, `ecc/curves.py` line 424; `strength` and `oid` are inherited from `SECP_521r1`. -/
def clsNIST_P521 : CurveClass :=
  ⟨"NIST_P521", "curves", "SECP_521r1", "nistP521", 256, .ok (some [1, 3, 132, 0, 35]),
    .weierstrass NIST_P521⟩

/-- `class BrainPoolP160r1`, `ecc/curves.py` line 434. -/
def clsBrainPoolP160r1 : CurveClass :=
  ⟨"BrainPoolP160r1", "curves", "SmallWeierstrassCurveFp", "brainpoolP160r1", 80, .ok (some [1, 3, 36, 3, 2, 8, 1, 1, 1]),
    .weierstrass BrainPoolP160r1⟩

/-- `class BrainPoolP160t1`, `ecc/curves.py` line 450. -/
def clsBrainPoolP160t1 : CurveClass :=
  ⟨"BrainPoolP160t1", "curves", "SmallWeierstrassCurveFp", "brainpoolP160t1", 80, .ok (some [1, 3, 36, 3, 2, 8, 1, 1, 2]),
    .weierstrass BrainPoolP160t1⟩

/-- `class BrainPoolP192r1`, `ecc/curves.py` line 467. -/
def clsBrainPoolP192r1 : CurveClass :=
  ⟨"BrainPoolP192r1", "curves", "SmallWeierstrassCurveFp", "brainpoolP192r1", 96, .ok (some [1, 3, 36, 3, 2, 8, 1, 1, 3]),
    .weierstrass BrainPoolP192r1⟩

/-- `class BrainPoolP192t1`, `ecc/curves.py` line 483. -/
def clsBrainPoolP192t1 : CurveClass :=
  ⟨"BrainPoolP192t1", "curves", "SmallWeierstrassCurveFp", "brainpoolP192t1", 96, .ok (some [1, 3, 36, 3, 2, 8, 1, 1, 4]),
    .weierstrass BrainPoolP192t1⟩

/-- `class BrainPoolP224r1`, `ecc/curves.py` line 498. -/
def clsBrainPoolP224r1 : CurveClass :=
  ⟨"BrainPoolP224r1", "curves", "SmallWeierstrassCurveFp", "brainpoolP224r1", 112, .ok (some [1, 3, 36, 3, 2, 8, 1, 1, 5]),
    .weierstrass BrainPoolP224r1⟩

/-- `class BrainPoolP224t1`, `ecc/curves.py` line 514. -/
def clsBrainPoolP224t1 : CurveClass :=
  ⟨"BrainPoolP224t1", "curves", "SmallWeierstrassCurveFp", "brainpoolP224t1", 112, .ok (some [1, 3, 36, 3, 2, 8, 1, 1, 6]),
    .weierstrass BrainPoolP224t1⟩

/-- `class BrainPoolP256r1`, `ecc/curves.py` line 529. -/
def clsBrainPoolP256r1 : CurveClass :=
  ⟨"BrainPoolP256r1", "curves", "SmallWeierstrassCurveFp", "brainpoolP256r1", 128, .ok (some [1, 3, 36, 3, 2, 8, 1, 1, 7]),
    .weierstrass BrainPoolP256r1⟩

/-- `class BrainPoolP256t1`, `ecc/curves.py` line 545. -/
def clsBrainPoolP256t1 : CurveClass :=
  ⟨"BrainPoolP256t1", "curves", "SmallWeierstrassCurveFp", "brainpoolP256t1", 128, .ok (some [1, 3, 36, 3, 2, 8, 1, 1, 8]),
    .weierstrass BrainPoolP256t1⟩

/-- `class BrainPoolP320r1`, `ecc/curves.py` line 558. -/
def clsBrainPoolP320r1 : CurveClass :=
  ⟨"BrainPoolP320r1", "curves", "SmallWeierstrassCurveFp", "brainpoolP320r1", 160, .ok (some [1, 3, 36, 3, 2, 8, 1, 1, 9]),
    .weierstrass BrainPoolP320r1⟩

/-- `class BrainPoolP320t1`, `ecc/curves.py` line 574. -/
def clsBrainPoolP320t1 : CurveClass :=
  ⟨"BrainPoolP320t1", "curves", "SmallWeierstrassCurveFp", "brainpoolP320t1", 160, .ok (some [1, 3, 36, 3, 2, 8, 1, 1, 10]),
    .weierstrass BrainPoolP320t1⟩

/-- `class BrainPoolP384r1`, `ecc/curves.py` line 589. -/
def clsBrainPoolP384r1 : CurveClass :=
  ⟨"BrainPoolP384r1", "curves", "SmallWeierstrassCurveFp", "brainpoolP384r1", 192, .ok (some [1, 3, 36, 3, 2, 8, 1, 1, 11]),
    .weierstrass BrainPoolP384r1⟩

/-- `class BrainPoolP384t1`, `ecc/curves.py` line 605. -/
def clsBrainPoolP384t1 : CurveClass :=
  ⟨"BrainPoolP384t1", "curves", "SmallWeierstrassCurveFp", "brainpoolP384t1", 192, .ok (some [1, 3, 36, 3, 2, 8, 1, 1, 12]),
    .weierstrass BrainPoolP384t1⟩

/-- `class BrainPoolP512r1`, `ecc/curves.py` line 620. -/
def clsBrainPoolP512r1 : CurveClass :=
  ⟨"BrainPoolP512r1", "curves", "SmallWeierstrassCurveFp", "brainpoolP512r1", 256, .ok (some [1, 3, 36, 3, 2, 8, 1, 1, 13]),
    .weierstrass BrainPoolP512r1⟩

/-- `class BrainPoolP512t1`, `ecc/curves.py` line 635. -/
def clsBrainPoolP512t1 : CurveClass :=
  ⟨"BrainPoolP512t1", "curves", "SmallWeierstrassCurveFp", "brainpoolP512t1", 256, .ok (some [1, 3, 36, 3, 2, 8, 1, 1, 14]),
    .weierstrass BrainPoolP512t1⟩

/-- `class Curve25519`, `ecc/curves.py` line 652. -/
def clsCurve25519 : CurveClass :=
  ⟨"Curve25519", "curves", "MontgomeryCurveFp", "curve25519", 126, .ok none,
    .montgomery Curve25519⟩

/-- `class Ed25519`, `ecc/curves.py` line 665. -/
def clsEd25519 : CurveClass :=
  ⟨"Ed25519", "curves", "EdwardsCurveFp", "Ed25519", 126, .ok none,
    .edwards Ed25519⟩

/-- `class E382`, `ecc/curves.py` line 679. -/
def clsE382 : CurveClass :=
  ⟨"E382", "curves", "EdwardsCurveFp", "e382", 190, .ok none,
    .edwards E382⟩

/-- `class M383`, `ecc/curves.py` line 692. -/
def clsM383 : CurveClass :=
  ⟨"M383", "curves", "MontgomeryCurveFp", "m383", 190, .error .attribute,
    .montgomery M383⟩

/-- `class Curve3617`, `ecc/curves.py` line 704. -/
def clsCurve3617 : CurveClass :=
  ⟨"Curve3617", "curves", "EdwardsCurveFp", "curve3617", 205, .ok none,
    .edwards Curve3617⟩

/-- `class M511`, `ecc/curves.py` line 716. -/
def clsM511 : CurveClass :=
  ⟨"M511", "curves", "MontgomeryCurveFp", "m511", 254, .ok none,
    .montgomery M511⟩

/-- `class E521`, `ecc/curves.py` line 727. -/
def clsE521 : CurveClass :=
  ⟨"E521", "curves", "EdwardsCurveFp", "e521", 259, .ok none,
    .edwards E521⟩

/-- The classes of the module in the order of the source.  `ecc/curves.py` lines 75-737. -/
def curveClasses : List CurveClass :=
  [clsSECP_192r1, clsNIST_P192, clsSECP_224r1, clsNIST_P224, clsSECP_256k1, clsSECP_256r1, clsNIST_P256, clsWAPI, clsSWP256CCAO01, clsSWP256SM2, clsGOST2001_test, clsGOST2001_CryptoPro_A, clsGOST2001_CryptoPro_B, clsGOST2001_CryptoPro_C, clsGOST2012_test, clsGOST2012_tc26_A, clsGOST2012_tc26_B, clsGOSTmsg05975te, clsGOSTmsg05975sw, clsFRP256v1, clsSECP_384r1, clsNIST_P384, clsSECP_521r1, clsNIST_P521, clsBrainPoolP160r1, clsBrainPoolP160t1, clsBrainPoolP192r1, clsBrainPoolP192t1, clsBrainPoolP224r1, clsBrainPoolP224t1, clsBrainPoolP256r1, clsBrainPoolP256t1, clsBrainPoolP320r1, clsBrainPoolP320t1, clsBrainPoolP384r1, clsBrainPoolP384t1, clsBrainPoolP512r1, clsBrainPoolP512t1, clsCurve25519, clsEd25519, clsE382, clsM383, clsCurve3617, clsM511, clsE521]

/-- A class imported from `ecc/ecc.py`, `ecc/curves.py` line 72: its `__module__` is another one. -/
def importedClass (name base : String) : CurveClass :=
  ⟨name, "ecc", base, "", 0, .error .attribute, .weierstrass ⟨name, 0, 0, 0, 0, 0, 0, 0⟩⟩

/-- The names bound when the loop starts: the imports of `ecc/curves.py` lines 72-73, the classes, the function and the
five empty lists. -/
def curvesNamespace : List (String × Member) :=
  [("SmallWeierstrassCurveFp", .cls (importedClass "SmallWeierstrassCurveFp" "EllipticCurveFp")),
    ("KoblitzCurveFp", .cls (importedClass "KoblitzCurveFp" "SmallWeierstrassCurveFp")),
    ("EdwardsCurveFp", .cls (importedClass "EdwardsCurveFp" "TwistedEdwardsCurveFp")),
    ("TwistedEdwardsCurveFp", .cls (importedClass "TwistedEdwardsCurveFp" "EllipticCurveFp")),
    ("MontgomeryCurveFp", .cls (importedClass "MontgomeryCurveFp" "EllipticCurveFp")),
    ("sys", .other), ("inspect", .other)] ++
  curveClasses.map (fun c => (c.name, .cls c)) ++
  [("get_all_classes", .other), ("smallWeierstrassCurves", .other), ("koblitzCurves", .other),
    ("twistedEdwardsCurves", .other), ("edwardsCurves", .other), ("montgomeryCurves", .other)]

/-- The lists of the module as imported, and its names afterwards.  `ecc/curves.py` lines 748-768. -/
def shippedCurves : CurveLists × List (String × Member) := collectCurves "curves" curvesNamespace

end Cryptopy.Model
