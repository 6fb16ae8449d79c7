import Verif.Model.Ecc

/-!
The remaining methods of `TwistedEdwardsCurveFp`, `/repo/ecc/ecc.py`, and the numbers of the Edwards and Montgomery
classes of `/repo/ecc/curves.py`; `curveId`, `strength` and `oid` are left out, nothing in the methods reads them.
-/

namespace Cryptopy.Model

/-- `TwistedEdwardsCurveFp.negate`, `ecc/ecc.py` lines 158-160. -/
def ECurve.negate (c : ECurve) (pt : Int × Int) : Py (Int × Int) := c.point (-pt.1) pt.2

/-- `TwistedEdwardsCurveFp.double_point`, `ecc/ecc.py` lines 162-165; the lines after the `return` are dead. -/
def ECurve.doublePoint (c : ECurve) (pt : Int × Int) : Py (Int × Int) := c.addPoints pt pt

/-- The class attributes of a subclass of `TwistedEdwardsCurveFp` in `ecc/curves.py`. -/
structure EClass where
  name : String
  p : Int
  a : Int
  d : Int
  xG : Int
  yG : Int
  n : Int
  h : Int

/-- The attributes the methods read.  Set in `ecc/curves.py` lines 75-737. -/
def EClass.curve (K : EClass) : ECurve := ⟨K.p, K.a, K.d⟩

/-- `generator`, `ecc/ellipticcurve.py` lines 32-34. -/
def EClass.generator (K : EClass) : Py (Int × Int) := K.curve.point K.xG K.yG

/-- The class attributes of a subclass of `MontgomeryCurveFp` in `ecc/curves.py`; one has no `a`. -/
structure MClass where
  name : String
  p : Int
  a : Option Int
  xG : Int
  yG : Int
  n : Int
  h : Int

/-- The attributes the methods read.  Set in `ecc/curves.py` lines 75-737. -/
def MClass.curve (K : MClass) : MCurve := ⟨K.p, K.a⟩

/-- `generator`, `ecc/ellipticcurve.py` lines 32-34. -/
def MClass.generator (K : MClass) : Py (Int × Int) := K.curve.point K.xG K.yG

/-- `class GOSTmsg05975te( TwistedEdwardsCurveFp )`, `ecc/curves.py` lines 317-345; the first value of `n`, line 337,
is overwritten in line 340. -/
def GOSTmsg05975te : EClass :=
  { name := "GOSTmsg05975te"
    p := 2 ^ 512 - 569
    a := 1
    d := 0x9E4F5D8C017D8D9F13A5CF3CDF5BFE4DAB402D54198E31EBDE28A0621050439CA6B39E0A515C06B304E2CE43E79E369E91A0CFC2BC2A22B4CA302DBB33EE7550
    xG := 0x12
    yG := 0x469AF79D1FB1F5E16B99592B77A01E2A0FDFB0D01794368D9A56117F7B38669522DD4B650CF789EEBF068C5D139732F0905622C04B2BAAE7600303EE73001A3D
    n := 0x40000000000000000000000000000000000000000000000000000000000000003673245b9af954ffb3cc5600aeb8afd33712561858965ed96b9dc310b80fdaf7
    h := 4 }

/-- The attribute `q` of `GOSTmsg05975te`, `ecc/curves.py` line 338. -/
def GOSTmsg05975te_q : Int :=
  0x3FFFFFFFFFFFFFFFFFFFFFFFFFFFFFFFFFFFFFFFFFFFFFFFFFFFFFFFFFFFFFFFC98CDBA46506AB004C33A9FF5147502CC8EDA9E7A769A12694623CEF47F023ED

/-- `class Curve25519( MontgomeryCurveFp )`, `ecc/curves.py` lines 652-662. -/
def Curve25519 : MClass :=
  { name := "Curve25519"
    p := 2 ^ 255 - 19
    a := some 486662
    xG := 9
    yG := 0x20ae19a1b8a086b4e01edd2c7748d14c923d4d7e6d7c61b229e9c5a27eced3d9
    n := 2 ^ 252 + 27742317777372353535851937790883648493
    h := 8 }

/-- `class Ed25519( EdwardsCurveFp )`, `ecc/curves.py` lines 665-676; the first `yG`, line 672, is overwritten in line
673; `a = 1` is inherited, `ecc/ecc.py` line 193. -/
def Ed25519 : EClass :=
  { name := "Ed25519"
    p := 2 ^ 255 - 19
    a := 1
    d := 1
    xG := 9
    yG := 0x20ae19a1b8a086b4e01edd2c7748d14c923d4d7e6d7c61b229e9c5a27eced3d9
    n := 2 ^ 252 + 27742317777372353535851937790883648493
    h := 8 }

/-- `class E382( EdwardsCurveFp )`, `ecc/curves.py` lines 679-689. -/
def E382 : EClass :=
  { name := "E382"
    p := 2 ^ 382 - 105
    a := 1
    d := -67254
    xG := 3914921414754292646847594472454013487047137431784830634731377862923477302047857640522480241298429278603678181725699
    yG := 17
    n := 2 ^ 380 - 1030303207694556153926491950732314247062623204330168346855
    h := 4 }

/-- `class M383( MontgomeryCurveFp )`, `ecc/curves.py` lines 692-701. -/
def M383 : MClass :=
  { name := "M383"
    p := 2 ^ 383 - 187
    a := some 2065150
    xG := 0xc
    yG := 0x1ec7ed04aaf834af310e304b2da0f328e7c165f0e8988abd3992861290f617aa1f1b2e7d0b6e332e969991b62555e77e
    n := 2 ^ 380 + 166236275931373516105219794935542153308039234455761613271
    h := 8 }

/-- `class Curve3617( EdwardsCurveFp )`, `ecc/curves.py` lines 704-713. -/
def Curve3617 : EClass :=
  { name := "Curve3617"
    p := 2 ^ 414 - 17
    a := 1
    d := 3617
    xG := 0x1a334905141443300218c0631c326e5fcd46369f44c03ec7f57ff35498a4ab4d6d6ba111301a73faa8537c64c4fd3812f3cbc595
    yG := 0x22
    n := 2 ^ 411 - 33364140863755142520810177694098385178984727200411208589594759
    h := 8 }

/-- `class M511( MontgomeryCurveFp )`, `ecc/curves.py` lines 716-724: no attribute `a`. -/
def M511 : MClass :=
  { name := "M511"
    p := 2 ^ 511 - 187
    a := none
    xG := 5
    yG := 2500410645565072423368981149139213252211568685173608590070979264248275228603899706950518127817176591878667784247582124505430745177116625808811349787373477
    n := 2 ^ 508 + 10724754759635747624044531514068121842070756627434833028965540808827675062043
    h := 8 }

/-- `class E521( EdwardsCurveFp )`, `ecc/curves.py` lines 727-737. -/
def E521 : EClass :=
  { name := "E521"
    p := 2 ^ 521 - 1
    a := 1
    d := -376014
    xG := 1571054894184995387535939749894317568645297350402905821437625181152304994381188529632591196067604100772673927915114267193389905003276673749012051148356041324
    yG := 12
    n := 2 ^ 519 - 337554763258501705789107630418782636071904961214051226618635150085779108655765
    h := 4 }

/-- The subclasses of `TwistedEdwardsCurveFp` in `ecc/curves.py`. -/
def edwardsClasses : List EClass := [GOSTmsg05975te, Ed25519, E382, Curve3617, E521]

/-- The subclasses of `MontgomeryCurveFp` in `ecc/curves.py`. -/
def montgomeryClasses : List MClass := [Curve25519, M383, M511]

end Cryptopy.Model
