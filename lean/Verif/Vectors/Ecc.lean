import Verif.Model.Curves
import Verif.Model.Montgomery
import Verif.Model.Encoding

/-!
The recorded values of `ecc/test/*.py` and `cipher/test/test_encoding.py`, evaluated in the model.  These are tests of
the translation, not proofs; nothing else uses them.
-/

namespace Cryptopy.Vectors
open Model

/-- The coordinates of a point that an operation returned. -/
def xy (p : Py WPoint) : Option (Int × Int) :=
  match p with
  | .ok ⟨_, some x, some y⟩ => some (x, y)
  | _ => none

/-- Is it the identity? -/
def isId (p : Py WPoint) : Bool :=
  match p with
  | .ok ⟨_, none, none⟩ => true
  | _ => false

/-! ### `ecc/test/test_ecc.py` -/

/-- `SimpleCurve`, lines 22-27. -/
def simple : WCurve := ⟨0, 23, 1, 1, 7⟩

#guard xy (do (← simple.point (some 3) (some 10)).add (← simple.point (some 9) (some 7))) == some (17, 20)
#guard isId (do (← simple.point (some 3) (some 10)).sub (← simple.point (some 3) (some 10)))
#guard xy (do (← simple.point (some 17) (some 20)).sub (← simple.point (some 3) (some 10))) == some (9, 7)
#guard xy (do (← simple.point (some 17) (some 20)).sub (← simple.point (some 9) (some 7))) == some (3, 10)
#guard xy (do (← simple.point (some 3) (some 10)).double) == some (7, 12)
#guard xy (do (← simple.point (some 3) (some 10)).add (← simple.point (some 3) (some 10))) == some (7, 12)
#guard xy (do (← simple.point (some 3) (some 10)).mul 2) == some (7, 12)

/-- The sums of `i` copies of `(13, 7)` by repeated addition. -/
def sums : Nat → Py WPoint
  | 0 => .ok simple.identity
  | i + 1 => do (← sums i).add (← simple.point (some 13) (some 7))

#guard (List.range 8).all fun i => xy (do (← simple.point (some 13) (some 7)).mul (i % 7 : Nat)) == xy (sums i)

#guard (xy (do (← NIST_P192.generator 0).mul 651056770906015076056810763456358567190100156695615665659)).map (·.1) ==
    some 0x62B12D60690CDCF330BABAB6E69763B471F994DD702D16A5
#guard xy (do (← NIST_P192.generator 0).mul 6140507067065001063065065565667405560006161556565665656654) ==
    some (0x885052380FF147B734C330C43D39B2C4A89F29B0F749FEAD, 0x9CF9FA1CBEFEFB917747A3BB29C072B9289C2547884FD835)
#guard xy (do
      let g ← NIST_P192.generator 0
      let q ← g.mul 651056770906015076056810763456358567190100156695615665659
      (← g.mul 2563697409189434185194736134579731015366492496392189760599).add
        (← q.mul 6266643813348617967186477710235785849136406323338782220568)) ==
    some (0x885052380FF147B734C330C43D39B2C4A89F29B0F749FEAD, 0x9CF9FA1CBEFEFB917747A3BB29C072B9289C2547884FD835)

-- `TestAllCurves`
#guard primeOrderClasses.all fun K => isId (do (← K.generator 0).mul K.n)

/-! ### `ecc/test/test_nist_curves.py` -/

/-- The points `S` and `T` of `test_NIST_P192`. -/
def nist_p192S : Py WPoint := (NIST_P192.instance 0).point (some 0xd458e7d127ae671b0c330266d246769353a012073e97acf8)
  (some 0x325930500d851f336bddc050cf7fb11b5673a1645086df3b)

@[inherit_doc nist_p192S]
def nist_p192T : Py WPoint := (NIST_P192.instance 0).point (some 0xf22c4395213e9ebe67ddecdd87fdbd01be16fb059b9753a4)
  (some 0x264424096af2b3597796db48f8dfb41fa9cecc97691a9c79)

#guard xy (do (← nist_p192S).add (← nist_p192T)) ==
    some (0x48e1e4096b9b8e5ca9d0f1f077b8abf58e843894de4d0290,
      0x408fa77c797cd7dbfb16aa48a3648d3d63c94117d7b6aa4b)

#guard xy (do (← nist_p192S).sub (← nist_p192T)) ==
    some (0xfc9683cc5abfb4fe0cc8cc3bc9f61eabc4688f11e9f64a2e,
      0x93e31d00fb78269732b1bd2a73c23cdd31745d0523d816b)

#guard xy (do (← nist_p192S).mul 2) ==
    some (0x30c5bc6b8c7da25354b373dc14dd8a0eba42d25a3f6e6962,
      0xdde14bc4249a721c407aedbf011e2ddbbcb2968c9d889cf)

#guard xy (do (← nist_p192S).mul 0xa78a236d60baec0c5dd41b33a542463a8255391af64c74ee) ==
    some (0x1faee4205a4f669d2d0a8f25e3bcec9a62a6952965bf6d31,
      0x5ff2cdfa508a2581892367087c696f179e7a4d7e8260fb06)

#guard xy (do
      let p ← (← nist_p192S).mul 0xa78a236d60baec0c5dd41b33a542463a8255391af64c74ee
      let q ← (← nist_p192T).mul 0xc4be3d53ec3089e71e4de8ceab7cce889bc393cd85b972bc
      p.add q) ==
    some (0x19f64eed8fa9b72b7dfea82c17c9bfa60ecb9e1778b5bde,
      0x16590c5fcd8655fa4ced33fb800e2a7e3c61f35d83503644)

/-- The points `S` and `T` of `test_NIST_P521`. -/
def nist_p521S : Py WPoint := (NIST_P521.instance 0).point (some 0x1d5c693f66c08ed03ad0f031f937443458f601fd098d3d0227b4bf62873af50740b0bb84aa157fc847bcf8dc16a8b2b8bfd8e2d0a7d39af04b089930ef6dad5c1b4)
  (some 0x144b7770963c63a39248865ff36b074151eac33549b224af5c8664c54012b818ed037b2b7c1a63ac89ebaa11e07db89fcee5b556e49764ee3fa66ea7ae61ac01823)

@[inherit_doc nist_p521S]
def nist_p521T : Py WPoint := (NIST_P521.instance 0).point (some 0xf411f2ac2eb971a267b80297ba67c322dba4bb21cec8b70073bf88fc1ca5fde3ba09e5df6d39acb2c0762c03d7bc224a3e197feaf760d6324006fe3be9a548c7d5)
  (some 0x1fdf842769c707c93c630df6d02eff399a06f1b36fb9684f0b373ed064889629abb92b1ae328fdb45534268384943f0e9222afe03259b32274d35d1b9584c65e305)

#guard xy (do (← nist_p521S).add (← nist_p521T)) ==
    some (0x1264ae115ba9cbc2ee56e6f0059e24b52c8046321602c59a339cfb757c89a59c358a9a8e1f86d384b3f3b255ea3f73670c6dc9f45d46b6a196dc37bbe0f6b2dd9e9,
      0x62a9c72b8f9f88a271690bfa017a6466c31b9cadc2fc544744aeb817072349cfddc5ad0e81b03f1897bd9c8c6efbdf68237dc3bb00445979fb373b20c9a967ac55)

#guard xy (do (← nist_p521S).sub (← nist_p521T)) ==
    some (0x1292cb58b1795ba477063fef7cd22e42c20f57ae94ceaad86e0d21ff22918b0dd3b076d63be253de24bc20c6da290fa54d83771a225deecf9149f79a8e614c3c4cd,
      0x1695e3821e72c7cacaadcf62909cd83463a21c6d03393c527c643b36239c46af117ab7c7ad19a4c8cf0ae95ed51729885461aa2ce2700a6365bca3733d2920b2267)

#guard xy (do (← nist_p521S).mul 2) ==
    some (0x12879442f2450c119e7119a5f738be1f1eba9e9d7c6cf41b325d9ce6d643106e9d61124a91a96bcf201305a9dee55fa79136dc700831e54c3ca4ff2646bd3c36bc6,
      0x19864a8b8855c2479cbefe375ae553e2393271ed36fadfc4494fc0583f6bd03598896f39854abeae5f9a6515a021e2c0eef139e71de610143f53382f4104dccb543)

#guard xy (do (← nist_p521S).mul 0x1eb7f81785c9629f136a7e8f8c674957109735554111a2a866fa5a166699419bfa9936c78b62653964df0d6da940a695c7294d41b2d6600de6dfcf0edcfc89fdcb1) ==
    some (0x91b15d09d0ca0353f8f96b93cdb13497b0a4bb582ae9ebefa35eee61bf7b7d041b8ec34c6c00c0c0671c4ae063318fb75be87af4fe859608c95f0ab4774f8c95bb,
      0x130f8f8b5e1abb4dd94f6baaf654a2d5810411e77b7423965e0c7fd79ec1ae563c207bd255ee9828eb7a03fed565240d2cc80ddd2cecbb2eb50f0951f75ad87977f)

#guard xy (do
      let p ← (← nist_p521S).mul 0x1eb7f81785c9629f136a7e8f8c674957109735554111a2a866fa5a166699419bfa9936c78b62653964df0d6da940a695c7294d41b2d6600de6dfcf0edcfc89fdcb1
      let q ← (← nist_p521T).mul 0x137e6b73d38f153c3a7575615812608f2bab3229c92e21c0d1c83cfad9261dbb17bb77a63682000031b9122c2f0cdab2af72314be95254de4291a8f85f7c70412e3
      p.add q) ==
    some (0x9d3802642b3bea152beb9e05fba247790f7fc168072d363340133402f2585588dc1385d40ebcb8552f8db02b23d687cae46185b27528adb1bf9729716e4eba653d,
      0xfe44344e79da6f49d87c1063744e5957d9ac0a505bafa8281c9ce9ff25ad53f8da084a2deb0923e46501de5797850c61b229023dd9cf7fc7f04cd35ebb026d89d)

/-! ### `ecc/test/test_sec256k1.py` -/

#guard xy (do (← SECP_256k1.generator 0).mul 0xAA5E28D6A97A2479A65527F7290311A3624D4CC0FA1578598EE3C2613BF99522) ==
    some (0x34F9460F0E4F08393D192B3C5133A6BA099AA0AD9FD54EBCCFACDFA239FF49C6,
      0x0B71EA9BD730FD8923F6D25A7A91E7DD7728A960686CB5A901BB419E0F2CA232)

#guard xy (do (← SECP_256k1.generator 0).mul 0x7E2B897B8CEBC6361663AD410835639826D590F393D90A9538881735256DFAE3) ==
    some (0xD74BF844B0862475103D96A611CF2D898447E288D34B360BC885CB8CE7C00575,
      0x131C670D414C4546B88AC3FF664611B1C38CEB1C21D76369D7A7A0969D61D97D)

#guard xy (do (← SECP_256k1.generator 0).mul 0x6461E6DF0FE7DFD05329F41BF771B86578143D4DD1F7866FB4CA7E97C5FA945D) ==
    some (0xE8AECC370AEDD953483719A116711963CE201AC3EB21D3F3257BB48668C6A72F,
      0xC25CAF2F0EBA1DDB2F0F3F47866299EF907867B7D27E95B3873BF98397B24EE1)

#guard xy (do (← SECP_256k1.generator 0).mul 0x376A3A2CDCD12581EFFF13EE4AD44C4044B8A0524C42422A7E1E181E4DEECCEC) ==
    some (0x14890E61FCD4B0BD92E5B36C81372CA6FED471EF3AA60A3E415EE4FE987DABA1,
      0x297B858D9F752AB42D3BCA67EE0EB6DCD1C2B7B0DBE23397E66ADC272263F982)

#guard xy (do (← SECP_256k1.generator 0).mul 0x1B22644A7BE026548810C378D0B2994EEFA6D2B9881803CB02CEFF865287D1B9) ==
    some (0xF73C65EAD01C5126F28F442D087689BFA08E12763E0CEC1D35B01751FD735ED3,
      0xF449A8376906482A84ED01479BD18882B919C140D638307F0C0934BA12590BDE)

#guard (xy (do (← SECP_256k1.generator 0).mul 0xe8f32e723decf4051aefac8e2c93c9c5b214313817cdb01a1494b917c8436b35)).map (·.1) ==
    some 0x39a36013301597daef41fbe593a02cc513d0b55527ec2df1050e2e8ff49c85c2

/-! ### `cipher/test/test_encoding.py` -/

#guard (match intToString 0x108000000000000000080800200c417a with
  | .error _ => false
  | .ok s => b85encode s == some (.ok "4)+k&C#VzJ4br>0wv%Yp".toList) && b85decode "4)+k&C#VzJ4br>0wv%Yp".toList == .ok s)

#guard (List.range 1000).all fun i => match intToString i with
  | .error _ => false
  | .ok s => stringToInt s == i &&
    (match b27encode s with | some (.ok t) => b27decode t == .ok s | _ => false) &&
    (match b85encode s with | some (.ok t) => b85decode t == .ok s | _ => false) &&
    (match b94encode s with | some (.ok t) => b94decode t == .ok s | _ => false)

end Cryptopy.Vectors
