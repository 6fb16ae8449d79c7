import Verif.Model.Ecc

/-!
The numbers of `ecc/curves.py`, copied class by class; `curveId`, `strength` and `oid` are left out, nothing in the
methods reads them.  The seeds are in `Model/Seeds.lean`.
-/

namespace Cryptopy.Model

/-- The class attributes of a subclass of `SmallWeierstrassCurveFp` in `ecc/curves.py`. -/
structure WClass where
  name : String
  p : Int
  a : Int
  b : Int
  xG : Int
  yG : Int
  n : Int
  h : Int

/-- An instance of the class: the attributes the methods read, with the identity `oid` of the object.
`ecc/ellipticcurve.py` lines 39-49 on a class of `ecc/curves.py`. -/
def WClass.instance (K : WClass) (oid : Nat) : WCurve := ⟨oid, K.p, K.a, K.b, K.n⟩

/-- `generator`, `ecc/ellipticcurve.py` lines 32-34, on an instance. -/
def WClass.generator (K : WClass) (oid : Nat) : Py WPoint := (K.instance oid).point (some K.xG) (some K.yG)

/-- `class SECP_192r1( SmallWeierstrassCurveFp )`, `ecc/curves.py` lines 75-87. -/
def SECP_192r1 : WClass :=
  let p : Int := 0xfffffffffffffffffffffffffffffffeffffffffffffffff
  { name := "SECP_192r1"
    p := p
    a := p - 3
    b := 0x64210519e59c80e70fa7e9ab72243049feb8deecc146b9b1
    xG := 0x188da80eb03090f67cbf20eb43a18800f4ff0afd82ff1012
    yG := 0x7192b95ffc8da78631011ed6b24cdd573f977a11e794811
    n := 6277101735386680763835789423176059013767194773182842284081
    h := 1 }

/-- `class NIST_P192( SECP_192r1 )`, `ecc/curves.py` lines 96-97: the inherited numbers. -/
def NIST_P192 : WClass := { SECP_192r1 with name := "NIST_P192" }

/-- `class SECP_224r1( SmallWeierstrassCurveFp )`, `ecc/curves.py` lines 100-112. -/
def SECP_224r1 : WClass :=
  let p : Int := 0xffffffffffffffffffffffffffffffff000000000000000000000001
  { name := "SECP_224r1"
    p := p
    a := p - 3
    b := 0xb4050a850c04b3abf54132565044b0b7d7bfd8ba270b39432355ffb4
    xG := 0xb70e0cbd6bb4bf7f321390b94a03c1d356c21122343280d6115c1d21
    yG := 0xbd376388b5f723fb4c22dfe6cd4375a05a07476444d5819985007e34
    n := 0xffffffffffffffffffffffffffff16a2e0b8f03e13dd29455c5c2a3d
    h := 1 }

/-- `class NIST_P224( SECP_224r1 )`, `ecc/curves.py` lines 118-119: the inherited numbers. -/
def NIST_P224 : WClass := { SECP_224r1 with name := "NIST_P224" }

/-- `class SECP_256k1( KoblitzCurveFp )`, `ecc/curves.py` lines 122-136; `a = 0` is inherited, `ecc/ecc.py` line 133. -/
def SECP_256k1 : WClass :=
  { name := "SECP_256k1"
    p := 0xfffffffffffffffffffffffffffffffffffffffffffffffffffffffefffffc2f
    a := 0
    b := 7
    xG := 0x79be667ef9dcbbac55a06295ce870b07029bfcdb2dce28d959f2815b16f81798
    yG := 0x483ada7726a3c4655da4fbfc0e1108a8fd17b448a68554199c47d08ffb10d4b8
    n := 0xfffffffffffffffffffffffffffffffebaaedce6af48a03bbfd25e8cd0364141
    h := 1 }

/-- `class SECP_256r1( SmallWeierstrassCurveFp )`, `ecc/curves.py` lines 139-152. -/
def SECP_256r1 : WClass :=
  let p : Int := 0xffffffff00000001000000000000000000000000ffffffffffffffffffffffff
  { name := "SECP_256r1"
    p := p
    a := p - 3
    b := 0x5ac635d8aa3a93e7b3ebbd55769886bc651d06b0cc53b0f63bce3c3e27d2604b
    xG := 0x6b17d1f2e12c4247f8bce6e563a440f277037d812deb33a0f4a13945d898c296
    yG := 0x4fe342e2fe1a7f9b8ee7eb4a7c0f9e162bce33576b315ececbb6406837bf51f5
    n := 115792089210356248762697446949407573529996955224135760342422259061068512044369
    h := 1 }

/-- `class NIST_P256( SECP_256r1 )`, `ecc/curves.py` lines 158-159: the inherited numbers. -/
def NIST_P256 : WClass := { SECP_256r1 with name := "NIST_P256" }

/-- `class WAPI( SmallWeierstrassCurveFp )`, `ecc/curves.py` lines 162-176. -/
def WAPI : WClass :=
  { name := "WAPI"
    p := 0xbdb6f4fe3e8b1d9e0da8c0d46f4c318cefe4afe3b6b8551f
    a := 0xbb8e5e8fbc115e139fe6a814fe48aaa6f0ada1aa5df91985
    b := 0x1854bebdc31b21b7aefc80ab0ecd10d5b1b3308e6dbf11c1
    xG := 0x4ad5f7048de709ad51236de65e4d4b482c836dc6e4106640
    yG := 0x2bb3a02d4aaadacae24817a4ca3a1b014b5270432db27d2
    n := 0xbdb6f4fe3e8b1d9e0da8c0d40fc962195dfae76f56564677
    h := 1 }

/-- `class SWP256CCAO01( SmallWeierstrassCurveFp )`, `ecc/curves.py` lines 179-194. -/
def SWP256CCAO01 : WClass :=
  { name := "SWP256CCAO01"
    p := 0x8542D69E4C044F18E8B92435BF6FF7DE457283915C45517D722EDB8B08F1DFC3
    a := 0x787968B4FA32C3FD2417842E73BBFEFF2F3C848B6831D7E0EC65228B3937E498
    b := 0x63E4C6D3B23B0C849CF84241484BFE48F61D59A5B16BA06E6E12D1DA27C5249A
    xG := 0x421DEBD61B62EAB6746434EBC3CC315E32220B3BADD50BDC4C4E6C147FEDD43D
    yG := 0x680512BCBB42C07D47349D2153B70C4E5D7FDFCBFA36EA1A85841B9E46E09A2
    n := 0x8542D69E4C044F18E8B92435BF6FF7DD297720630485628D5AE74EE7C32E79B7
    h := 1 }

/-- `class SWP256SM2( SmallWeierstrassCurveFp )`, `ecc/curves.py` lines 197-213. -/
def SWP256SM2 : WClass :=
  let p : Int := 0xFFFFFFFEFFFFFFFFFFFFFFFFFFFFFFFFFFFFFFFF00000000FFFFFFFFFFFFFFFF
  { name := "SWP256SM2"
    p := p
    a := p - 3
    b := 0x28E9FA9E9D9F5E344D5A9E4BCF6509A7F39789F515AB8F92DDBCBD414D940E93
    xG := 0x32C4AE2C1F1981195F9904466A39C9948FE30BBFF2660BE1715A4589334C74C7
    yG := 0xBC3736A2F4F6779C59BDCEE36B692153D0A9877CC62A474002DF32E52139F0A0
    n := 0xFFFFFFFEFFFFFFFFFFFFFFFFFFFFFFFF7203DF6B21C6052B53BBF40939D54123
    h := 1 }

/-- `class GOST2001_test( SmallWeierstrassCurveFp )`, `ecc/curves.py` lines 220-231. -/
def GOST2001_test : WClass :=
  { name := "GOST2001_test"
    p := 0x8000000000000000000000000000000000000000000000000000000000000431
    a := 0x7
    b := 0x5fbff498aa938ce739b8e022fbafef40563f6e6a3472fc2a514c0ce9dae23b7e
    xG := 0x2
    yG := 0x8e2a8a0e65147d4bd6316030e16d19c85c97f0a9ca267122b96abbcea7e8fc8
    n := 0x8000000000000000000000000000000150fe8a1892976154c59cfc193accf5b3
    h := 1 }

/-- `class GOST2001_CryptoPro_A( SmallWeierstrassCurveFp )`, `ecc/curves.py` lines 234-245. -/
def GOST2001_CryptoPro_A : WClass :=
  { name := "GOST2001_CryptoPro_A"
    p := 0xfffffffffffffffffffffffffffffffffffffffffffffffffffffffffffffd97
    a := 0xfffffffffffffffffffffffffffffffffffffffffffffffffffffffffffffd94
    b := 0xa6
    xG := 0x1
    yG := 0x8d91e471e0989cda27df505a453f2b7635294f2ddf23e3b122acc99c9e9f1e14
    n := 0xffffffffffffffffffffffffffffffff6c611070995ad10045841b09b761b893
    h := 1 }

/-- `class GOST2001_CryptoPro_B( SmallWeierstrassCurveFp )`, `ecc/curves.py` lines 248-259. -/
def GOST2001_CryptoPro_B : WClass :=
  { name := "GOST2001_CryptoPro_B"
    p := 0x8000000000000000000000000000000000000000000000000000000000000c99
    a := 0x8000000000000000000000000000000000000000000000000000000000000c96
    b := 0x3e1af419a269a5f866a7d3c25c3df80ae979259373ff2b182f49d4ce7e1bbc8b
    xG := 0x1
    yG := 0x3fa8124359f96680b83d1c3eb2c070e5c545c9858d03ecfb744bf8d717717efc
    n := 0x800000000000000000000000000000015f700cfff1a624e5e497161bcc8a198f
    h := 1 }

/-- `class GOST2001_CryptoPro_C( SmallWeierstrassCurveFp )`, `ecc/curves.py` lines 262-273. -/
def GOST2001_CryptoPro_C : WClass :=
  { name := "GOST2001_CryptoPro_C"
    p := 0x9b9f605f5a858107ab1ec85e6b41c8aacf846e86789051d37998f7b9022d759b
    a := 0x9b9f605f5a858107ab1ec85e6b41c8aacf846e86789051d37998f7b9022d7598
    b := 0x805a
    xG := 0x0
    yG := 0x41ece55743711a8c3cbf3783cd08c0ee4d4dc440d4641a8f366e550dfdb3bb67
    n := 0x9b9f605f5a858107ab1ec85e6b41c8aa582ca3511eddfb74f02f3a6598980bb9
    h := 1 }

/-- `class GOST2012_test( SmallWeierstrassCurveFp )`, `ecc/curves.py` lines 276-287. -/
def GOST2012_test : WClass :=
  { name := "GOST2012_test"
    p := 0x4531acd1fe0023c7550d267b6b2fee80922b14b2ffb90f04d4eb7c09b5d2d15df1d852741af4704a0458047e80e4546d35b8336fac224dd81664bbf528be6373
    a := 0x7
    b := 0x1cff0806a31116da29d8cfa54e57eb748bc5f377e49400fdd788b649eca1ac4361834013b2ad7322480a89ca58e0cf74bc9e540c2add6897fad0a3084f302adc
    xG := 0x24d19cc64572ee30f396bf6ebbfd7a6c5213b3b3d7057cc825f91093a68cd762fd60611262cd838dc6b60aa7eee804e28bc849977fac33b4b530f1b120248a9a
    yG := 0x2bb312a43bd2ce6e0d020613c857acddcfbf061e91e5f2c3f32447c259f39b2c83ab156d77f1496bf7eb3351e1ee4e43dc1a18b91b24640b6dbb92cb1add371e
    n := 0x4531acd1fe0023c7550d267b6b2fee80922b14b2ffb90f04d4eb7c09b5d2d15da82f2d7ecb1dbac719905c5eecc423f1d86e25edbe23c595d644aaf187e6e6df
    h := 1 }

/-- `class GOST2012_tc26_A( SmallWeierstrassCurveFp )`, `ecc/curves.py` lines 290-301. -/
def GOST2012_tc26_A : WClass :=
  { name := "GOST2012_tc26_A"
    p := 0xfffffffffffffffffffffffffffffffffffffffffffffffffffffffffffffffffffffffffffffffffffffffffffffffffffffffffffffffffffffffffffffdc7
    a := 0xfffffffffffffffffffffffffffffffffffffffffffffffffffffffffffffffffffffffffffffffffffffffffffffffffffffffffffffffffffffffffffffdc4
    b := 0xe8c2505dedfc86ddc1bd0b2b6667f1da34b82574761cb0e879bd081cfd0b6265ee3cb090f30d27614cb4574010da90dd862ef9d4ebee4761503190785a71c760
    xG := 0x3
    yG := 0x7503cfe87a836ae3a61b8816e25450e6ce5e1c93acf1abc1778064fdcbefa921df1626be4fd036e93d75e6a50e3a41e98028fe5fc235f5b889a589cb5215f2a4
    n := 0xffffffffffffffffffffffffffffffffffffffffffffffffffffffffffffffff27e69532f48d89116ff22b8d4e0560609b4b38abfad2b85dcacdb1411f10b275
    h := 1 }

/-- `class GOST2012_tc26_B( SmallWeierstrassCurveFp )`, `ecc/curves.py` lines 304-314. -/
def GOST2012_tc26_B : WClass :=
  { name := "GOST2012_tc26_B"
    p := 0x8000000000000000000000000000000000000000000000000000000000000000000000000000000000000000000000000000000000000000000000000000006f
    a := 0x8000000000000000000000000000000000000000000000000000000000000000000000000000000000000000000000000000000000000000000000000000006c
    b := 0x687d1b459dc841457e3e06cf6f5e2517b97c7d614af138bcbf85dc806c4b289f3e965d2db1416d217f8b276fad1ab69c50f78bee1fa3106efb8ccbc7c5140116
    xG := 0x2
    yG := 0x1a8f7eda389b094c2c071e3647a8940f3c123b697578c213be6dd9e6c8ec7335dcb228fd1edf4a39152cbcaaf8c0398828041055f94ceeec7e21340780fe41bd
    n := 0x800000000000000000000000000000000000000000000000000000000000000149a1ec142565a545acfdb77bd9d40cfa8b996712101bea0ec6346c54374f25bd
    h := 1 }

/-- `class GOSTmsg05975sw( SmallWeierstrassCurveFp )`, `ecc/curves.py` lines 351-366. -/
def GOSTmsg05975sw : WClass :=
  { name := "GOSTmsg05975sw"
    p := 2 ^ 512 - 569
    a := 0xDC9203E514A721875485A529D2C722FB187BC8980EB866644DE41C68E143064546E861C0E2C9EDD92ADE71F46FCF50FF2AD97F951FDA9F2A2EB6546F39689BD3
    b := 0xB4C4EE28CEBC6C2C8AC12952CF37F16AC7EFB6A9F69F4B57FFDA2E4F0DE5ADE038CBC2FFF719D2C18DE0284B8BFEF3B52B8CC7A5F5BF0A3C8D2319A5312557E1
    xG := 0xE2E31EDFC23DE7BDEBE241CE593EF5DE2295B7A9CBAEF021D385F7074CEA043AA27272A7AE602BF2A7B9033DB9ED3610C6FB85487EAE97AAC5BC7928C1950148
    yG := 0xF5CE40D95B5EB899ABBCCFF5911CB8577939804D6527378B8C108C3D2090FF9BE18E2D33E3021ED2EF32D85822423B6304F726AA854BAE07D0396E9A9ADDC40F
    n := 0xFFFFFFFFFFFFFFFFFFFFFFFFFFFFFFFFFFFFFFFFFFFFFFFFFFFFFFFFFFFFFFFF26336E91941AAC0130CEA7FD451D40B323B6A79E9DA6849A5188F3BD1FC08FB4
    h := 4 }

/-- `class FRP256v1( SmallWeierstrassCurveFp )`, `ecc/curves.py` lines 369-382. -/
def FRP256v1 : WClass :=
  let p : Int := 0xF1FD178C0B3AD58F10126DE8CE42435B3961ADBCABC8CA6DE8FCF353D86E9C03
  { name := "FRP256v1"
    p := p
    a := p - 3
    b := 0xEE353FCA5428A9300D4ABA754A44C00FDFEC0C9AE4B1A1803075ED967B7BB73F
    xG := 0xB6B3D4C356C139EB31183D4749D423958C27D2DCAF98B70164C97A2DD98F5CFF
    yG := 0x6142E0F7C8B204911F9271F0F3ECEF8C2701C307E8E4C9E183115A1554062CFB
    n := 0xF1FD178C0B3AD58F10126DE8CE42435B53DC67E140D2BF941FFDD459C6D655E1
    h := 1 }

/-- `class SECP_384r1( SmallWeierstrassCurveFp )`, `ecc/curves.py` lines 385-396. -/
def SECP_384r1 : WClass :=
  let p : Int := 39402006196394479212279040100143613805079739270465446667948293404245721771496870329047266088258938001861606973112319
  { name := "SECP_384r1"
    p := p
    a := p - 3
    b := 0xb3312fa7e23ee7e4988e056be3f82d19181d9c6efe8141120314088f5013875ac656398d8a2ed19d2a85c8edd3ec2aef
    xG := 0xaa87ca22be8b05378eb1c71ef320ad746e1d3b628ba79b9859f741e082542a385502f25dbf55296c3a545e3872760ab7
    yG := 0x3617de4a96262c6f5d9e98bf9292dc29f8f41dbd289a147ce9da3113b5f0b8c00a60b1ce1d7e819d7a431d7c90ea0e5f
    n := 39402006196394479212279040100143613805079739270465446667946905279627659399113263569398956308152294913554433653942643
    h := 1 }

/-- `class NIST_P384( SECP_384r1 )`, `ecc/curves.py` lines 402-403: the inherited numbers. -/
def NIST_P384 : WClass := { SECP_384r1 with name := "NIST_P384" }

/-- `class SECP_521r1( SmallWeierstrassCurveFp )`, `ecc/curves.py` lines 406-418. -/
def SECP_521r1 : WClass :=
  let p : Int := 0x1ffffffffffffffffffffffffffffffffffffffffffffffffffffffffffffffffffffffffffffffffffffffffffffffffffffffffffffffffffffffffffffffffff
  { name := "SECP_521r1"
    p := p
    a := p - 3
    b := 0x51953eb9618e1c9a1f929a21a0b68540eea2da725b99b315f3b8b489918ef109e156193951ec7e937b1652c0bd3bb1bf073573df883d2c34f1ef451fd46b503f00
    xG := 0xc6858e06b70404e9cd9e3ecb662395b4429c648139053fb521f828af606b4d3dbaa14b5e77efe75928fe1dc127a2ffa8de3348b3c1856a429bf97e7e31c2e5bd66
    yG := 0x11839296a789a3bc0045c8a5fb42c7d1bd998f54449579b446817afbd17273e662c97ee72995ef42640c550b9013fad0761353c7086a272c24088be94769fd16650
    n := 0x1fffffffffffffffffffffffffffffffffffffffffffffffffffffffffffffffffa51868783bf2f966b7fcc0148f709a5d03bb5c9b8899c47aebb6fb71e91386409
    h := 1 }

/-- `class NIST_P521( SECP_521r1 )`, `ecc/curves.py` lines 424-425: the inherited numbers. -/
def NIST_P521 : WClass := { SECP_521r1 with name := "NIST_P521" }

/-- `class BrainPoolP160r1( SmallWeierstrassCurveFp )`, `ecc/curves.py` lines 434-444. -/
def BrainPoolP160r1 : WClass :=
  { name := "BrainPoolP160r1"
    p := 0xE95E4A5F737059DC60DFC7AD95B3D8139515620F
    a := 0x340E7BE2A280EB74E2BE61BADA745D97E8F7C300
    b := 0x1E589A8595423412134FAA2DBDEC95C8D8675E58
    xG := 0xBED5AF16EA3F6A4F62938C4631EB5AF7BDBCDBC3
    yG := 0x1667CB477A1A8EC338F94741669C976316DA6321
    n := 0xE95E4A5F737059DC60DF5991D45029409E60FC09
    h := 1 }

/-- `class BrainPoolP160t1( SmallWeierstrassCurveFp )`, `ecc/curves.py` lines 450-460. -/
def BrainPoolP160t1 : WClass :=
  let p : Int := 0xE95E4A5F737059DC60DFC7AD95B3D8139515620F
  { name := "BrainPoolP160t1"
    p := p
    a := p - 3
    b := 0x7A556B6DAE535B7B51ED2C4D7DAA7A0B5C55F380
    xG := 0xB199B13B9B34EFC1397E64BAEB05ACC265FF2378
    yG := 0xADD6718B7C7C1961F0991B842443772152C9E0AD
    n := 0xE95E4A5F737059DC60DF5991D45029409E60FC09
    h := 1 }

/-- `class BrainPoolP192r1( SmallWeierstrassCurveFp )`, `ecc/curves.py` lines 467-477. -/
def BrainPoolP192r1 : WClass :=
  { name := "BrainPoolP192r1"
    p := 0xC302F41D932A36CDA7A3463093D18DB78FCE476DE1A86297
    a := 0x6A91174076B1E0E19C39C031FE8685C1CAE040E5C69A28EF
    b := 0x469A28EF7C28CCA3DC721D044F4496BCCA7EF4146FBF25C9
    xG := 0xC0A0647EAAB6A48753B033C56CB0F0900A2F5C4853375FD6
    yG := 0x14B690866ABD5BB88B5F4828C1490002E6773FA2FA299B8F
    n := 0xC302F41D932A36CDA7A3462F9E9E916B5BE8F1029AC4ACC1
    h := 1 }

/-- `class BrainPoolP192t1( SmallWeierstrassCurveFp )`, `ecc/curves.py` lines 483-493. -/
def BrainPoolP192t1 : WClass :=
  let p : Int := 0xC302F41D932A36CDA7A3463093D18DB78FCE476DE1A86297
  { name := "BrainPoolP192t1"
    p := p
    a := p - 3
    b := 0x13D56FFAEC78681E68F9DEB43B35BEC2FB68542E27897B79
    xG := 0x3AE9E58C82F63C30282E1FE7BBF43FA72C446AF6F4618129
    yG := 0x97E2C5667C2223A902AB5CA449D0084B7E5B3DE7CCC01C9
    n := 0xC302F41D932A36CDA7A3462F9E9E916B5BE8F1029AC4ACC1
    h := 1 }

/-- `class BrainPoolP224r1( SmallWeierstrassCurveFp )`, `ecc/curves.py` lines 498-508. -/
def BrainPoolP224r1 : WClass :=
  { name := "BrainPoolP224r1"
    p := 0xD7C134AA264366862A18302575D1D787B09F075797DA89F57EC8C0FF
    a := 0x68A5E62CA9CE6C1C299803A6C1530B514E182AD8B0042A59CAD29F43
    b := 0x2580F63CCFE44138870713B1A92369E33E2135D266DBB372386C400B
    xG := 0xD9029AD2C7E5CF4340823B2A87DC68C9E4CE3174C1E6EFDEE12C07D
    yG := 0x58AA56F772C0726F24C6B89E4ECDAC24354B9E99CAA3F6D3761402CD
    n := 0xD7C134AA264366862A18302575D0FB98D116BC4B6DDEBCA3A5A7939F
    h := 1 }

/-- `class BrainPoolP224t1( SmallWeierstrassCurveFp )`, `ecc/curves.py` lines 514-524. -/
def BrainPoolP224t1 : WClass :=
  let p : Int := 0xD7C134AA264366862A18302575D1D787B09F075797DA89F57EC8C0FF
  { name := "BrainPoolP224t1"
    p := p
    a := p - 3
    b := 0x4B337D934104CD7BEF271BF60CED1ED20DA14C08B3BB64F18A60888D
    xG := 0x6AB1E344CE25FF3896424E7FFE14762ECB49F8928AC0C76029B4D580
    yG := 0x374E9F5143E568CD23F3F4D7C0D4B1E41C8CC0D1C6ABD5F1A46DB4C
    n := 0xD7C134AA264366862A18302575D0FB98D116BC4B6DDEBCA3A5A7939F
    h := 1 }

/-- `class BrainPoolP256r1( SmallWeierstrassCurveFp )`, `ecc/curves.py` lines 529-539. -/
def BrainPoolP256r1 : WClass :=
  { name := "BrainPoolP256r1"
    p := 0xA9FB57DBA1EEA9BC3E660A909D838D726E3BF623D52620282013481D1F6E5377
    a := 0x7D5A0975FC2C3057EEF67530417AFFE7FB8055C126DC5C6CE94A4B44F330B5D9
    b := 0x26DC5C6CE94A4B44F330B5D9BBD77CBF958416295CF7E1CE6BCCDC18FF8C07B6
    xG := 0x8BD2AEB9CB7E57CB2C4B482FFC81B7AFB9DE27E1E3BD23C23A4453BD9ACE3262
    yG := 0x547EF835C3DAC4FD97F8461A14611DC9C27745132DED8E545C1D54C72F046997
    n := 0xA9FB57DBA1EEA9BC3E660A909D838D718C397AA3B561A6F7901E0E82974856A7
    h := 1 }

/-- `class BrainPoolP256t1( SmallWeierstrassCurveFp )`, `ecc/curves.py` lines 545-555. -/
def BrainPoolP256t1 : WClass :=
  let p : Int := 0xA9FB57DBA1EEA9BC3E660A909D838D726E3BF623D52620282013481D1F6E5377
  { name := "BrainPoolP256t1"
    p := p
    a := p - 3
    b := 0x662C61C430D84EA4FE66A7733D0B76B7BF93EBC4AF2F49256AE58101FEE92B04
    xG := 0xA3E8EB3CC1CFE7B7732213B23A656149AFA142C47AAFBC2B79A191562E1305F4
    yG := 0x2D996C823439C56D7F7B22E14644417E69BCB6DE39D027001DABE8F35B25C9BE
    n := 0xA9FB57DBA1EEA9BC3E660A909D838D718C397AA3B561A6F7901E0E82974856A7
    h := 1 }

/-- `class BrainPoolP320r1( SmallWeierstrassCurveFp )`, `ecc/curves.py` lines 558-568. -/
def BrainPoolP320r1 : WClass :=
  { name := "BrainPoolP320r1"
    p := 0xD35E472036BC4FB7E13C785ED201E065F98FCFA6F6F40DEF4F92B9EC7893EC28FCD412B1F1B32E27
    a := 0x3EE30B568FBAB0F883CCEBD46D3F3BB8A2A73513F5EB79DA66190EB085FFA9F492F375A97D860EB4
    b := 0x520883949DFDBC42D3AD198640688A6FE13F41349554B49ACC31DCCD884539816F5EB4AC8FB1F1A6
    xG := 0x43BD7E9AFB53D8B85289BCC48EE5BFE6F20137D10A087EB6E7871E2A10A599C710AF8D0D39E20611
    yG := 0x14FDD05545EC1CC8AB4093247F77275E0743FFED117182EAA9C77877AAAC6AC7D35245D1692E8EE1
    n := 0xD35E472036BC4FB7E13C785ED201E065F98FCFA5B68F12A32D482EC7EE8658E98691555B44C59311
    h := 1 }

/-- `class BrainPoolP320t1( SmallWeierstrassCurveFp )`, `ecc/curves.py` lines 574-584. -/
def BrainPoolP320t1 : WClass :=
  let p : Int := 0xD35E472036BC4FB7E13C785ED201E065F98FCFA6F6F40DEF4F92B9EC7893EC28FCD412B1F1B32E27
  { name := "BrainPoolP320t1"
    p := p
    a := p - 3
    b := 0xA7F561E038EB1ED560B3D147DB782013064C19F27ED27C6780AAF77FB8A547CEB5B4FEF422340353
    xG := 0x925BE9FB01AFC6FB4D3E7D4990010F813408AB106C4F09CB7EE07868CC136FFF3357F624A21BED52
    yG := 0x63BA3A7A27483EBF6671DBEF7ABB30EBEE084E58A0B077AD42A5A0989D1EE71B1B9BC0455FB0D2C3
    n := 0xD35E472036BC4FB7E13C785ED201E065F98FCFA5B68F12A32D482EC7EE8658E98691555B44C59311
    h := 1 }

/-- `class BrainPoolP384r1( SmallWeierstrassCurveFp )`, `ecc/curves.py` lines 589-599. -/
def BrainPoolP384r1 : WClass :=
  { name := "BrainPoolP384r1"
    p := 0x8CB91E82A3386D280F5D6F7E50E641DF152F7109ED5456B412B1DA197FB71123ACD3A729901D1A71874700133107EC53
    a := 0x7BC382C63D8C150C3C72080ACE05AFA0C2BEA28E4FB22787139165EFBA91F90F8AA5814A503AD4EB04A8C7DD22CE2826
    b := 0x4A8C7DD22CE28268B39B55416F0447C2FB77DE107DCD2A62E880EA53EEB62D57CB4390295DBC9943AB78696FA504C11
    xG := 0x1D1C64F068CF45FFA2A63A81B7C13F6B8847A3E77EF14FE3DB7FCAFE0CBD10E8E826E03436D646AAEF87B2E247D4AF1E
    yG := 0x8ABE1D7520F9C2A45CB1EB8E95CFD55262B70B29FEEC5864E19C054FF99129280E4646217791811142820341263C5315
    n := 0x8CB91E82A3386D280F5D6F7E50E641DF152F7109ED5456B31F166E6CAC0425A7CF3AB6AF6B7FC3103B883202E9046565
    h := 1 }

/-- `class BrainPoolP384t1( SmallWeierstrassCurveFp )`, `ecc/curves.py` lines 605-615. -/
def BrainPoolP384t1 : WClass :=
  let p : Int := 0x8CB91E82A3386D280F5D6F7E50E641DF152F7109ED5456B412B1DA197FB71123ACD3A729901D1A71874700133107EC53
  { name := "BrainPoolP384t1"
    p := p
    a := p - 3
    b := 0x7F519EADA7BDA81BD826DBA647910F8C4B9346ED8CCDC64E4B1ABD11756DCE1D2074AA263B88805CED70355A33B471EE
    xG := 0x18DE98B02DB9A306F2AFCD7235F72A819B80AB12EBD653172476FECD462AABFFC4FF191B946A5F54D8D0AA2F418808CC
    yG := 0x25AB056962D30651A114AFD2755AD336747F93475B7A1FCA3B88F2B6A208CCFE469408584DC2B2912675BF5B9E582928
    n := 0x8CB91E82A3386D280F5D6F7E50E641DF152F7109ED5456B31F166E6CAC0425A7CF3AB6AF6B7FC3103B883202E9046565
    h := 1 }

/-- `class BrainPoolP512r1( SmallWeierstrassCurveFp )`, `ecc/curves.py` lines 620-630. -/
def BrainPoolP512r1 : WClass :=
  { name := "BrainPoolP512r1"
    p := 0xAADD9DB8DBE9C48B3FD4E6AE33C9FC07CB308DB3B3C9D20ED6639CCA703308717D4D9B009BC66842AECDA12AE6A380E62881FF2F2D82C68528AA6056583A48F3
    a := 0x7830A3318B603B89E2327145AC234CC594CBDD8D3DF91610A83441CAEA9863BC2DED5D5AA8253AA10A2EF1C98B9AC8B57F1117A72BF2C7B9E7C1AC4D77FC94CA
    b := 0x3DF91610A83441CAEA9863BC2DED5D5AA8253AA10A2EF1C98B9AC8B57F1117A72BF2C7B9E7C1AC4D77FC94CADC083E67984050B75EBAE5DD2809BD638016F723
    xG := 0x81AEE4BDD82ED9645A21322E9C4C6A9385ED9F70B5D916C1B43B62EEF4D0098EFF3B1F78E2D0D48D50D1687B93B97D5F7C6D5047406A5E688B352209BCB9F822
    yG := 0x7DDE385D566332ECC0EABFA9CF7822FDF209F70024A57B1AA000C55B881F8111B2DCDE494A5F485E5BCA4BD88A2763AED1CA2B2FA8F0540678CD1E0F3AD80892
    n := 0xAADD9DB8DBE9C48B3FD4E6AE33C9FC07CB308DB3B3C9D20ED6639CCA70330870553E5C414CA92619418661197FAC10471DB1D381085DDADDB58796829CA90069
    h := 1 }

/-- `class BrainPoolP512t1( SmallWeierstrassCurveFp )`, `ecc/curves.py` lines 635-645. -/
def BrainPoolP512t1 : WClass :=
  let p : Int := 0xAADD9DB8DBE9C48B3FD4E6AE33C9FC07CB308DB3B3C9D20ED6639CCA703308717D4D9B009BC66842AECDA12AE6A380E62881FF2F2D82C68528AA6056583A48F3
  { name := "BrainPoolP512t1"
    p := p
    a := p - 3
    b := 0x7CBBBCF9441CFAB76E1890E46884EAE321F70C0BCB4981527897504BEC3E36A62BCDFA2304976540F6450085F2DAE145C22553B465763689180EA2571867423E
    xG := 0x640ECE5C12788717B9C1BA06CBC2A6FEBA85842458C56DDE9DB1758D39C0313D82BA51735CDB3EA499AA77A7D6943A64F7A3F25FE26F06B51BAA2696FA9035DA
    yG := 0x5B534BD595F5AF0FA2C892376C84ACE1BB4E3019B71634C01131159CAE03CEE9D9932184BEEF216BD71DF2DADF86A627306ECFF96DBB8BACE198B61E00F8B332
    n := 0xAADD9DB8DBE9C48B3FD4E6AE33C9FC07CB308DB3B3C9D20ED6639CCA70330870553E5C414CA92619418661197FAC10471DB1D381085DDADDB58796829CA90069
    h := 1 }

/-- The Weierstrass curves of `ecc/curves.py` with a cofactor 1: all but `GOSTmsg05975sw`. -/
def primeOrderClasses : List WClass :=
  [SECP_192r1, NIST_P192, SECP_224r1, NIST_P224, SECP_256k1, SECP_256r1, NIST_P256, WAPI, SWP256CCAO01,
    SWP256SM2, GOST2001_test, GOST2001_CryptoPro_A, GOST2001_CryptoPro_B, GOST2001_CryptoPro_C,
    GOST2012_test, GOST2012_tc26_A, GOST2012_tc26_B, FRP256v1, SECP_384r1, NIST_P384, SECP_521r1,
    NIST_P521, BrainPoolP160r1, BrainPoolP160t1, BrainPoolP192r1, BrainPoolP192t1, BrainPoolP224r1,
    BrainPoolP224t1, BrainPoolP256r1, BrainPoolP256t1, BrainPoolP320r1, BrainPoolP320t1, BrainPoolP384r1,
    BrainPoolP384t1, BrainPoolP512r1, BrainPoolP512t1]

end Cryptopy.Model
