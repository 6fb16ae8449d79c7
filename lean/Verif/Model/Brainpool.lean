import Verif.Model.Curves

/-!
The attribute `z` of the twisted Brainpool curves of `ecc/curves.py`.
-/

namespace Cryptopy.Model

/-- The random Brainpool curves, their twisted versions and the attribute `z` of the latter, `ecc/curves.py` lines 434-647;
`z` is in lines 464, 495, 526, 586, 617 and 647, and `BrainPoolP256t1` has none. -/
def brainpoolTwists : List (WClass × WClass × Option Int) :=
  [(BrainPoolP160r1, BrainPoolP160t1, some 0x24DBFF5DEC9B986BBFE5295A29BFBAE45E0F5D0B),
    (BrainPoolP192r1, BrainPoolP192t1, some 0x1B6F5CC8DB4DC7AF19458A9CB80DC2295E5EB9C3732104CB),
    (BrainPoolP224r1, BrainPoolP224t1, some 0x2DF271E14427A346910CF7A2E6CFA7B3F484E5C2CCE1C8B730E28B3F),
    (BrainPoolP256r1, BrainPoolP256t1, none),
    (BrainPoolP320r1, BrainPoolP320t1, some 0x15F75CAF668077F7E85B42EB01F0A81FF56ECD6191D55CB82B7D861458A18FEFC3E5AB7496F3C7B1),
    (BrainPoolP384r1, BrainPoolP384t1, some 0x41DFE8DD399331F7166A66076734A89CD0D2BCDB7D068E44E1F378F41ECBAE97D2D63DBC87BCCDDCCC5DA39E8589291C),
    (BrainPoolP512r1, BrainPoolP512t1, some 0x12EE58E6764838B69782136F0F2D3BA06E27695716054092E60A80BEDB212B64E585D90BCE13761F85C3F1D2A64E3BE8FEA2220F01EBA5EEB0F35DBD29D922AB)]

end Cryptopy.Model
