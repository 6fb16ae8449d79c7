import Verif.Model.Hmac
import Verif.Model.Michael
import Verif.Model.ChaCha
import Verif.Model.Sboxes
import Verif.Spec.Sha1
import Verif.Spec.Siv

/-!
The recorded values of `hash/test/*.py` and of `cipher/test/test_chacha_poly.py`, evaluated in the model, with SHA-1 of
FIPS 180-2 and the AES table in place of the external modules.  These are tests of the translation, not proofs; nothing
else uses them.
-/

namespace Cryptopy.Vectors
open Model
open Spec (beBytes beValue)

/-- SHA-1 as a hash module. -/
def sha1Lib : HashLib where
  rawBlockSize := 64
  digestSize := 20
  H s := beBytes 20 (Spec.sha1 (beValue s) (8 * s.length))

/-- `hmac.new(key, msg, sha).digest()` of the standard library. -/
def stdHmac (key msg : Bytes) : Py Bytes := .ok ((hmacPrf sha1Lib).prf key msg)

/-! ### `hash/test/test_hmac.py` -/

#guard ((Hmac.new sha1Lib (some (beBytes 20 0x0b0b0b0b0b0b0b0b0b0b0b0b0b0b0b0b0b0b0b0b))).call sha1Lib (beBytes 8 0x4869205468657265)).2 ==
    .ok (beBytes 20 0xb617318655057264e28bc0b6fb378c8ef146be00)

#guard ((Hmac.new sha1Lib (some (beBytes 4 0x4a656665))).call sha1Lib (beBytes 28 0x7768617420646f2079612077616e7420666f72206e6f7468696e673f)).2 ==
    .ok (beBytes 20 0xeffcdf6ae5eb2fa2d27416d5f184df9c259a7c79)

#guard ((Hmac.new sha1Lib (some (beBytes 20 0xaaaaaaaaaaaaaaaaaaaaaaaaaaaaaaaaaaaaaaaa))).call sha1Lib (beBytes 50 0xdddddddddddddddddddddddddddddddddddddddddddddddddddddddddddddddddddddddddddddddddddddddddddddddddddd)).2 ==
    .ok (beBytes 20 0x125d7342b9ac11cd91a39af48aa17b4f63f175d3)

/-! ### `hash/test/prf_dot11_test.py` -/

#guard prfDot11 stdHmac (beBytes 20 0x0b0b0b0b0b0b0b0b0b0b0b0b0b0b0b0b0b0b0b0b) (beBytes 6 0x707265666978) (beBytes 8 0x4869205468657265) 128 ==
    .ok (beBytes 16 0xbcd4c650b30b9684951829e0d75f9d54)

#guard prfDot11 stdHmac (beBytes 4 0x4a656665) (beBytes 6 0x707265666978) (beBytes 28 0x7768617420646f2079612077616e7420666f72206e6f7468696e673f) 512 ==
    .ok (beBytes 64 0x51f4de5b33f249adf81aeb713a3c20f4fe631446fabdfa58244759ae58ef9009a99abf4eac2ca5fa87e692c440eb40023e7babb206d61de7b92f41529092b8fc)

#guard prfDot11 stdHmac (beBytes 20 0xaaaaaaaaaaaaaaaaaaaaaaaaaaaaaaaaaaaaaaaa) (beBytes 6 0x707265666978) (beBytes 50 0xdddddddddddddddddddddddddddddddddddddddddddddddddddddddddddddddddddddddddddddddddddddddddddddddddddd) 512 ==
    .ok (beBytes 64 0xe1ac546ec4cb636f9976487be5c86be17a0252ca5d8d8df12cfb0473525249ce9dd8d177ead710bc9b590547239107aef7b4abd43d87f0a68f1cbd9e2b6f7607)

/-! ### `hash/test/test_pbkdf2.py` -/

#guard pbkdf2 true (hmacPrf sha1Lib) (beBytes 8 0x70617373776f7264) (beBytes 8 0x1234567878563412) 5 8 ==
    .ok (beBytes 8 0xd1daa78615f287e6)

#guard dot11PassPhraseToPSK true (hmacPrf sha1Lib)
    (beBytes 32 0x6161616161616161616161616161616161616161616161616161616161616161)
    (beBytes 32 0x5a5a5a5a5a5a5a5a5a5a5a5a5a5a5a5a5a5a5a5a5a5a5a5a5a5a5a5a5a5a5a5a) ==
    .ok (beBytes 32 0xbecb93866bb8c3832cb777c2f559807c8c59afcb6eae734885001300a981cc62)

/-! ### `hash/test/michael_test.py` and `hash/test/tkip_mic_test.py` -/

#guard (Michael.new (some (beBytes 8 0x0000000000000000)) >>= fun o => o.hash []) ==
    .ok (beBytes 8 0x82925c1ca1d130b8)

#guard (Michael.new (some (beBytes 8 0x82925c1ca1d130b8)) >>= fun o => o.hash (beBytes 1 0x4d)) ==
    .ok (beBytes 8 0x434721ca40639b3f)

#guard (Michael.new (some (beBytes 8 0x434721ca40639b3f)) >>= fun o => o.hash (beBytes 2 0x4d69)) ==
    .ok (beBytes 8 0xe8f9becae97e5d29)

#guard (Michael.new (some (beBytes 8 0xe8f9becae97e5d29)) >>= fun o => o.hash (beBytes 3 0x4d6963)) ==
    .ok (beBytes 8 0x90038fc6cf13c1db)

#guard (Michael.new (some (beBytes 8 0x90038fc6cf13c1db)) >>= fun o => o.hash (beBytes 4 0x4d696368)) ==
    .ok (beBytes 8 0xd55e100510128986)

#guard (Michael.new (some (beBytes 8 0xd55e100510128986)) >>= fun o => o.hash (beBytes 7 0x4d69636861656c)) ==
    .ok (beBytes 8 0x0a942b124ecaa546)

#guard (Michael.new (some (beBytes 8 0x0000000000000000)) >>= fun o => (TkipMic.mk .D3 o).hash (beBytes 6 0x262524232221)
    (beBytes 6 0x161514131211) 2 (beBytes 13 0x101112131415161718191a1b1c)) ==
    .ok (beBytes 8 0x4cfea3855f10f420)

#guard (Michael.new (some (beBytes 8 0x67452301efcdab89)) >>= fun o => (TkipMic.mk .D3 o).hash (beBytes 6 0xbbbbbbbbbbbb)
    (beBytes 6 0xaaaaaaaaaaaa) 3
    (beBytes 43 0x0500afde0600afde0700afde0800afde0900afde0a00afde0b00afde0c00afde0d00afde0e00afde00ddcc)) ==
    .ok (beBytes 8 0x91b397e5b7a7c4b8)

/-! ### `hash/test/tkip_key_mixing_test.py` -/

/-- `TKIP_Mixer(tk, ta)` and one call of `newKey`: the phase 1 key and the RC4 key. -/
def mixOnce (tk ta pn : Bytes) : Option (List Nat × Py Bytes) :=
  match Mixer.new (tkipS fun i => aesSbox.getD i 0) (some tk) (some ta) (List.replicate 6 0) with
  | .error _ => none
  | .ok o =>
    match o.newKey (tkipS fun i => aesSbox.getD i 0) pn with
    | (o, r) => o.phase1Key.map fun p => ([p.p0, p.p1, p.p2, p.p3, p.p4], r)

-- Where the two low octets of the packet number differ, the code of this package cannot meet its own recorded values: the first
-- three octets of the key come in the other order (C98).  The other thirteen and the phase 1 key agree.

#guard mixOnce (beBytes 16 0x000102030405060708090a0b0c0d0e0f) (beBytes 6 0x102233445566) (beBytes 6 0x000000000000) ==
    some ([0x3DD2, 0x016E, 0x76F4, 0x8697, 0xB2E8], .ok (beBytes 16 0x00200033ea8d2f60ca6d1374234a660b))

-- recorded: 00 20 01 90 FF DC 31 43 89 A9 D9 D0 74 FD 20 AA
#guard mixOnce (beBytes 16 0x000102030405060708090a0b0c0d0e0f) (beBytes 6 0x102233445566) (beBytes 6 0x010000000000) ==
    some ([0x3DD2, 0x016E, 0x76F4, 0x8697, 0xB2E8], .ok (beBytes 16 0x01210090ffdc314389a9d9d074fd20aa))

#guard mixOnce (beBytes 16 0x63893b250840b8ae0bd0fa7e61d2783e) (beBytes 6 0x64f2eaeddc25) (beBytes 6 0xffff43fddc20) ==
    some ([0x7C67, 0x49D7, 0x9724, 0xB5E9, 0xB4F1], .ok (beBytes 16 0xff7fff93810fc6e58f5dd326251544ce))

#guard mixOnce (beBytes 16 0x63893b250840b8ae0bd0fa7e61d2783e) (beBytes 6 0x64f2eaeddc25) (beBytes 6 0x000044fddc20) ==
    some ([0x5A5D, 0x73A8, 0xA859, 0x2EC1, 0xDC8B], .ok (beBytes 16 0x002000498ca471fcfbfaa16e3610f005))

-- recorded: 05 25 8C F4 D8 51 52 F4 D9 AF 1A 64 F1 D0 70 21
#guard mixOnce (beBytes 16 0x983a16ef4facb351aa9ecc271d7309e2) (beBytes 6 0x509c4b1727d9) (beBytes 6 0x8c05fc10a4f0) ==
    some ([0xF2DF, 0xEBB1, 0x88D3, 0x5923, 0xA07C], .ok (beBytes 16 0x8c2c05f4d85152f4d9af1a64f1d07021))

-- recorded: 05 25 8D 09 F8 15 43 B7 6A 59 6F C2 C6 73 8B 30
#guard mixOnce (beBytes 16 0x983a16ef4facb351aa9ecc271d7309e2) (beBytes 6 0x509c4b1727d9) (beBytes 6 0x8d05fc10a4f0) ==
    some ([0xF2DF, 0xEBB1, 0x88D3, 0x5923, 0xA07C], .ok (beBytes 16 0x8d2d0509f81543b76a596fc2c6738b30))

-- recorded: 30 30 F8 65 0D A0 73 EA 61 4E A8 F4 74 EE 03 19
#guard mixOnce (beBytes 16 0xc8adc16a8b4dda3b4dd5b65438359b05) (beBytes 6 0x945e244e4d6e) (beBytes 6 0xf830b773158b) ==
    some ([0xEFF1, 0x3F38, 0xA364, 0x60A9, 0x76F3], .ok (beBytes 16 0xf87830650da073ea614ea8f474ee0319))

-- recorded: 30 30 F9 31 55 CE 29 34 37 CC 76 71 27 16 AB 8F
#guard mixOnce (beBytes 16 0xc8adc16a8b4dda3b4dd5b65438359b05) (beBytes 6 0x945e244e4d6e) (beBytes 6 0xf930b773158b) ==
    some ([0xEFF1, 0x3F38, 0xA364, 0x60A9, 0x76F3], .ok (beBytes 16 0xf979303155ce293437cc76712716ab8f))

/-! ### `cipher/test/test_chacha_poly.py` -/

#guard chachaQRound 0x11111111 0x01020304 0x9b8d6f43 0x01234567 == (0xea2a92f4, 0xcb1cf8ce, 0x4581472e, 0x5881c4bb)

#guard ((ChaCha.new [] (beBytes 32 0x000102030405060708090a0b0c0d0e0f101112131415161718191a1b1c1d1e1f) 1
    (some (beBytes 12 0x000000090000004a00000000))).map fun o => (o.state, innerLoop 10 o.state)) == .ok (
  [0x61707865, 0x3320646e, 0x79622d32, 0x6b206574, 0x03020100, 0x07060504, 0x0b0a0908, 0x0f0e0d0c,
   0x13121110, 0x17161514, 0x1b1a1918, 0x1f1e1d1c, 0x00000001, 0x09000000, 0x4a000000, 0x00000000],
  [0x837778ab, 0xe238d763, 0xa67ae21e, 0x5950bb2f, 0xc4f2d0c7, 0xfc62bb2f, 0x8fa018fc, 0x3f5ec7b7,
   0x335271c2, 0xf29489f3, 0xeabda8fc, 0x82e46ebd, 0xd19c12b4, 0xb04e16de, 0x9e83d0cb, 0x4e3c50a2])

#guard ((ChaCha.new [] (beBytes 32 0x0000000000000000000000000000000000000000000000000000000000000000) 0
    (some (beBytes 12 0x000000000000000000000000))).map fun o => (o.encrypt
    (beBytes 64 0x00000000000000000000000000000000000000000000000000000000000000000000000000000000000000000000000000000000000000000000000000000000)).2) ==
    .ok (beBytes 64 0x76b8e0ada0f13d90405d6ae55386bd28bdd219b8a08ded1aa836efcc8b770dc7da41597c5157488d7724e03fb8d84a376a43b8f41518a11cc387b669b2ee6586)

#guard ((ChaCha.new [] (beBytes 32 0x0000000000000000000000000000000000000000000000000000000000000000) 0
    (some (beBytes 12 0x000000000000000000000000))).map fun o => (o.encrypt
    (beBytes 64 0x76b8e0ada0f13d90405d6ae55386bd28bdd219b8a08ded1aa836efcc8b770dc7da41597c5157488d7724e03fb8d84a376a43b8f41518a11cc387b669b2ee6586)).2) ==
    .ok (beBytes 64 0x00000000000000000000000000000000000000000000000000000000000000000000000000000000000000000000000000000000000000000000000000000000)

#guard ((ChaCha.new [] (beBytes 32 0x0000000000000000000000000000000000000000000000000000000000000001) 1
    (some (beBytes 12 0x000000000000000000000002))).map fun o => (o.encrypt
    (beBytes 375 0x416e79207375626d697373696f6e20746f20746865204945544620696e74656e6465642062792074686520436f6e7472696275746f7220666f72207075626c69636174696f6e20617320616c6c206f722070617274206f6620616e204945544620496e7465726e65742d4472616674206f722052464320616e6420616e792073746174656d656e74206d6164652077697468696e2074686520636f6e74657874206f6620616e204945544620616374697669747920697320636f6e7369646572656420616e20224945544620436f6e747269627574696f6e222e20537563682073746174656d656e747320696e636c756465206f72616c2073746174656d656e747320696e20494554462073657373696f6e732c2061732077656c6c206173207772697474656e20616e6420656c656374726f6e696320636f6d6d756e69636174696f6e73206d61646520617420616e792074696d65206f7220706c6163652c207768696368206172652061646472657373656420746f)).2) ==
    .ok (beBytes 375 0xa3fbf07df3fa2fde4f376ca23e82737041605d9f4f4f57bd8cff2c1d4b7955ec2a97948bd3722915c8f3d337f7d370050e9e96d647b7c39f56e031ca5eb6250d4042e02785ececfa4b4bb5e8ead0440e20b6e8db09d881a7c6132f420e52795042bdfa7773d8a9051447b3291ce1411c680465552aa6c405b7764d5e87bea85ad00f8449ed8f72d0d662ab052691ca66424bc86d2df80ea41f43abf937d3259dc4b2d0dfb48a6c9139ddd7f76966e928e635553ba76c5c879d7b35d49eb2e62b0871cdac638939e25e8a1e0ef9d5280fa8ca328b351c3c765989cbcf3daa8b6ccc3aaf9f3979c92b3720fc88dc95ed84a1be059c6499b9fda236e7e818b04b0bc39c1e876b193bfe5569753f88128cc08aaa9b63d1a16f80ef2554d7189c411f5869ca52c5b83fa36ff216b9c1d30062bebcfd2dc5bce0911934fda79a86f6e698ced759c3ff9b6477338f3da4f9cd8514ea9982ccafb341b2384dd902f3d1ab7ac61dd29c6f21ba5b862f3730e37cfdc4fd806c22f221)

#guard ((ChaCha.new [] (beBytes 32 0x0000000000000000000000000000000000000000000000000000000000000001) 1
    (some (beBytes 12 0x000000000000000000000002))).map fun o => (o.encrypt
    (beBytes 375 0xa3fbf07df3fa2fde4f376ca23e82737041605d9f4f4f57bd8cff2c1d4b7955ec2a97948bd3722915c8f3d337f7d370050e9e96d647b7c39f56e031ca5eb6250d4042e02785ececfa4b4bb5e8ead0440e20b6e8db09d881a7c6132f420e52795042bdfa7773d8a9051447b3291ce1411c680465552aa6c405b7764d5e87bea85ad00f8449ed8f72d0d662ab052691ca66424bc86d2df80ea41f43abf937d3259dc4b2d0dfb48a6c9139ddd7f76966e928e635553ba76c5c879d7b35d49eb2e62b0871cdac638939e25e8a1e0ef9d5280fa8ca328b351c3c765989cbcf3daa8b6ccc3aaf9f3979c92b3720fc88dc95ed84a1be059c6499b9fda236e7e818b04b0bc39c1e876b193bfe5569753f88128cc08aaa9b63d1a16f80ef2554d7189c411f5869ca52c5b83fa36ff216b9c1d30062bebcfd2dc5bce0911934fda79a86f6e698ced759c3ff9b6477338f3da4f9cd8514ea9982ccafb341b2384dd902f3d1ab7ac61dd29c6f21ba5b862f3730e37cfdc4fd806c22f221)).2) ==
    .ok (beBytes 375 0x416e79207375626d697373696f6e20746f20746865204945544620696e74656e6465642062792074686520436f6e7472696275746f7220666f72207075626c69636174696f6e20617320616c6c206f722070617274206f6620616e204945544620496e7465726e65742d4472616674206f722052464320616e6420616e792073746174656d656e74206d6164652077697468696e2074686520636f6e74657874206f6620616e204945544620616374697669747920697320636f6e7369646572656420616e20224945544620436f6e747269627574696f6e222e20537563682073746174656d656e747320696e636c756465206f72616c2073746174656d656e747320696e20494554462073657373696f6e732c2061732077656c6c206173207772697474656e20616e6420656c656374726f6e696320636f6d6d756e69636174696f6e73206d61646520617420616e792074696d65206f7220706c6163652c207768696368206172652061646472657373656420746f)

#guard ((ChaCha.new [] (beBytes 32 0x1c9240a5eb55d38af333888604f6b5f0473917c1402b80099dca5cbc207075c0) 42
    (some (beBytes 12 0x000000000000000000000002))).map fun o => (o.encrypt
    (beBytes 127 0x2754776173206272696c6c69672c20616e642074686520736c6974687920746f7665730a446964206779726520616e642067696d626c6520696e2074686520776162653a0a416c6c206d696d737920776572652074686520626f726f676f7665732c0a416e6420746865206d6f6d65207261746873206f757467726162652e)).2) ==
    .ok (beBytes 127 0x62e6347f95ed87a45ffae7426f27a1df5fb69110044c0d73118effa95b01e5cf166d3df2d721caf9b21e5fb14c616871fd84c54f9d65b283196c7fe4f60553ebf39c6402c42234e32a356b3e764312a61a5532055716ead6962568f87d3f3f7704c6a8d1bcd1bf4d50d6154b6da731b187b58dfd728afa36757a797ac188d1)

#guard ((ChaCha.new [] (beBytes 32 0x1c9240a5eb55d38af333888604f6b5f0473917c1402b80099dca5cbc207075c0) 42
    (some (beBytes 12 0x000000000000000000000002))).map fun o => (o.encrypt
    (beBytes 127 0x62e6347f95ed87a45ffae7426f27a1df5fb69110044c0d73118effa95b01e5cf166d3df2d721caf9b21e5fb14c616871fd84c54f9d65b283196c7fe4f60553ebf39c6402c42234e32a356b3e764312a61a5532055716ead6962568f87d3f3f7704c6a8d1bcd1bf4d50d6154b6da731b187b58dfd728afa36757a797ac188d1)).2) ==
    .ok (beBytes 127 0x2754776173206272696c6c69672c20616e642074686520736c6974687920746f7665730a446964206779726520616e642067696d626c6520696e2074686520776162653a0a416c6c206d696d737920776572652074686520626f726f676f7665732c0a416e6420746865206d6f6d65207261746873206f757467726162652e)

#guard poly1305Mac (beBytes 34 0x43727970746f6772617068696320466f72756d2052657365617263682047726f7570)
    (beBytes 32 0x85d6be7857556d337f4452fe42d506a80103808afb0db2fd4abff6af4149f51b) ==
    .ok (beBytes 16 0xa8061dc1305136c6c22b8baf0c0127a9)

#guard poly1305Mac (beBytes 64 0x00000000000000000000000000000000000000000000000000000000000000000000000000000000000000000000000000000000000000000000000000000000)
    (beBytes 32 0x0000000000000000000000000000000000000000000000000000000000000000) ==
    .ok (beBytes 16 0x00000000000000000000000000000000)

#guard poly1305Mac (beBytes 375 0x416e79207375626d697373696f6e20746f20746865204945544620696e74656e6465642062792074686520436f6e7472696275746f7220666f72207075626c69636174696f6e20617320616c6c206f722070617274206f6620616e204945544620496e7465726e65742d4472616674206f722052464320616e6420616e792073746174656d656e74206d6164652077697468696e2074686520636f6e74657874206f6620616e204945544620616374697669747920697320636f6e7369646572656420616e20224945544620436f6e747269627574696f6e222e20537563682073746174656d656e747320696e636c756465206f72616c2073746174656d656e747320696e20494554462073657373696f6e732c2061732077656c6c206173207772697474656e20616e6420656c656374726f6e696320636f6d6d756e69636174696f6e73206d61646520617420616e792074696d65206f7220706c6163652c207768696368206172652061646472657373656420746f)
    (beBytes 32 0x0000000000000000000000000000000036e5f6b5c5e06070f0efca96227a863e) ==
    .ok (beBytes 16 0x36e5f6b5c5e06070f0efca96227a863e)

#guard poly1305Mac (beBytes 375 0x416e79207375626d697373696f6e20746f20746865204945544620696e74656e6465642062792074686520436f6e7472696275746f7220666f72207075626c69636174696f6e20617320616c6c206f722070617274206f6620616e204945544620496e7465726e65742d4472616674206f722052464320616e6420616e792073746174656d656e74206d6164652077697468696e2074686520636f6e74657874206f6620616e204945544620616374697669747920697320636f6e7369646572656420616e20224945544620436f6e747269627574696f6e222e20537563682073746174656d656e747320696e636c756465206f72616c2073746174656d656e747320696e20494554462073657373696f6e732c2061732077656c6c206173207772697474656e20616e6420656c656374726f6e696320636f6d6d756e69636174696f6e73206d61646520617420616e792074696d65206f7220706c6163652c207768696368206172652061646472657373656420746f)
    (beBytes 32 0x36e5f6b5c5e06070f0efca96227a863e00000000000000000000000000000000) ==
    .ok (beBytes 16 0xf3477e7cd95417af89a6b8794c310cf0)

#guard poly1305Mac (beBytes 127 0x2754776173206272696c6c69672c20616e642074686520736c6974687920746f7665730a446964206779726520616e642067696d626c6520696e2074686520776162653a0a416c6c206d696d737920776572652074686520626f726f676f7665732c0a416e6420746865206d6f6d65207261746873206f757467726162652e)
    (beBytes 32 0x1c9240a5eb55d38af333888604f6b5f0473917c1402b80099dca5cbc207075c0) ==
    .ok (beBytes 16 0x4541669a7eaaee61e708dc7cbcc5eb62)

#guard poly1305Mac (beBytes 16 0xffffffffffffffffffffffffffffffff)
    (beBytes 32 0x0200000000000000000000000000000000000000000000000000000000000000) ==
    .ok (beBytes 16 0x03000000000000000000000000000000)

#guard poly1305Mac (beBytes 16 0x02000000000000000000000000000000)
    (beBytes 32 0x02000000000000000000000000000000ffffffffffffffffffffffffffffffff) ==
    .ok (beBytes 16 0x03000000000000000000000000000000)

#guard poly1305Mac (beBytes 48 0xfffffffffffffffffffffffffffffffff0ffffffffffffffffffffffffffffff11000000000000000000000000000000)
    (beBytes 32 0x0100000000000000000000000000000000000000000000000000000000000000) ==
    .ok (beBytes 16 0x05000000000000000000000000000000)

#guard poly1305Mac (beBytes 48 0xfffffffffffffffffffffffffffffffffbfefefefefefefefefefefefefefefe01010101010101010101010101010101)
    (beBytes 32 0x0100000000000000000000000000000000000000000000000000000000000000) ==
    .ok (beBytes 16 0x00000000000000000000000000000000)

#guard poly1305Mac (beBytes 16 0xfdffffffffffffffffffffffffffffff)
    (beBytes 32 0x0200000000000000000000000000000000000000000000000000000000000000) ==
    .ok (beBytes 16 0xfaffffffffffffffffffffffffffffff)

#guard poly1305Mac (beBytes 64 0xe33594d7505e43b900000000000000003394d7505e4379cd01000000000000000000000000000000000000000000000001000000000000000000000000000000)
    (beBytes 32 0x0100000000000000040000000000000000000000000000000000000000000000) ==
    .ok (beBytes 16 0x14000000000000005500000000000000)

#guard poly1305Mac (beBytes 48 0xe33594d7505e43b900000000000000003394d7505e4379cd010000000000000000000000000000000000000000000000)
    (beBytes 32 0x0100000000000000040000000000000000000000000000000000000000000000) ==
    .ok (beBytes 16 0x13000000000000000000000000000000)

#guard poly1305KeyGen [] (beBytes 32 0x0000000000000000000000000000000000000000000000000000000000000000)
    (beBytes 12 0x000000000000000000000000) ==
    .ok (beBytes 32 0x76b8e0ada0f13d90405d6ae55386bd28bdd219b8a08ded1aa836efcc8b770dc7)

#guard poly1305KeyGen [] (beBytes 32 0x0000000000000000000000000000000000000000000000000000000000000001)
    (beBytes 12 0x000000000000000000000002) ==
    .ok (beBytes 32 0xecfa254f845f647473d3cb140da9e87606cb33066c447b87bc2666dde3fbb739)

#guard poly1305KeyGen [] (beBytes 32 0x1c9240a5eb55d38af333888604f6b5f0473917c1402b80099dca5cbc207075c0)
    (beBytes 12 0x000000000000000000000002) ==
    .ok (beBytes 32 0x965e3bc6f9ec7ed9560808f4d229f94b137ff275ca9b3fcbdd59deaad23310ae)

#guard poly1305KeyGen [] (beBytes 32 0x808182838485868788898a8b8c8d8e8f909192939495969798999a9b9c9d9e9f)
    (beBytes 12 0x070000004041424344454647) ==
    .ok (beBytes 32 0x7bac2b252db447af09b67a55a4e955840ae1d6731075d9eb2a9375783ed553ff)

#guard Aead.encrypt [] [] ⟨(beBytes 32 0x808182838485868788898a8b8c8d8e8f909192939495969798999a9b9c9d9e9f), (beBytes 4 0x07000000)⟩
    (beBytes 12 0x50515253c0c1c2c3c4c5c6c7) (beBytes 8 0x4041424344454647)
    (beBytes 114 0x4c616469657320616e642047656e746c656d656e206f662074686520636c617373206f66202739393a204966204920636f756c64206f6666657220796f75206f6e6c79206f6e652074697020666f7220746865206675747572652c2073756e73637265656e20776f756c642062652069742e) ==
    .ok ((beBytes 114 0xd31a8d34648e60db7b86afbc53ef7ec2a4aded51296e08fea9e2b5a736ee62d63dbea45e8ca9671282fafb69da92728b1a71de0a9e060b2905d6a5b67ecd3b3692ddbd7f2d778b8c9803aee328091b58fab324e4fad675945585808b4831d7bc3ff4def08e4b7a9de576d26586cec64b6116),
      (beBytes 16 0x1ae10b594f09e26a7e902ecbd0600691))

end Cryptopy.Vectors
