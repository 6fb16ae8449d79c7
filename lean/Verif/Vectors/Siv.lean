import Verif.Props.AesCmac

/-!
The recorded values of `cipher/test/test_aes_cmac.py` and `cipher/test/test_aes_siv.py`, evaluated in the model with
AES as the cipher.  These are tests of the translation, not proofs; nothing else uses them.
-/

namespace Cryptopy.Vectors
open Model (subkey aesCmac sivEncrypt sivDecrypt)
open Spec (beBytes)

-- NIST SP_800-38B D.1 AES-128 - Subkey Generation
#guard subkey aesLib (beBytes 16 0x2b7e151628aed2a6abf7158809cf4f3c) ==
    .ok ((beBytes 16 0xfbeed618357133667c85e08f7236a8de), (beBytes 16 0xf7ddac306ae266ccf90bc11ee46d513b))

-- NIST SP_800-38B D.1 AES-128 - Example 1 MLen = 0
#guard aesCmac aesLib aesLib (beBytes 16 0x2b7e151628aed2a6abf7158809cf4f3c) [] ==
    .ok (beBytes 16 0xbb1d6929e95937287fa37d129b756746)

-- NIST SP_800-38B D.1 AES-128 - Example 2 MLen = 128
#guard aesCmac aesLib aesLib (beBytes 16 0x2b7e151628aed2a6abf7158809cf4f3c)
    (beBytes 16 0x6bc1bee22e409f96e93d7e117393172a) ==
    .ok (beBytes 16 0x070a16b46b4d4144f79bdd9dd04a287c)

-- NIST SP_800-38B D.1 AES-128 - Example 3 MLen = 320
#guard aesCmac aesLib aesLib (beBytes 16 0x2b7e151628aed2a6abf7158809cf4f3c)
    (beBytes 40 0x6bc1bee22e409f96e93d7e117393172aae2d8a571e03ac9c9eb76fac45af8e5130c81c46a35ce411) ==
    .ok (beBytes 16 0xdfa66747de9ae63030ca32611497c827)

-- NIST SP_800-38B D.1 AES-128 - Example 4 MLen = 512
#guard aesCmac aesLib aesLib (beBytes 16 0x2b7e151628aed2a6abf7158809cf4f3c)
    (beBytes 64 0x6bc1bee22e409f96e93d7e117393172aae2d8a571e03ac9c9eb76fac45af8e5130c81c46a35ce411e5fbc1191a0a52eff69f2445df4f9b17ad2b417be66c3710) ==
    .ok (beBytes 16 0x51f0bebf7e3b9d92fc49741779363cfe)

-- NIST SP_800-38B D.2 AES-192 - Subkey Generation
#guard subkey aesLib (beBytes 24 0x8e73b0f7da0e6452c810f32b809079e562f8ead2522c6b7b) ==
    .ok ((beBytes 16 0x448a5b1c93514b273ee6439dd4daa296), (beBytes 16 0x8914b63926a2964e7dcc873ba9b5452c))

-- NIST SP_800-38B D.2 AES-192 - Example 5 MLen = 0
#guard aesCmac aesLib aesLib (beBytes 24 0x8e73b0f7da0e6452c810f32b809079e562f8ead2522c6b7b) [] ==
    .ok (beBytes 16 0xd17ddf46adaacde531cac483de7a9367)

-- NIST SP_800-38B D.2 AES-192 - Example 6 MLen = 128
#guard aesCmac aesLib aesLib (beBytes 24 0x8e73b0f7da0e6452c810f32b809079e562f8ead2522c6b7b)
    (beBytes 16 0x6bc1bee22e409f96e93d7e117393172a) ==
    .ok (beBytes 16 0x9e99a7bf31e710900662f65e617c5184)

-- NIST SP_800-38B D.2 AES-192 - Example 7 MLen = 320
#guard aesCmac aesLib aesLib (beBytes 24 0x8e73b0f7da0e6452c810f32b809079e562f8ead2522c6b7b)
    (beBytes 40 0x6bc1bee22e409f96e93d7e117393172aae2d8a571e03ac9c9eb76fac45af8e5130c81c46a35ce411) ==
    .ok (beBytes 16 0x8a1de5be2eb31aad089a82e6ee908b0e)

-- NIST SP_800-38B D.2 AES-192 - Example 8 MLen = 512
#guard aesCmac aesLib aesLib (beBytes 24 0x8e73b0f7da0e6452c810f32b809079e562f8ead2522c6b7b)
    (beBytes 64 0x6bc1bee22e409f96e93d7e117393172aae2d8a571e03ac9c9eb76fac45af8e5130c81c46a35ce411e5fbc1191a0a52eff69f2445df4f9b17ad2b417be66c3710) ==
    .ok (beBytes 16 0xa1d5df0eed790f794d77589659f39a11)

-- NIST SP_800-38B D.3 AES-256 - Subkey Generation
#guard subkey aesLib (beBytes 32 0x603deb1015ca71be2b73aef0857d77811f352c073b6108d72d9810a30914dff4) ==
    .ok ((beBytes 16 0xcad1ed03299eedac2e9a99808621502f), (beBytes 16 0x95a3da06533ddb585d3533010c42a0d9))

-- NIST SP_800-38B D.3 AES-256 - Example 9 MLen = 0
#guard aesCmac aesLib aesLib (beBytes 32 0x603deb1015ca71be2b73aef0857d77811f352c073b6108d72d9810a30914dff4) [] ==
    .ok (beBytes 16 0x028962f61b7bf89efc6b551f4667d983)

-- NIST SP_800-38B D.3 AES-256 - Example 10 MLen = 128
#guard aesCmac aesLib aesLib (beBytes 32 0x603deb1015ca71be2b73aef0857d77811f352c073b6108d72d9810a30914dff4)
    (beBytes 16 0x6bc1bee22e409f96e93d7e117393172a) ==
    .ok (beBytes 16 0x28a7023f452e8f82bd4bf28d8c37c35c)

-- NIST SP_800-38B D.3 AES-256 - Example 11 MLen = 320
#guard aesCmac aesLib aesLib (beBytes 32 0x603deb1015ca71be2b73aef0857d77811f352c073b6108d72d9810a30914dff4)
    (beBytes 40 0x6bc1bee22e409f96e93d7e117393172aae2d8a571e03ac9c9eb76fac45af8e5130c81c46a35ce411) ==
    .ok (beBytes 16 0xaaf3d8f1de5640c232f5b169b9c911e6)

-- NIST SP_800-38B D.3 AES-256 - Example 12 MLen = 512
#guard aesCmac aesLib aesLib (beBytes 32 0x603deb1015ca71be2b73aef0857d77811f352c073b6108d72d9810a30914dff4)
    (beBytes 64 0x6bc1bee22e409f96e93d7e117393172aae2d8a571e03ac9c9eb76fac45af8e5130c81c46a35ce411e5fbc1191a0a52eff69f2445df4f9b17ad2b417be66c3710) ==
    .ok (beBytes 16 0xe1992190549f6ed5696a2c056c315410)

-- RFC 5297 A.1, encryption
#guard sivEncrypt aesLib (beBytes 32 0xfffefdfcfbfaf9f8f7f6f5f4f3f2f1f0f0f1f2f3f4f5f6f7f8f9fafbfcfdfeff)
    (beBytes 14 0x112233445566778899aabbccddee)
    [beBytes 24 0x101112131415161718191a1b1c1d1e1f2021222324252627] ==
    .ok (beBytes 30 0x85632d07c6e8f37f950acd320a2ecc9340c02b9690c4dc04daef7f6afe5c)

-- RFC 5297 A.1, decryption
#guard sivDecrypt aesLib (beBytes 32 0xfffefdfcfbfaf9f8f7f6f5f4f3f2f1f0f0f1f2f3f4f5f6f7f8f9fafbfcfdfeff)
    (beBytes 30 0x85632d07c6e8f37f950acd320a2ecc9340c02b9690c4dc04daef7f6afe5c)
    [beBytes 24 0x101112131415161718191a1b1c1d1e1f2021222324252627] ==
    .ok (beBytes 14 0x112233445566778899aabbccddee)

-- RFC 5297 A.2, encryption
#guard sivEncrypt aesLib (beBytes 32 0x7f7e7d7c7b7a79787776757473727170404142434445464748494a4b4c4d4e4f)
    (beBytes 47 0x7468697320697320736f6d6520706c61696e7465787420746f20656e6372797074207573696e67205349562d414553)
    [beBytes 40 0x00112233445566778899aabbccddeeffdeaddadadeaddadaffeeddccbbaa99887766554433221100,
      beBytes 10 0x102030405060708090a0,
      beBytes 16 0x09f911029d74e35bd84156c5635688c0] ==
    .ok (beBytes 63 0x7bdb6e3b432667eb06f4d14bff2fbd0fcb900f2fddbe404326601965c889bf17dba77ceb094fa663b7a3f748ba8af829ea64ad544a272e9c485b62a3fd5c0d)

-- RFC 5297 A.2, decryption
#guard sivDecrypt aesLib (beBytes 32 0x7f7e7d7c7b7a79787776757473727170404142434445464748494a4b4c4d4e4f)
    (beBytes 63 0x7bdb6e3b432667eb06f4d14bff2fbd0fcb900f2fddbe404326601965c889bf17dba77ceb094fa663b7a3f748ba8af829ea64ad544a272e9c485b62a3fd5c0d)
    [beBytes 40 0x00112233445566778899aabbccddeeffdeaddadadeaddadaffeeddccbbaa99887766554433221100,
      beBytes 10 0x102030405060708090a0,
      beBytes 16 0x09f911029d74e35bd84156c5635688c0] ==
    .ok (beBytes 47 0x7468697320697320736f6d6520706c61696e7465787420746f20656e6372797074207573696e67205349562d414553)

end Cryptopy.Vectors
