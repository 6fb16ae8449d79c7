import Verif.Lemmas.CurveCheck

/-!
Certificates for the curves of `ecc/curves.py`, part 3: a chain of primality certificates for the order, and numbers
that show that `x³ + a x + b` has no root.
-/

namespace Cryptopy.Model
open Cryptopy.Ecpp

set_option maxRecDepth 20000

private def SECP_521r1_chain : List (Nat × Nat × Nat × Nat × Nat) := [
  (0x1fffffffffffffffffffffffffffffffffffffffffffffffffffffffffffffffffa51868783bf2f966b7fcc0148f709a5d03bb5c9b8899c47aebb6fb71e91386409, 0x12b3c23f34823d544a8f60cd82d529b20fa9f457e0fe3d1b42470d920bc9c7980d86730550ef017a8f50b1724f78e7be2b2244b4df33185304d498e286dc317de1b, 0x0,
    0x2b307db937c6743be2d12481f0afc6f27197e8a7ee504b6e0528d86eacefc65c78bdffff19e87e5772ce8e9fb1f1a6252abee45f629f2ac72eeb45396038abf62c, 0xb5a7edd7513137cf0631f4613d37f66ce822c9cee0610374048226d3f32eec87025c31ac184ce88f353c3485a1d9f46228e81eeddd223355ecd7684d3fdc2b7944),
  (0x333333333333333333333333333333333333333333333333333333333333333334869b69c0f529c3a50403a5a93d68d7b72b16db0fcdd9d6be324f45d5cee94b8d, 0xc66ef09110d51d27e66d698bb83fe04d18c72a3302b3c6df2770c4ed78346430cc60e59a41509ab753de1f794dc09990a67c8a1bf8f1d5a37c793d53883c63b24, 0x24379c7891da4a7d3c31dac737aea5dd348ed9a62d4dd7ab22fb2efc3c1879fb8918cb142a23dd681665d830af8756beb5cdd763488002c357b8b45416803e2451,
    0xbc26f1629ac4c6cf4cdc283bdb4b3b5c91022782cdfc075d91727d737dfd7607891d420f57a87eea71b59c8f606f811b4ddb955595354dffd300b386a6f8d01f3, 0x2284ffcb8a5205da84b1ad0fb5cb72cef2a68be71300e21054ffe3ae5027f47946d035bcd197b1d3c0b64cbc81ee745ff61fd384dc12f446196dd97d1634a9ad9d),
  (0x7953ee67b40d3603958abaf041a3e87b1ae925b8f0678e22fb832d469a0f22e882374437d0424892b0428ed4da9420ae02eb9258a735896828573d233d5047, 0x7a5e5e53dd0acec4934702c04cc3efa6c1033d4db8345e0232649013f0a6643ca15ead59180fb53ea55f4b33b3c0740fda27a5f62421b40bc34808d65bb11, 0x1b2eedacb49ea24d7f7296adbd5f97ebe9bd971211f142b545c30fdaebcb1ae3fdf9b036a7ef658696543a65f43be0cb4fbdc720769bbffa2e4afcf2896c6a,
    0x5ba35f0251ea0c057e048e140659eaa1eb91a354e073d0f9ab6938077fb75566ed6cf69d336f3123cfaf25222f2722e6df194929fd3ec282c91d11f0d8b3b0, 0x27ad0bfcfe5cff3354abb510bb78ec8b8c3e8fd02f3e8ae6a2fb5b87c1aa22c7b451026e02f168814657ac226e8e0a2c2d6583de9b596881efe3f6f8fb1ce9),
  (0xf428b2f57a043db67023355f22bb0ecc08698dd0e7941e3b9dfde03416374a01f00fd2fcff6ae0cce0ea17b96fa03226c6393c55ec24cdfe7336b5485, 0xec5a176c6bede140717dab1754e975854ca130589a51c7ec52a8c5ed9f4fb123b5c2a9f22cfd08c7930d746670ba7bc6d9fd8344c06e5877e122da061, 0x96d64a00179aca17531a1d5f587931feb09a1dcf0b9f5d2a5fa30673a7e0757ae12e24d56136483a491614d9029253f6bd7bbba490d3ae310e8161a3,
    0x81e2992e1b0642a40a98b2d7e6c857bbf188de6f08a50c00a71e2e6828b84cd417518d433759ceb887cf2d2662921639efc36c8fa0ac83454707d27c5, 0x21d52df45becde6548ac83dbd14322212f1a5458d52e3b363159f6b817373a19fc13d6edbfc2619fe9a795ea7d5f1cf880bce76c24cebd276e5fa844c),
  (0x13b6e77110844047294c8725950ed610378988673b35c866df6ab8e01f04b61afa1ea2bb59727b9c675fbfe83136dc01f5c2a77e17ff8495ed9, 0x11e16dc0d0260e7e50318a0876786559484ecedc5964cdf251f33274205a2dd823ac52dfb7a8034187e422799e7952dbc5460f070ccf45bc9ee, 0x1395e1f981401f264a3bfd21729e7587d159097a7a1cb4cbb23c6bf09e50e37023beeded0d274e8f9a8030a32092d0120ce7cee421ec80222d3,
    0x53e360f37560ea2d1c17643bfa7520db53cc2355fee8ba860b4e8e599b5e8572f5f5760e2c41ba867d6e406f679cd1ee78f83995ec458d9c99, 0x9c1862ddbd7a6e9c15a3efd84dbb9e3d79aed3ae68f848def540d24a44be528445a6a8fbb5cfcc294d6a2496a62ef3adbc2f93824619276003),
  (0x16fbd5c7a8f24682be2db347ee5c8c153391521fb1428940d1c0aaa625d372563ab977848ba4c78622bbd6b108f1b33cc8c339f0a725319, 0x5437f2f1e4e607d7b44cd5628a811af1997c66c1edbff7f56d8e296d3777b882d98d8a4416515aa0fac0bf166a9389cdd81346f63c5e41, 0x6ef786c2124735dc5efb41e761815205172d10459a3bff3300c94aee3ec7d5c8c72966acff25bb1bb4a94494e973f4d3c455843753f43,
    0xf04f1c912d63a5dacfe640aa1f932152781795d916bbf11063a1390b90ccdfe3a3fd836c4a11d310285fb2d03bc21fc46bcf9c071f489d, 0xae1c868105002071c25c26a67ee735aee39e1e29f30e14dde61406a389b68d864f70e5df52072304dda92f6720a128e510321696f4b0ca),
  (0x435fddf105f08df0dd949e884800c61cb8834d3f3b07a65df24d6fabe26cf80c388413fcebd8fc0e8ffc66dd1ddc982bea098e96ef, 0x36f1d4d4a97d7ecaea244491c36c408a6e8a21533e5212e8cd41c433cb50eb1299d1e801746cc4b246e5ab4c91d2f0fc731a84a1fa, 0x2d085c6bf085d7f439a035fd314c234f32d11e9892dd24443ddd0f47bfcf5d26ecbf469de93f2f069f0c7b9481a631d2a149234c0c,
    0x2366116d80be1ba24a677c97571b55abfd5a05b7d7d9cc32fa7b1421116b77018cd0922c245ecaf064d69e7a13b3bfd3c3655b3f9a, 0x427163ad2fbdc32afd84388e20a01dd294cf315d721d5772a1c6296337142f5180f3103358409e68ca50cbe434ed89fd68d27e550b),
  (0x21afeef882f846f86eca4f442400630e5c41a69f9d83d32ef926b30d28a139d71cf1dfec68603f45d0953c783488fe4d4c071ed7cd, 0x195a6ff1403e08998de8996f5a7fe9f0fcb12a2dbaa0b3a4890509a5ee3c6426c5b191565ade7ffc1dea679551a587f3fc48b2c298, 0x0,
    0x7b3a9865bc5bf1e0f32f1f4561af29bded9e6a686ab82181a532bb0549ca637b70e686380896f6bd71d0a58867fd4e883c1f548f9, 0x1b5dd7baae3a30df9b9f6d2817da5366104f58191f1227565160e13882ff0d4181d5d0c02df1c215d01c7d457552d6241a913474aa),
  (0x1d4c6e61b9b05dcd1a2f97aac7be458f5e2d23099bbe040f361a4f5231ec086e8011377e56ec390fdf994deecb45db5cca1, 0x1622b38d3473e15bd5908ef68cec8ae31085a32051d0edb2c5819636b65d973b6d0dbbe043dfe2257806a645845919135ea, 0x0,
    0x1676682806aaffad5098aaca2f3451cef499a7b39134dcc681109cd97d700a72504750055dce73411f30f96a693cbc6614a, 0x1c49c7b741cbbd39fac25d8f1db0c5484c975cd544af60b0b500c0f1698a8a03971d57449285ae3c7099607c92dcaccdda0),
  (0x82b7b2a653d5c930d1afca5ec4df1b0dff6d60fae39c2c648ee9385039b8b7560f4db83efa288e991e852b4e46a235, 0x2996c76cf57e9594850c3efdb0d7b83b6a1365297915fbeaf3c2735f03c7e83b90fc9d711b73c292d28d69eae07b25, 0x6a04d43cd5ad2f609a9d3bcc82c42e1a20e49472c11942815489992bde7ff6e383236081e7f35540e6c90e92b832ba,
    0x3032b5a65c3c652fe24c6b1fa2d6cae00a8b53880fc954f2a1594c13cab21c04320a0ed5c2a098b5e839b837ddb7d, 0x133130049deb8c1774c9edd0bf70be5e148dc1e88ac414e012428fd5463c81a3651b47105f9bb111e4e0c34cc63a57),
  (0xa36fa337393d8d72a111fbc09373eafbf599560f128faac62d1e2fab28e9e07e93bc06df9909c5a374c587983, 0x0, 0x1a31253cddafc2e40953e52c3f367ed6dc304966000f25834db3de7bf66fc50a1f6f37fc0e8acee0d0369f400,
    0x76ba9a8e0cd1444baa6754e4de3a79b9dcb4cc645d97d53729debd0c7db0937c7ab429ceb9f97329ed866ce73, 0xd3a364142b15299a8abc80ddc6762de818b5f15520e72e4e49604e5321d19a0227b2213843293bfbf22e3e85),
  (0xac6056514a92af046462d8245e545d1c373aa185a82b4d2acfc9a52ece5f4d4d9cc62c24960a5c340bb41, 0x249167ae15ed6e13565f5395c57acf1f98e105539c61358d2fe231eab734b868a306f0349ac13333b2ef0, 0x960bf302de0e309320d8ffcab21e6ff46f895c89e161df747fbb3acd298e4db5814c950bee7169976c809,
    0x2f89805c4682c0a444ad197fdc3a4eb2fed6fa4052106c67ad97389d2c3c0b6a0f08d992c644357cab9bb, 0x94d20fd697789c11cf5b8f9bf554bc758c48e85d76fab9d632b5be27b2bdfda53e40a76f2ad8560cef684),
  (0x11503fb25b972065e51a2bf00edb1873aaa13ae74b60682d1e582a28ba799f2f954fce42dd7cbf9, 0x0, 0x8d1eaca71f1265590c2ed88fb7363588d67f9ee0cae6c6edccaf0337e405ed6710054459fe5b42,
    0x26f36c87073828aff4cbe4a7c1a0db28689660e392af6582b6d92a3117746aea923510cbb8d9a7, 0xf82c9e9f68d25a0b18518babfa30a1adc757c32575814ff1c34e40f0c75d8982caf48c8620845),
  (0x290fc63673a0f3be0c6a6d72e4f2fce4b43864076f60e09a09aeffd244f3ddf9b820413a95, 0x0, 0x21ae87d9c84bda71cffdf7bc20ab60ff81528097ee8ee13c46e873e262e3e76fbf1c9d31a7,
    0xd1f0bd0538f37ff053b4862fb1f9f198249a71c53e4df9a504003ea3dfbeab1ae8118c50d, 0x20bf90b0391bd21fcd2941d8c7ce5814a1a4939c6cc08da4be6139eb84cb2e60853dca4d2e),
  (0x40a9b87c54d8d9b380b432b4bc7fee826ff583aa106d7f435933ad914edfb4490651f6d, 0x23ae88d1ee2dae586b75683978eb46ebbfdb227113fd28226fb801487cfd9d3f938d257, 0x0,
    0x2a3a9b6082666c70de5058cba1a4abbd870e4c20e5dfd748a83f95bf29d7e8f3f7f146c, 0x3126f8181b4bdbc76d19662c2be1ba701d77fa5c80bccfc8ea246184e1bb7019177668c),
  (0x5f0181e2ca5138fd66223bb823bd44e4b48a4645989edebef4023d68b6da51065, 0x5c8b499ceedf2cbc6c9d4bde1b6aa275203a6f07fe54b5a43c6f36c097cdd973b, 0x529a3143316e5c4940bfa474573b55cabecde9f9c6836156bb22777eb7f52c239,
    0x5230710838febd3a8ed33ef14258400158c65b0bdc7448fa9e3feb48d8f9543b0, 0x2338227ecf7be8954973530c9e3916993af5c88a113769d33bd2399cef15fdf70),
  (0x17c06078b2944e3f59888eee08ef5139273788d4464077857baaa86ee46d89b09, 0x5151859005847f8b2f0a079e76168b2e1d6b46619c8e19b447e40dfb3084c60e, 0xea28d7831bbf9b4582821ba2a217612bf4634130e8a28887d55ba157ef14126e,
    0x156bcd951973d0791fe755e4d57d5cfeb58408cb04e61d4b0f6c240c284102fa1, 0x23289e3e9e4fe1e3650bf67bd3a0ee9db934e45319626dd73841386d57a3bddd),
  (0x454ecb658c295cf041cee813c4a9091bed0ee0c50fb37d114735a1df, 0x0, 0x34a9512046ae3bc94b7deacc0730e6dfa97398f6145bd13ac11b8ee3,
    0x37e1c6f947360b4254543c5a46463f6d64c06ef7d8197c3ad0dbe3af, 0x190fbfacb743f2e1fa5cb20830b160f0c2c706d66733f700bfc838f4),
  (0xf27b27616aabefd28af20faf98767f6eb3a5c625de044bd1a3ff, 0x0, 0x72f67846632a5e52b884ae28083aca7d1f453ee08d689233933f,
    0x4c03869d40b45421212a11e3e9a5ebc151eae67e6276ed91b88b, 0xd089a107e10696c142d6e6aad9f2bd7d8008dd0a0a6596d6f4c),
  (0x73aeb8c1e0e0fbc1c9d3d3f69bf1dfe77135849977, 0x0, 0x22960ab4908a3e653ba693e4d4b7ca82bbc45fd3dc,
    0x218452cba37bfa134493ac4c5b6c1629dec8380855, 0x4156593d6f6befa9fceb3c8381d2b15215296abac),
  (0x1314e70d8176ecd36dd3c50c9349b4657dd81f9b5, 0x0, 0xd9a39d7c55000706764dde7bb802b8d5ba2662c3,
    0x771258bd2d6d019c5ac6d2923c2b34104a8cc3e5, 0x52035efb6becb8c091cef3842e5a3fea9c70e930),
  (0x1ea7e20a7f744c630ebd3ffa77, 0x0, 0x148d1611a37c62be02cf7070ad,
    0x5e6ebf0d451fd1b2daff08ae5, 0x9390234e9aebd93362032661a),
  (0x247ce91f007c90f83009, 0x0, 0xeacf284571998ef8821,
    0x198df78a6fbf743f6ca4, 0xc2dc134086f956bb8d3),
  (0xa38e2b5c9e334b, 0x0, 0x6a1c4d9800bfb1,
    0x4b8286c702c206, 0x3d669f071f60f9),
  (0x874e32bb61, 0x0, 0x55cd71c274,
    0x51da38ee19, 0x3ffafaf276),
  (0x17ca3f60d, 0x0, 0x59282ab0,
    0x1605ab994, 0x4d8fab4)]

private theorem SECP_521r1_order : Nat.Prime SECP_521r1.n.toNat :=
  prime_of_chain_eq 8145457 SECP_521r1_chain (by decide +kernel) (by decide +kernel)

theorem SECP_521r1_checked : SECP_521r1.Checked :=
  .of_ok SECP_521r1_order
    0x19e72e5691af1c1f1d3f2591c5ad09ec28f1c524714ca75db089cdb9151ca2289840d94ce56793c78b66ef3540572cc405cdc465d82e1a6f69d82c27053ff163aa6
    0xc15e4c9246ef30c73585fc1a490df170ef8e757f1f37e7a6cde9349746d8493ebb31a91aea6f35b910d943c96ba37d442ea7bb6d45c60ec76150edba53d1fc8264
    0x124521c5a63d25338751ea837916053183423f151d92bf4710ef90df9f8ccdf063f99af3ab0f0bd1843a16afc69f16b49b9890c324999f97e8e4650532aea382f92 (by decide +kernel)

private def GOSTmsg05975sw_chain : List (Nat × Nat × Nat × Nat × Nat) := [
  (0x3fffffffffffffffffffffffffffffffffffffffffffffffffffffffffffffffc98cdba46506ab004c33a9ff5147502cc8eda9e7a769a12694623cef47f023ed, 0x1aa2dbb69403939f3f55ba257cfe9716330e4ba2b29ba1567be53d86279af45895ba3233cd8446f70e05407d09bfb68bb60bda2f07dfefe2d24b3b92c833496d, 0x1ee92861de5f76957355f4574fafd6ec828722c4477d5145bd47e585f02979444d7b005dbe33d7a66789c99746a0e0ae932a0865c164ba1f77a5ca539bd5a93b,
    0x12ca4ce69966c527794d97d33e4538872b2b12b78608109b1fe96350ef50ada1abd5557e679f8f985305e8588ebaacf8d7b134f77695ca878489dc476f96b96d, 0x1ccb4dc3e5b04cfc6f930564a0520e4f4576f76e04a569405e5d7f76da9d7a5e2a1035d07b2785e010f67cd76e9da87c465542b25ec84ac120e88076e5799adb),
  (0x5d1745d1745d1745d1745d1745d1745d1745d1745d1745d1745d1745d1745d16536c2a59caa4ba403edfa18a450b360a86707980af8a4927796b884fbaccccb, 0x1edef26250f5fefaae393f6bfc8bf811c663f5a8ee5a1fbb745acdc60a562443b79ebbb4fed7bc3dbcd0d7e991b294a4147e458e738d56e889a1edd0ba74896, 0x42cb1056742650bdf757bfda9a190948d2cd2688e5c2f20b3032e03ee477316fee2e12b377c45eb4e5398b4dc05a3c9418b1bd5628aa9432550e07b5be24f94,
    0x1d383938264cfc1bb9833531fb1947fef89d79747c312088045c19990a94fbd45f48efd7c2025211d1cd088be8d8a0b3c6ddf48eaf21559d5ac3f44c240bd1b, 0xe23cbcbf2dfac02294ff82afaf379f7c3ef1e2f0fbd2beeb186b388a7266fc3c843af945a24919c54fa424942242d2d7607de7969519e5a320de8de6bd71f6),
  (0x95f5a765bbe8a9a22fe9eebdc1d37d1f29961aff522b7e34d26e0d5d3ef59487a16a504b64d72b7b25cf601dad62f278a2ae8704b1bcfd219244aab6f91, 0x2ad0928f694de9d3e4cea8df3df4c3a0160d53072862e4149110598b72467558ed6fc86c280873c1d3298d451fcdfecbb0add7d0e7f525b161047e2ba7f, 0x0,
    0xaf642d8539082677b448cbe3ec68452c9f60df37a0e4a38bed0c8e9427bdd8dfe2ae6bbcbf6ab4285de08f2c03a5ac7d95a586cd23ce6da3f5b1160990, 0x88c292bd7276aea42648930d8467f76230a74e9f3aceda502ca6c851bb8321f5a404c1d0b726ae108a785845f91f785565460b6e1b88022dde13a35bfb9),
  (0x645536ad34b670f6cd20f911c74d9590833a44ae9dbc99dfd471d9cdeaffdd7d42e11bdd1678823dddf8ab778055e41d339a5be4affdd2e99231, 0x4b483fd93a5609f7bf688f282f5ac95b763275b4fb5beab7905504a3eaf9e7dff7cb67050aa21ab37601d1396df93bdaaa2ce6cfc9c18cfe5aca, 0x2fde999577d4f41a13dcea391d0e69242deb295c02e5e0d32c196965e1c1eba4a1e0e6a6a1176969b77ceafc390750754aaa58fdc72e150b5894,
    0x2cfcc2c3b616eb903e8ccc6516684d8520dec26128eeaa097450c7bdab9c87835eb38c9f0fc9458ce5aff0d894007fd481408e45de9f79a7089a, 0x8a1ff23447e9139a39088f552dd2cd6362bb93b165ec76097730a2e18d3f8ccdadaa6b728240210c61ab3941cdf07130eac2228467445d20636),
  (0x1467c3f02db384bf2224802427ec642d0ce8eba60792b4aca1c64ffd22f85cd9f75a6ade87c46e25ccb5233b04bd4331ffaa207996e16829b, 0x0, 0x9f38904098281141644103d0d1ded6f76a8f5cc3d9a218f319415e3c2f62602decfcc01cb7788afc7c0e1961b9882f842b17dbf023dbe7ad,
    0x115c386f21d0e2cfce786f9284dc855dcad06f2c8b3ceb5e31a166ee1309cd047f43f0f2630f4a5c16da51d305f1f13f63a6f67dedba2a648, 0x9509942b0d6f317bbf8771de250032e82cf30f1c4ba878fcd52e855c3b526e3d8bbae9b75cee694bc656f58913d155f9ab38cc5d1b7d03d7),
  (0x2d4dd737f2d6000460923929cb389f5d3369e8df6e5b1d6964b6c791ddf37d0a391bb1e34a2887ba8d6e3d7a9840446e10ec757, 0x0, 0x131b69f5412f3e26a2d5b6ea4699f7bf41954abcc73478d80149b310df5c24b80581c84d6547ebff00a9f7634a33fd6e123a9b8,
    0x1088686b05ddf213d8123eb39b40f1c160b251d3df418a28ad577feefe73813d1463d76c4c52ca5e646753a76d1b81a98198e21, 0xcb5c84e03a25b48d1a187930868204a5084fb17b133c8ac7b36bc90df3a30e54135ea83dc0eb295d613089f8ebd76380d905d4),
  (0x2acee525be79fd3bacdefce5232aba9a067764d3853f4bace15a8bdbbc01f6c8dc25638a939c350c753d499203cb7fd152f, 0x25e39bc1f7dd1ba655bd40e0792364540651e0f17e9b0586341656addc59d16c9d8d216322c1609ef486da7693d0229fe9a, 0x24599eeef3fd8bf073e3fa95080e94ba8f32b72eb343af2ecb6acba40b4bce82a2d08cb0963209400e225b48ceda8ffdaae,
    0x1909d8884783f3ab1856125fd9f5512e1fb76a5acb73476a0382cdc12e80874a200eaec4a8218a4dfe2f29a8591afb97800, 0x2a9249f9cce10a6df424b24c653f0620232611eb024cce1aa96c16492e9674ba9e0a40454a3882750ca697434b4348e54df),
  (0x21d48cfbb2bb62b8c4481a642d600d1eb14aa5863705522dd6709becbb3223a2e078cb7ea4468b38330a9bc749d75a57, 0x1de644a760ff6511fe4994e1f1100355fed981e2f816b46a13985490f57b87942ba3a7c1fd8a9c1f97487531c3cbc5dd, 0x18222225437338f9e5ad832e8f42b55d886d4b0daf65c4fff275cd852bc45fe4cfeb9aa7f4a5ebcfacf66608898071e6,
    0x65e6469ecf3563bdae4579a45e75c77464aec91805f1b5a1f2138a7aa7b91f184c9380af9688aecd7ea02ff79b422c, 0x17c920d4c452dfa3b98f634c7334d4ac4c3e6b5d1201abb4b89114b0cf02fe93163e809aa0891dd54b0d0f83d9b6bdcd),
  (0x51a7b8c1926fa86fac338a123a8831c50730c72fbc77a5ec3e106ec01882e23ae67d8f6ca11e47d7da8140a7e1fb7, 0x1f6ec9741428f716f99efb6ebda4dde7b8a0fc1848204947fa2ecd3bd8845be446a117c5de7cff23403b12f355c58, 0x1454cfb193da646643a5a3285fd1f309f4b381bdbed49210a2c94f2ba0a315b8bb3ce6b093df9703d6841d06c78df,
    0x1d9db38c632ce83de4ac593dcb776180e663ad03f8dfa562695079489a388e066fbd9526bde7804774c65166e9712, 0x770d77a239d7ebceb38e94e90f35de6ab8d8d36d11ef1793fd754b9a7bdd3f0bd2e6f0b1ec200a0df7a583ad15c7),
  (0xb8242a37a1d54f65d99355915ed12a4073590e47dca062d752c089e16fb366617a128ccdbce1e2aa66065d, 0x96ce3be1f0e62f46962ffae8a8d746bfd8acff75d38662efbf8be22d7f11a62589fea883054cd02023c0d8, 0x6d606f8c4e56696b95b885f4836977731a68fa3798139f98fcc4542461f9561e90b87747b86482be0564df,
    0x17a83bab0e8703aa6d008a10eb70f14ec66c0db2d0403d30fca0ec800fb30bbc4b326899ea292a97e039c9, 0x4065e48f0b79f78cb9538a75db84e7efe8fe2761de0f6ef2693db4e5ce2b343927a4612f6cbcd09412e221),
  (0x18a7a764a30ea2bb28e9f3e455883080988c759814f5e617b726d7172d8267f917e799fa64c611397bf, 0x133a0f17f0aa0df35f6482f28fc4a30c6dd96f20a63fce9e8e95f4da1ac622f50f4724ac27782d42d61, 0xbc8728120285440c357c5e8eab7f247125cb2d59582b9da19a933a326ebad99763008b77be07cf243,
    0x73f48d93d12787430e439198117de3f9daafaeb3d00c002cc8f4e53659d4c7ca38d368b2282615c1af, 0xa30c8140f64f968bd282ed7060a9162ba8f3498f968e28d66dfd242ffccf148d255a9eb1ade019c72c),
  (0xaf57be1f24d3c3f85b9ea731afd47423e87463e6dc01d4dcc9057f408f98850ae121cfcfd10d9d, 0x0, 0x9b0961ac4e938df9af3c0db44411c703a4ac1f3b92c0c8d6f2ef0c4e699c576271bd9af3453cb,
    0x8170637903aca58ec0ec10e62c252ed1669b1609e5e66ce9e0b25d2ce8e3e8453e07560002bbc9, 0x654f153da18457568d9b2d5cf5b4b6c19c648776e3b072b8114610b9683b2bbc5aa9ea413e77bb),
  (0xb34bc334d4aab8425f2b47a9c9aaf25d33a52338b54d8a5208d31a85990f34ed7eb772d, 0x0, 0x6b63bef65e637b0b9792a9371ab98296adaac74fcddd2d68259cd0d27617cfc309d6e9f,
    0x83252d7ad699f36ea1ebcf8ee50afefb1ca5d607f5c59a06015b2e4c1678f89ab3cbafb, 0x150b009d670f54552c60e87678aeab30e9d5304135ce3a7deea8049712671831c96b01d),
  (0xc04cf7b547087b153efdd1ec10893a1b29ef1f6f21787977d1f1e3b1599a12b5281, 0x0, 0xb33e93d0bcdf7bce7fe064088c355e1809ec694a3761681452306156a29f79a9d70,
    0x1f378125075a6df12ded7d3160e4186510985acbc0b18d94bebcbfa1cd74020c8b1, 0x8725cd6891427cf36fe8b45ea73f1025eacee3db8f3e24b179cd416682859accb02),
  (0xda62ccd49c42a065eb835f011ecacb273b46a1e690bf49e3f4dbc323e835cdf, 0x61bc97afe4f33e69d2dbba375f44d866ffecb5ba5133d487e3e736daf67a5c9, 0x52b88c3ecfa90be2b6be5fc70684337f2eab6081b90ecdc12d6b27ebb570bb8,
    0x8c65158289bd89bd69401143ee01dfe05890c7c291f7ad97436afb057acbd72, 0x244919d0349a9e7e72ab97c3aa0f5680606eacb3664dd2c4dfc110898356999),
  (0x27b674684484c5279f9674999b09081660bc9592f74b9491ce53aa5, 0x0, 0x17683ddca5387e8d64005772130dea12d5f3bc10738a1b723337a15,
    0xb058ca5c8a136e1f5bbb1d70515f65d710beea42d74d3b615f7f47, 0x64e92384f2dec46da0ab123df82767f955c2bdcb6da7f169cbd369),
  (0x2423ad54d18c8f3dd2b14cb40d7452e7a9fa25f7be383af77623, 0x21711c92840a931769d6ffd03591bb711894b830f6314e45a96f, 0x1a6782205922eea337f2e9e73efcbb19c3eeef1cffa2aa203c69,
    0x1f19eef2ca3b20f10f0353b354fe05abe668efe3eddb6b1b45b5, 0x2321d8927cb156d037103b6092f315dab0c06a5c597ad7d50e2b),
  (0x1a7b93b585d347baf6f8fc6fb53cc7bc76cd421c0845ee0d, 0x41b16f22b2770dddb3d3a8b2c54bf1800a3f22b2210379b, 0x1556fa09959ccb3ae506b42f2947af8b8613b16fe8b82d7d,
    0x1000492304c89e72d9eda535d7894287c0c020af2bd3d41f, 0x131a54027f8cf5d6163f5161ff2ecc36cbbbafd1e75ac7f),
  (0x9fc22b157c30314dc6d2b939e07313594be3412977, 0x92548445fa0dedc32ba6440568e4008819081131b5, 0xb58b43787660401b957a17c856f8191d69752cf6,
    0x20367eaf3b23abb2036be24684be58a4c40e83ff1c, 0x8666f40f050f1bb66bb30056750cc64ca234570936),
  (0x2b48f0ec0d60bb2a8eb63bce5d543c9c244d69, 0xce52c16b679f2f3e152bedadd68bfbece78, 0x0,
    0x170f239b73ce0e7140dfa36b6c7f55c0f2940b, 0xd810eeb4d878a84cfaaf477ba6d28c093ee11),
  (0x54a2fcafc2a8a46b7490ee10c73dfa11, 0x342722d523f1cf119be04e440e46ff8, 0x0,
    0x492dd6996cb73473a754f10f051ea325, 0x1be632566e37f3ba0c5400d809c8cff7),
  (0x7597e9281de0eed8f2bfd9f5, 0x0, 0x9192a270ea80dc9483a52c7,
    0x5f85467052a2beb9a5d60f0a, 0x57771da9e0e8d7d94295b859),
  (0x6eaf54b6281741, 0x0, 0x12ebfe6b45be54,
    0x21dfa5918cbbb, 0x3ad94b4a85d314),
  (0x1f9ce16249, 0x0, 0x112fabc7b0,
    0x1495a3529e, 0xfe86b14b6),
  (0x75d2847, 0x0, 0x67b48c5,
    0x4252842, 0x746f59c)]

theorem GOSTmsg05975sw_order : Nat.Prime (GOSTmsg05975sw.n / 4).toNat :=
  prime_of_chain_eq 176497 GOSTmsg05975sw_chain (by decide +kernel) (by decide +kernel)

private def BrainPoolP384r1_chain : List (Nat × Nat × Nat × Nat × Nat) := [
  (0x8cb91e82a3386d280f5d6f7e50e641df152f7109ed5456b31f166e6cac0425a7cf3ab6af6b7fc3103b883202e9046565, 0x4985fa39b474be0ab7c15c7926abdd7e657c323394b1ff6113c1ff1ad88477075295278a6f62d93480c098f72381136b, 0x4f0c6845b20b8f0e789ec791cbee590e1b62a0304fc11172df82856da1c68300d9e695cfcdc965aad54993a68de7934,
    0x49b5d33753eebc2198509bd7bd393dba37610fbd7590a6d37ba92a8b067e09c7ae69747225ff5de61088f2f269c87b20, 0x41e5a0d9ff45f0330dd088681e817428c70d5c93a35d93354d87b245d405b803299776cf5ffb01a6ea69aa0326ddc5bb),
  (0x7e68f25a6f72e6e66a1a2b4805ec10c71f82ed23a4772faeb45be22d6179f6a645f642093f7cf376d4b757d, 0x4f84f29e6c817d0262cf4fffbf7cbed73063cc7d4aebd58dfbb17aac6a6ab2aac507b8f47b474247bd83eaa, 0x3bb8e905ce6a45a893c0e33d1d3c1ac02afd9ba29666b20772efb596a61ac8cf0002e19fb87a4cfa926ea6e,
    0x31c7cfceb925af2f0b8cfc5b0685089c2e8e999131925ce47c0f137c19f575e72d224622a8f72f61d3db3a0, 0xfd9870817941ee7744284990fbcc06b25039bb8a1f4a08b528c24737c4b5a4ce790f80775045d935667134),
  (0x859576afa31df109b72beb998f95918db31ac397a7ebfa3aea3c2043d0c218cced912b7e378c7c6077, 0x622a57a0dae95f827efca89ad57b0d1012bc0a89c5c18888aa473d37794cbd749f0e42dba1f3b1be6a, 0x5d5a1fd80a3a0c0af38091b2e2e7d8b0d85cbba9c305b436c92162194261c39e70c91e0970e00dde71,
    0x6801066a602ba7a2b18d3e44b49924f134f6847791cdee9a91d7301f9bd0ab1143ab1c3ae4c765142b, 0x3c2bca63c2aa9f6bbcf792ae47ac9786eb773088c1a6eec81cbb2c3da9e0fe2ba2ceda5bf1be526282),
  (0xd345e039965fe255f30de277e473e17aaaaf2a6f602d91f79e2d4d323da3acd06c3960bb5, 0x9b816ef12f1f16764938c63a2e514e67fa734961c2ba7f29b6f9baf4c291248beaae2f2f5, 0x9a80fcc2c1ae767e85a9713d3704b5c254d444648ca994145bb206fc4b6a4c261ef1f32ec,
    0x1e1e40661f0fb475b11fc38de99ccf729a8e5d32c6654c39f7a8c327086c7522154e9735a, 0x715bc14595c1b95ba199ffae653ddbfe36f2b94c5ce738aa8d403e3af90bb338e96e73f96),
  (0x30138aa1ecf876dc432427b38450128a81685c6b808cdb58e4c4ba2463bb97c368747ef, 0x15026118d8faee64304697efdab2ef473bfb5a6a04c19f848b588bac644772d0f22b5c3, 0x16100b0b208f711cad4df4de7fa05867c13b49ffb453bc6f1fc30310c96bd6b6059a914,
    0xedb78b22484cec47592f3032eab671a3f97618887a0f524ddb5411294b241499632c50, 0x13d168ce123a1225814a98206c0e0064716d9c5e83a17c1d0305c8011fb13d4cd79c7ff),
  (0x2b19698b70df4a447c02cd86245ebf556563c941d0392bf8ca3f8b6c3, 0x4be932713e7ebd40498af8ab154f95b35e68504bfb09c95837a0bbfd, 0x12f207e13ff90243af1dcf42f39262b866489d7c2b137ffa035f53612,
    0x106e3f68c77a00e105e76727cd45ce15a33e545ac2e47be4974963e5e, 0x37c1fe8721f11efc21d378d0bd2d0e2e175e6a8b48b78cedfe58c6e7),
  (0x91145caae5b4a200de34464c08737296a5285dcaa12fca0647437, 0x0, 0x2e224227aee29046cac30e573d977e2f410a3dec2b060bd3d4193,
    0x4859fd044de2abcaaab105863ccd5de35ce1a58f6038b8d8de260, 0x5698ccb151f9b3ddf11ec46c4308661e10de5a8d2a2cd573a2b91),
  (0xbae58c3bff6ae1ca53d87c981a624cfa6d89d4cd0300d, 0x0, 0x9cec7f93886cfe19d0153eccbce877c1ee83d1060efa2,
    0x7052e9e9256dc071ee0416c3acf1d3284173e56babbc5, 0x4462aca892ec05578f7310887637cd5c6df79ff648f8a),
  (0x7b8dd54b1a5a4af5f734a9c5347ee7949a59, 0x0, 0x201f541aff72ac3c38c3c6485a3e8d3da987,
    0x3ab51c90cc243758aa8bb1ea286ce8ff35c5, 0x22ad394656955c0080e19c877127fc7fbd74),
  (0xaf0834ba3492873003609bd, 0x0, 0x9f4ca63a4091b774864a081,
    0x162b06e38d5a0b9ad3579c, 0x6e3b2265ce18807f3230b0a),
  (0xe9d8b9da586a953, 0x0, 0xffd001a2fff056,
    0x754a00c6fbd2567, 0xe29b099a4e16609),
  (0x37f02a7a7, 0x0, 0xf4a90b47,
    0x1925a0f25, 0x5178f570)]

private theorem BrainPoolP384r1_order : Nat.Prime BrainPoolP384r1.n.toNat :=
  prime_of_chain_eq 567031 BrainPoolP384r1_chain (by decide +kernel) (by decide +kernel)

theorem BrainPoolP384r1_checked : BrainPoolP384r1.Checked :=
  .of_ok BrainPoolP384r1_order
    0x753e33ecc186afbeefa64e59f179e8a6dbeac3e8a3bc7739c702a93df2c693439f71c84aa569a770e29889c299fc2d7e
    0xcd6cd056a09b7673b3952780919d4f92bb7fd75dc4895a74e284f599e026176223ca54f43482f8b537975fed02e5c5e
    0x1e2af8294a97582ca47d1c32f928505de4219e1598cee725cef4e033f408e3e3665558c35012ae6225505a39b16771ef (by decide +kernel)

theorem BrainPoolP384t1_checked : BrainPoolP384t1.Checked :=
  .of_ok (by exact BrainPoolP384r1_order)
    0x81ae9789577d7f738217cfeb1cf5203e0547f4f88ac4ca542ba46989f43aec670bf395e023f66a790ca5cda6c6864707
    0x3da50ee400cf0ec6db12783294f1e91f3681847fc089b5200e1fa2d3b9ba6862e6cdb68edf1be3413415c671a4234266
    0x5e53a2bdfc045a4de363a2bad40ac00bac271cf04c57284a5acd076ecf4df15b43dc732e7d5f0666dfb4ff32cf47843a (by decide +kernel)

private def GOST2001_test_chain : List (Nat × Nat × Nat × Nat × Nat) := [
  (0x8000000000000000000000000000000150fe8a1892976154c59cfc193accf5b3, 0x0, 0x771abca9800c730faa7c880556bdb0a1f9a5a441247ea9b7e1353087c87d6ae1,
    0x1cf0fc5c4c1a87688598b8268fb5b957469764d59abc9abc8c459605f1e0eab4, 0x4d647a083cd6e7e54294fdfe6ef0f96a759d7a50916cb6e7ff3c14a751c28f01),
  (0x2659b249bdf9124b8a2d6dc071da494b0469a35ea1fb3646b7a67e7cfcdef, 0x0, 0x24d5112523856364a476ef3204656b7199cb114dd975f80990066fce2765d,
    0xb8b0558178ddb9ed7d89206e7b4438e5246aa7f6ffe042c21888a62af0d0, 0x14e1f41ec191ccfedb9e97c71bde79561612e736b59c35689e68b164fecc8),
  (0x28bcc1a23fb4a825c0743d58a36db734686e78e09dd4cf828ed0b8950d3, 0x622ee25c8c0794df15c1cf9eb6471b49ab64cc107474c8f4bd5c1d7f18, 0x1488782c9d0fd91bf8302bd92eb867436dcbd5b1385e920b2d3433a6519,
    0x244c916e8b5d1d83ef93087c1fabacbe0197158cde4eb6868898194f03a, 0x1fb3cf0f6e1f28b1bacb394a90a7f9b6aa25b8c01358c29695dbbcc8c41),
  (0xe9512f75e6be7ed71f8156eb01ac74a2904bd2ad4cd258dc9, 0x0, 0x1e3c04cdbdd09e750287c40afa0b7e6e4320ae3a0c7a903e1,
    0xe12af9fdf6d40ec5087d703a22d207dac4818c01c17727b18, 0xdf479c3c12b4077fce8006eef4142c7b0cca90f615893c25f),
  (0x390c454ef3b6479a11f8fe063b2368d8f3b537ba8090ceb, 0x0, 0x92b6d7c42ea3a13a2d7af0e1755a806df361300bf6447c,
    0x38d5b683c77db4995e658c827b3eb2914b4df09894f8764, 0xe349d73f7bd37fcb75d18e1105e1c67143995c37da6cbb),
  (0xe7d056962776fa518e1c69ce33a7fb8ea79f256da8991, 0x0, 0x3cf24fb733f22b86ad83653caea7c065cbe3aa8ac9713,
    0xc64bccc83f5d713bf7197a519d808758ad4a8957b37ff, 0x33c306407b35fc0a364ee15059bb74bda814af7bc8a9d),
  (0x3fc946cbafa9918b3fb41c40996b340652d1223, 0x0, 0xdfe451f13a934cc03d97449ea8c6e57d8421,
    0x1bcdec6c5c9d0183aa20c5b46d524e257ef1a6c, 0x2a392ce8eb72eac96e60c22d5e0983b16552418),
  (0x23ff0c4084e81c59e3c4438171cca8c3, 0x0, 0xfa6df8342581cf0a328caa6a1dfbb1e,
    0x72f6914d6fea64de4c71bb9872e8d4c, 0x8e5373bac7792fa2eddd223afacf4f1),
  (0x2e5c782b5ca1e9393984c7915b, 0x0, 0x2b4e2202210b8fcdf13d19fcd4,
    0x754ff8f38a09794a75173fa4d, 0x2a53834b34c61ef5a508498068),
  (0x111e3cacae59a494612a49, 0x0, 0xf608f5eabb6ca342bd790,
    0x103b1e722419458479574a, 0xcd0aae2802462156a6ade),
  (0x14ce5224189fcc65, 0x0, 0x1d533a463817d54,
    0xb2f52b2ce7b2983, 0x4fd6dea616b5ca7),
  (0x52b2d14e96f, 0x0, 0x5246b40fa65,
    0x4e7fd7460f1, 0x2a0a17fc87),
  (0x49f9ac35, 0x0, 0xca2b374,
    0x30a0e652, 0x44dc78ea)]

private theorem GOST2001_test_order : Nat.Prime GOST2001_test.n.toNat :=
  prime_of_chain_eq 1424947 GOST2001_test_chain (by decide +kernel) (by decide +kernel)

theorem GOST2001_test_checked : GOST2001_test.Checked :=
  .of_ok GOST2001_test_order
    0x1badab6300e4adc1585d1a9371813f6cea6180fc7985bf0a1898d8aaf5b3df1e
    0x349a0d295c64166c76eb435ef5709657e5de62ee609b32c792cd6a6dbb74255d
    0x681d2a97efb6afc06be287cd10b93261907fd33b7575a5b6518842b7245c315c (by decide +kernel)

private def SECP_256k1_chain : List (Nat × Nat × Nat × Nat × Nat) := [
  (0xfffffffffffffffffffffffffffffffebaaedce6af48a03bbfd25e8cd0364141, 0x2095f0fd8cab8881170c39b4a7cd5b14d7e75cc3f3605d99e6a9a286be80ab9f, 0xb094ff0071d14eebf52dabd230ac971e6810b88eb4ff23cc137da8253afd6e44,
    0xa5c448977ea17c47d94ed59721e52d1f3416c7a10cc0a9aa35bfecbca748a4d6, 0xc2869b6606c8abb08d07dc18c8a32fcefa2725a5da878ce31ccafd6fde31eba2),
  (0x7b6c50e358741f0198abecbc3f206ea91cb665f46719a1fce80e3b, 0x6afb2a7a94e8ff03ebcee16211813033a53f6595e0a9565825fc8c, 0xd507cacc1a1804f250fe11d052c0aa655d04ff7b445a5344d81e1,
    0x7959a17f9b174d22f15e66f74d87882c071bacc100c7a6fee553fa, 0x4091795d9a5b590d3318839b00d1dcf8331885719ed0b07843e28e),
  (0x4efda4688a87c1ec8aab78ca65db16fd7b32bbe0a52633c83fba9, 0x207b4a416952edf39057880c86cdace48f5bf84893d7889b0ebf0, 0x0,
    0xb2ee932749bf804b20c26aa1279b5b396fbb09e61d27ba34257c, 0x194a0f61b323ebbbc89ae4c41453772a79db1e301fc4e06373ed5),
  (0x4155b7d2981948f9c5de06a9d956a9c37f9b1ff7214bd5329, 0x1dc9ab28a8822cecde51101d99c3bbc3c91bd68d3fb900bc, 0x23cb57507df7b78997ae98ccf006b71354a46eb13a8aea7a2,
    0x1745dd7c91dd8aae7e64abd17ae297d1b32d8b42e8a82fab2, 0x1781a36d9ee400d8002c8ee0940c69234fe0a31e037a3e7f),
  (0x2cd5c8aecdd0dbef34a7410ba91deed430f134d2f7b, 0x1ac626ddce2e372dcb358669789bbb240893fe7c30f, 0x19a37f7c6beff276886486e289eca2f31ab98279844,
    0x1b30ca1a97612407cf69e30ce2a87a44786ce981bae, 0xa42b0983928dbaadbed82567f78568ee697ee3fb5b),
  (0x2582543b3c14cc1369f5547edb778b950213c1419, 0x1800bfc4a1f59d94657b2df2da8e378f7ff97fa1c, 0x0,
    0x1c07587c5f6cc38f5c8857fc1faffbf9c2ac32249, 0x22dbbd32e7ed95cb586454456ad86d74fb4aab2b4),
  (0x2a8f0d73db3782247e76bbe918879121b19971, 0x0, 0x12ac4de94d84b8dd94eea2da74eb7d3abf6db7,
    0x1cf20b3d8275e2d9cf09a52a2a76d90d0dd8ba, 0x28c7ec14988e64a282d4e8e88f501f52adbe5b),
  (0xec25a8a5d68102ce86ab3a892afed8ff4f, 0x0, 0x1dc213b7092ef3415f3fc26ae766374d50,
    0xc83941b52aa3c2488b3daa47d7f55038bb, 0x19896556dfa49f1568431704f23693f17f),
  (0x6f94634eed52ea0154b88a433011, 0x0, 0x459f332454013cac166b145d3a6b,
    0x33359982000292e324e4f47d9c65, 0x412ffa10e3590f3c653ff4565e8f),
  (0xa420b8cf820a5c769, 0x0, 0x8ae2f901f48d15125,
    0x841dff96b7729ae20, 0x3add05486e8613a5b),
  (0x11af7b2af1, 0x0, 0x8b01d74d0,
    0x10cddd4c93, 0xc570a34d)]

private theorem SECP_256k1_order : Nat.Prime SECP_256k1.n.toNat :=
  prime_of_chain_eq 2396767 SECP_256k1_chain (by decide +kernel) (by decide +kernel)

theorem SECP_256k1_checked : SECP_256k1.Checked :=
  .of_ok SECP_256k1_order
    0x0
    0x0
    0x676072c51d36ab00c84deb078e4ba0feef17a1f9626d375046274e4ab01347c8 (by decide +kernel)

private def BrainPoolP224r1_chain : List (Nat × Nat × Nat × Nat × Nat) := [
  (0xd7c134aa264366862a18302575d0fb98d116bc4b6ddebca3a5a7939f, 0x1c772ce5ce66718a2ed36b277247f05c3890a87408c18b49c69a461f, 0x7a316dd740db84527f43e442fd152a180cf88184230cbce27e115db5,
    0x861f928782b9f15f3a403166722f03fc7b2f7bba0e0ceef4603cd26b, 0x3dfbbe2ac965d62212b460aaf90648f4414e665aa2e04d0cc510446c),
  (0x10ad3bb90e168611ca5d62f2d17456a8f3de8596cb38fcf1f8fe665, 0x4985670901b7843d872269b46f4452c7fa3add2133311e0b243397, 0x0,
    0x76c49fc5ba44aaf40132cd2fd4362480008082f055c947ef1b062, 0xd814e830c5708064fbbb8e1876f66c5144b36c8cdfe2521ba9e151),
  (0x87d487caef00c614845dfba6bd1f1dd1cfe13747eeadea86f9, 0x7cb5e4928d5ddf86201e9d626686194697a4f646127f87332c, 0x0,
    0x2bf87a4e6a5b6a878aabaf50126824e512a3594c32b2f11319, 0xa8fd73536ddde70a1d44bdf006201ef345077b2c74a8b9a49),
  (0x4fe9bfa8e808178f485ba830a659b4cf1a7fb67d96509, 0x20e04bf772afa3368c9b17fb0b643dc11fece180ece44, 0x0,
    0x3dd1a21ea27c4df6f677c3ae892906f278cb05a37cef2, 0xb9c60bacc29858f3bdd8aa777b2f9b417f242c8dea),
  (0x2384552ea00398b1757e11fafcce37f39496220d5ce9, 0x6e4ef6861e65c038430d8df09c2bb33dde295f0a4ae, 0x1445a9b2be3e8ccfa4a326e7457467b8afa362fd769d,
    0xdfa856082aff5980ee11d33ebbfc262e4979408238c, 0x19616b7b4ddd489f35d694f501f201357d73e331cfa),
  (0x5cebaad353d34153833020441b022b58c10eaf7, 0x4e318f2d9abb6d917ff32bacb22aaafff5163eb, 0x17fdb56a14aff1858322bc68ffa5d6467660e82,
    0x592e9a3a11a0da230dd29bad795b6cb5ac7b014, 0x4f87844d44ebb943f583260d350a8ede6ec7705),
  (0x4529aabd05af56899d9e584475b48605c9d, 0x0, 0x2ebb1f288fa8160b68a481acf03c31f4764,
    0x2193cf6113968e045c8081228b1a9e0b9f7, 0x452272307ea28127ce2b4c4df195bc5f6f0),
  (0x8100c716e3e6847ffa9e2bebea56953f, 0x0, 0x2641482edaeea259a9d6502832b1b788,
    0xd0c65c97173c53f52894076b9ac306e, 0xbdd35eb2251126d59fe1460cec70bc1),
  (0x5221c004198b658675491, 0x0, 0x8d30971fe7424d691be3,
    0x325411441f873dea7b28f, 0x1c6642d00065c6a83218a),
  (0x162c57beb198c4c75, 0x0, 0x1366a151183a3eed0,
    0x5658bc24621f0322, 0x1305c4c57d3f79d36),
  (0xed6ecfaea1, 0x0, 0xba67aecb6b,
    0xbc0b32d8ac, 0xc3346bfe36),
  (0xb4e6afbb, 0x0, 0xf59a299,
    0xa40b64f9, 0xb28c5fbc)]

private theorem BrainPoolP224r1_order : Nat.Prime BrainPoolP224r1.n.toNat :=
  prime_of_chain_eq 149011 BrainPoolP224r1_chain (by decide +kernel) (by decide +kernel)

theorem BrainPoolP224r1_checked : BrainPoolP224r1.Checked :=
  .of_ok BrainPoolP224r1_order
    0xc9701dfc517c793cf6187fa3efe7f445f24231a370dfa96c07e851c6
    0x162be229f812c8a29387f82011697e601bf7f224b107fdf79d58db42
    0x421604fece9a50e6887d36097c0aeb74c3dd108ffdd09985cbe0fc9f (by decide +kernel)

theorem BrainPoolP224t1_checked : BrainPoolP224t1.Checked :=
  .of_ok (by exact BrainPoolP224r1_order)
    0x9e157184efc905fdbf56c75aa80362ecd8f9e250bd2afc46b399bacc
    0x24ed07d7bdcd2b66019de62c3d38303bb42e02b0811db07ecdc5a2e3
    0x89d07017d6f1ac7f85ed1fea014f6a37bff6db3b840a9686c5f7dd75 (by decide +kernel)

private def GOST2001_CryptoPro_B_chain : List (Nat × Nat × Nat × Nat × Nat) := [
  (0x800000000000000000000000000000015f700cfff1a624e5e497161bcc8a198f, 0x2ae2f777afa17a7aa8c460fb91a6eb8b2bc1a5ec7a8c16d9977ffe768d3df694, 0x38a8b1f8052ecfc341fbe32613994ca5f7a65f76fb37e8caca301a3e6771c243,
    0x7cfd9fd470b11793a5f6659b81bc823799613036ef9e43ae39fd4da6f988e046, 0x7eceef6c110b84bd2949c5e51746deb4da45d039bf3123b09fd20f5f1f732720),
  (0x173926a51a4ebdc707cd32fb76d673c15ad374636834017c1dd78fcf619f21, 0x5b3a2ed9eb20616709465fdc74e28451a72cc0a862a2112ec14ea174566a, 0x0,
    0x14f822704c679370860a94c820923ea3caf453b01d69b4108c97a822619a1b, 0x10bee066f23133103d14fffd98acdc88e62d622c5e5817a3705203b9c28bb9),
  (0x52cc27a6380e996cbacf6ad6b4bcd14044f98205773839bd, 0x0, 0x19f567be52acfb7948bb51455e9829a48537dcd774242915,
    0x48d0a6c770eb2bc2e5e1bf1d3f4e3620ec7663c6dd8187bf, 0x31329149af1e542ae7a826704df98d21a15c25bf50e7c6b5),
  (0x11ece3bfe6e02d431cb6f9403aacb8743, 0x0, 0x9dff4d5b924ac6c9a0ebb10381ea21cb,
    0x34748c0a5ac68d53c49b6b3f7d668142, 0x5fbdc5ca0a3610802035e95a2392ab91),
  (0x3618055fc9aed7bc29901966e1053, 0x0, 0x97350330b43e8b134fe6af52a2cf,
    0x23e989f3f41e8c0eb572f785b899a, 0x1fd1f62aa9d3ce67511ebd786433a),
  (0xecb196612af277807, 0x0, 0x66914d5daba566aa5,
    0x2b36deaad2c1cecdb, 0x55da2edba096c096f),
  (0x3dcde42ca00b, 0x0, 0x1e95fe6afa69,
    0x15ef57ec5568, 0x1bba3f1bd8dd),
  (0x216489b7d, 0x0, 0x534f7e4b,
    0x1a3f1cb29, 0x15e14740b)]

private theorem GOST2001_CryptoPro_B_order : Nat.Prime GOST2001_CryptoPro_B.n.toNat :=
  prime_of_chain_eq 988069 GOST2001_CryptoPro_B_chain (by decide +kernel) (by decide +kernel)

theorem GOST2001_CryptoPro_B_checked : GOST2001_CryptoPro_B.Checked :=
  .of_ok GOST2001_CryptoPro_B_order
    0x2faf84bb604b245056a438074c8050a855d29c55ee8ca999dfdb376757415483
    0x4b9be6524b30f85e90e6d11e5b2143ce666a187c14004d1ae2b195887071784b
    0x1d4829456fef188a12e98a950e67ea59c383e592ddd0a21f29ea90cd828125df (by decide +kernel)

private def BrainPoolP192r1_chain : List (Nat × Nat × Nat × Nat × Nat) := [
  (0xc302f41d932a36cda7a3462f9e9e916b5be8f1029ac4acc1, 0x0, 0x4b5c43ff8b582b711a66d0440389c7ada2f4b9c4d6315b58,
    0xa7f30c9fb7d41163b648ff42dff205c4c443de58114eab83, 0x40ab7bc0c80c52d8ed8ef5be7d64daf688336bb16f5afbc9),
  (0x1a148d3bc58dc9b284101c35ed763fa8d6172f86c1f9, 0x0, 0x75fe31d0b4915dc44ef9a70791ada9764c116e94b60,
    0x7c54d5799a36282cea08aaf06a32988830c25ca854a, 0x18eea815e8c49f4a55edb806b4701e525cded291f487),
  (0x425c8ce0c3a163989505b255b7f764aba327, 0x0, 0x2abf35bf0fe0be9633677e56264cbe37bad1,
    0x3a2ec7c2bf0b0b83aff2baf678817f811456, 0x3afaa312dc79097a1250fe66ecbfc935ec9b),
  (0x754b9f26df132c8ddf1c5d542f3f, 0x0, 0x3adb436ddf7179a26c169cf10a01,
    0x1f17c4cfab635698ef8aba5032e5, 0x599a0d01c0ffdfeac322b8639e13),
  (0x535a5085586c4eaa2f, 0x0, 0x24b75e52a3e908e972,
    0x32a2a870a6e9ad8cd2, 0x66190b4cb25694e57),
  (0x24e83870f39, 0x0, 0x1b3710f28cd,
    0x5790ad114a, 0x85ff1e0add),
  (0xa5c21e1d, 0x0, 0x4c80e6ad,
    0x7d83939, 0x5194f2c0),
  (0x2b7a9eb, 0x0, 0x25e3ffa,
    0x19cfc28, 0x3e6400)]

private theorem BrainPoolP192r1_order : Nat.Prime BrainPoolP192r1.n.toNat :=
  prime_of_chain_eq 117841 BrainPoolP192r1_chain (by decide +kernel) (by decide +kernel)

theorem BrainPoolP192r1_checked : BrainPoolP192r1.Checked :=
  .of_ok BrainPoolP192r1_order
    0x576c05bb3bd834e02e81148b556d053bfd5bf35fe7b80d7e
    0x8ddb4fec27d7b00e1881f502e4d3207e4e4c3ec79c2fbbbd
    0x9615ed23910d1f1065cdf7425f9eb0e60ce5184a5610b825 (by decide +kernel)

theorem BrainPoolP192t1_checked : BrainPoolP192t1.Checked :=
  .of_ok (by exact BrainPoolP192r1_order)
    0x7ed8720c1c4795878e96434b1d043e267a7b1b823662cf0a
    0x211aa3cd241e98c7c9ec07b2f2269f83b912853ca47fcdb2
    0xc0bb7a26e5e1190bff61591bf8e575d09d417a799d51ab99 (by decide +kernel)

end Cryptopy.Model
