import Verif.Lemmas.CurveCheck

/-!
Certificates for the curves of `ecc/curves.py`, part 1: a chain of primality certificates for the order, and numbers
that show that `x³ + a x + b` has no root.
-/

namespace Cryptopy.Model
open Cryptopy.Ecpp

set_option maxRecDepth 20000

private def BrainPoolP512r1_chain : List (Nat × Nat × Nat × Nat × Nat) := [
  (0xaadd9db8dbe9c48b3fd4e6ae33c9fc07cb308db3b3c9d20ed6639cca70330870553e5c414ca92619418661197fac10471db1d381085ddaddb58796829ca90069, 0x0, 0x4575064128eb18b7e81c61d2a80b0265c5d02551427b969ca212ee61613e212560668c8502b0e87aac0d8af0d9be1b65e8604f96c38d8c08675eb82a87915552,
    0x52536d3baa20b10a3a8e5b1e9c1a68bc8815dabd0404411e7cc5f91fc5c7fc4f6d0b086bdabe29f090e5a3300f00a710b8732ccaa6b87a0749c9f23686d69ea4, 0x81f6525194d902ba7a91839309de8bfd1e7bed537a6a341e0fd360879b5a9f0667578e858a29ea7e367693d7e520e5595c6f2b994108409027214253a1e3009),
  (0x2adc3cb260452c95201cd2706589c16424dbd053f5191612ada621f7cd00eee9ccefc20cb3b6b545e8d5c9a6cb9ff2b4bd1a2ed7dc73f9e4cf38ff32b0cb9, 0x544529a8f2c716e70d7d2132255bd556533c464fd0b99001b668799b59e4bf03fcc0e1d67c9d7995efecd9dc0858a5816a66107b24ce337405c4b2619afa, 0x0,
    0x136c7af5b0d88900dd115a017c7982249fa7a7adf047f33b23b6d915fd9a61f83829a608666b24870c1e232c9ec04e64102ffc42986027a6bcd11367f3186, 0x74fef31c928b002156b04efd8078c99a7296600977b98fff0aaa3bc95321917512ed8061b9d95ca7bc2eb56934c82b97c4b9f7d5048f04d53cc638029d6c),
  (0x685f8cceb099d76952c4356d07180f9054e33cc3edf9835fb616d943655fb8e23ac96ed2941fb03757a410d331f77229e682c354976e1583046cb74fd, 0x1ea9524de53fa0f9ea41c7c01c23743a5573b58f92985d1ec2eab731f2a6b64eae5dfb491dec4a6d45bb829f38be2398313d55e8a2b4e0471d75eac95, 0x0,
    0x2aa8ed908cdf9d1f46e11cfb5d9f59024090046f9cfe3e42340acae53376131e4bd56097dc4262dfe06c32e9cb4313f53c57abb15bac2322493a79923, 0x47eeef8a8cee9690cfd799e8d7de12f03a502fbd7fe3b1960b0f2217ca138e9f3e8b711c7b93bc8e18ef875b2729a8ca12f118e83def21de72553dc76),
  (0xa6ff47b11a8fbf0eead388ae71c018e6ee3861397cc26bcc568af538a23257e70ea079940572370a98a6455946f44a876249f9276d7d7c6ad328e6b1, 0x89fbb12ad7eeb44b919e0655e94557cfc03170e41202ffc896476571777ab10bac442f26600311a4224fa7e4d0453f93e9643e1d0426fa33ed0c08c9, 0x0,
    0x2a7a94eea4456342951d9ada447759fd3c59a194f021aeb00cb91022a11207f670386453c7d779d052bd9fd06c0803b35d077c806e778db5d589a988, 0x6e0188f096d244b10cb08b405f4090ed50ad77d7a4b4573b4fdb1674e037b068d0944391d67d19ad5cf512a6c4ab96ab4834d2b66290dd551bd42729),
  (0x33c84d8a3a656177f50869db8805053b01b42401eb28d13f33949dac9d3fc5778067fbdc8a560ae2a69f18b7ff78f577a76da0f37191ec3c59, 0xbf468c7e123394fde553ce335d5f1a4fe265de649227340ee1e15b77f0fbd5eeca1edcd9eb7ba95a3afb36e2e4eb4489af473e7648d1052f9, 0x1a59f86d21dde6de8afdd9dde2171f9bfc6e4e23574f26d4a7ee4b585ffe812b189afd3bae7e9d72d3a9747de7138c2d5ad19974b163c4e4ee,
    0x2f42db56813eec3c9e2d8275b0ad1445060b7dd120041c3173dd55bc7404f92c4e3c1e4acc1b9f1d9c2aa6b32b0aff2bd74ed94e3b37dc3264, 0xba2b88e84e411df77162ca3b9f570995a3541dcf8224b5c789a8ce56265d4842c6ca218df805cf5e627698a3821ffda1b10f3b88da19d9a02),
  (0x368d7ce1b059f2cc555e326af68a079e081da56835e5785bddd89dae6ceeedaceb73079755069c9ec9a5802c03a9d31dfbb0b11b0daf2cb, 0x1b4bdbed6aa42504c0af5963ce5cc4e7cc0e7c55c6b516629a3954007fc7054b72003234be935cde2b65c95bbc230040f9cc21c7da56ef7, 0x8d6c36b73076e7160b530d7ae7f6506a8c9b99f82bf8ed7b2da20c09517401c7642be68a3f9f54ba55f9f6e7d3f2cc9a30fd5541317531,
    0x14739c862cc68f280344da1775b78b1d2c57685112c6fda38fde5d7a472d7ceceebb6b30b188090d94d6d2783d1251445d81311e64dd1e5, 0x361d6d5d9a4b358dce9f59e283e2629702f29048a8bd91c933ba2e8ec3c2e936b71b120599aa3f15f84a5d55c69cf7a688d220c0c752e15),
  (0x523baa5ed3cd5476bd6787d951271ea19367e0c508ad1e49e5b7ddc544a64bafbcf5a4796ad4a2a39b49ce9858baedfe2693e4845c1, 0x0, 0x3fcabd528ce8d2871fcd663596e5e2828b8bed046b4ce636dde98e9308ad29ec3aad2d946c358f28e11f047ed5806f8fee34452b754,
    0x2d968e7dfbe5319bbe8d71ac7df210735d149bc757d766457681601e2624e04cdec568db2b0960e0d01a10fee733143054f8983def8, 0x3d05331194c828ff1bb4188dd8fc920b647870b488879d030aa68ea7354b48e57a1a7d834eadbd77e809c0c261671f6a8ef03172e6f),
  (0xe2115094d619e2a0790aa9730e5ea2e15029c2a66f8b50fabee9432e473cfbc401ca14c1351cbdda74da7cabab71f1ea59c39cf, 0x0, 0x4a07b245df5a3c8676c0e5dcf36ea380080ef3f3dfc6e6dc88c225e249d2448dd3b26790cf1fbe4af1662cf7990e6a5d8933add,
    0xaf1cd5eccac180dfe7835184c1ff51e5370952b18c1a63d1368deddda33dacc0417f17e9ba5f577cc4b1b272b0a7e26ac6f0f4d, 0xa1f2588229cb0c71e04c1b229f89c9c05bf884ed25d406f4b93e6fbab1774cb52c9d570f9f1e5c065eb08e48d67368d433f214),
  (0x14a1d02e81e7b5cd3906a437e6379595db1cc7865f3b087e2f5bdbec04de1c101a8c3f3a2785369c0473010922e720e52c1, 0x6023b74fa1b33717587437eea9068bb65070ced52b64c91cf82855173be00003ba2800ab6897deae2ce5714e8f53c54ceb, 0x29e8f77211d5710e24bf5d1eecfefd37593efe0c7b1e3e304883d0025aaee1b556e3417912d2cbb7f0f9a5ed102cf6d52f,
    0xadb8513436dfdc4bedf5d98b44705aafe494fa8cb74c1b883ffdfd2cc5562c076346250edd1079767c05b83f73f5cde46f, 0x101b33d22a3cd72105c24301ef941c435ed3712252231526a19d0e6bfd49409401d09fbbda6c51056615ad7c961b6004784),
  (0x27210ace1518ba318dd7e878798d3e2f149234bc1adeb9c92adeb23e2a28de91c3272bb8627de8bd176ecf3c805d4df, 0x1625e09c66b903b2e0eedb1bdc49b4ecd48d4b85fae9dd6c4c5dc9c718d082c823b25344cd21841634d6ab03e4c7b28, 0xc2b6f7cdaacbfc665eb6d1dfae5871eda46d53bc5d2e20268dc8fb08c56e0937c2335d49bfd7da6dbc3610b014f94d,
    0x1146b5961e0930940bc35f539f2d592a6c88150a9196c4d8a1e66b4b054c4eb3f5c88ddf445cb649378eb5e06e7de3f, 0x15de266e44b11599054aaa5f76eaae10b555b88b7e168c6a2bf0db9928c62497e10b971771cdabf623fb56a82ca2bd6),
  (0x20502a050e8913ad45ff5c772d25311c63cc398bb1c299cbdebb04b77bbe95ff0a25722d3cfcb0990c6ad99007, 0x0, 0x1a55b84124d1ac34f7cac2cb648ba897318264a482c8578706881ce4c58830367d37423fbd2cd84d9db8d3d523,
    0x164da29716f757e636764bff49d9e0c1919ec99f9087f50b70a01b74a400cce0f5de816a1f99c948634a0b0a11, 0xe34a47631d82f8b35b29625081a00e24a221e8d925126c615c40ab0e78743a5bbcd0a10b8eaf416b96086c7b7),
  (0x1a7074b3bd14287542e0f3298e6b75145b496296ca3a81a0702e45a217e5de24d2d0046257181a99d04f1, 0x0, 0x199b19ca3a10d0c067db29ef4dd53bedeb390707bdd98c428c07206420fc10ccb899e244cd9862bc70240,
    0x2a53d1957fc5e9eaf6650e9012240270830c2b765b908cfb3420f22c3f09f67a78263781e403ddcf05a7, 0xa8e97ac5b11f268916d5b97c5314b09ea44b7ce974b46228209aaadef67576703feb460846952ced3e2b),
  (0x1c8f131f0ae301932f657b50888dff017720d2306193764af82d15ed1013671746ae30f09a1edc1bbf, 0x0, 0x15ada25df4ba358f813d2fb4174744fc3c35176276e5b8ca50c83770296755a979f385d4f1d38076d3,
    0xc8b8c48a56a733493f8c76638b0814165ec4444cc3cea05336e5b7e63d5e8278018b18089e19af7ad, 0x926ee1048b2a6f2dfb1e0f745cd0d6b44d8f1bd7951e5a2ef410540195c88b53c17b4d4078e543114),
  (0x5d63eb16fdcd904512b4ff05f2689ad65be7c1f985b710ed0dafe71befdffb992870be6137cdc5, 0x0, 0x5720b1c777668314b037bd79ed16958152e1a25c23154fa3345049fe1d832848d2cad13b7dee8c,
    0x2cc8cbcc59aa57bed6201f75732660487fd784d2edbe8be9913f6b8537fbb9eb19f4587835af4e, 0x1cfe733c92f269327b40e3d06af66af6a1e76551d40e0fce67ca573dea3c06895a67f6457bf280),
  (0x3033921c61f67c029e4ce6b8bf2dbb4558b9ae6868cedfec69010c74b2ecb1616911b8bedb2b, 0x0, 0x27ecce50a7f46a62d47bf6e0f1b8ec287de5ce884a401f74c068b1679ef01baffb4a208de997,
    0x18347ca12d7c15661f8c84e92649304236ed9f9db7b8e403643b019cb32d63d802accce84f8f, 0x1b98ef74f5f4b48a9372819801648d25c5b45876204612670ab45520e05ddf3afc69a042ae19),
  (0x75c4fb0cdfe38f0fc7783bb6f60b01c268ddf30251470fbeeceb512691d29528227ce507, 0x0, 0x1ae27ccd02db2025b863f766e42922f8c06b7322f2e537f86bb93b0751f4fba497f64f12,
    0x66a007a3b7fd5e493c6c403cb4dab517d6b13458b1199cdc7bb4f17cfbc23c7a34ee753c, 0x142fde8e879684775350f67d0a986520e8d4e51175a585eb7a8592cb2b8181b87764862f),
  (0x4c8f847f5521d4eba596c09352ef6e2fac9e43bf862993207f4864eb768a3eb611, 0x0, 0x33de4cf372eece7fd1ddc8412a33283a66bc51d98c64b05adb00299d37eaae504f,
    0x15ddd99b4cd068b2b8e4dcf3a9f698dc63a8bd4ba184ac0179d3cd8307c7df645c, 0x45ec9c692785d4005676f97309110838a50e15a23177cbeb8dd46d71ea89a9fc81),
  (0xa813fb2e63ac90a081a2b37b1c05de955d750aa8a2d6dba47a7053ed83f31, 0x0, 0x1fccc441cc332cb1c642448bd47792d2d0d46f255f68314e0fa7f117c706c,
    0x57544e2ebf90765db9befb973e971a6a60a41d844eb395dfc9aca4098f5e6, 0x6127a0aebabe0eab674abc2e17368c67a68604e6f9ec39de84e0915df9977),
  (0x438c3ff8ec2d3cefb9ecfdc82ea0b35faf86f4af47575396fe78c6551b9, 0x8588ec53a2e722827ee0db519ca4d880f100c1eb330ea08ef0023f05f, 0x14d3254a1ab7e2a242ba7c8252106d8ab0fdf0e64c0ee28514e7ebe7517,
    0x1fc11f48b0d2ab5c194e8bf28c6a95de0e835ee57666629a9dc55620d52, 0x3d9120675669bf130eed353c869701dc380b71efdceb8e074c6e253c249),
  (0x18a5f029920067f92643bb3a61cb4d587c410f5c561f8336b918a1c5, 0x1eff3b7c9e418cddf9a52cf13e36ea4b399d243212253d8572a9091, 0x0,
    0x2bcb298b89e586f98bd7ee01f2a6c419536c0fc4b229a2241443115, 0x73cafa78d6eab56fdad316950fa5225556c7f916adf295ecd44b00f),
  (0x36007000718fac3394fa246480663653830b94f9d30dff5, 0x0, 0x35071f994ca8dcd3637400c0d2b73dc561f08add95572ce,
    0x11c308a97eb58bcfbbce3f113e65d1e24ed92524fc7f740, 0x164e42d2a87c08f1350c10b70a614fba96dfc9787af2072),
  (0x4f5083e747144e2ce24de2cb2045e7b6f23b0c3ab, 0x0, 0x30d5934c4bce126a6bcd8dabf9d398480cc2ff522,
    0x38396579677a868c5d2e12093eb64d2b6ab33ac4b, 0x41da9c8dcba75b5af09511118c1144735c7eb6c2c),
  (0x19c24c73b5542228656d4b5b90aa9fca2b8a99, 0x0, 0x13df67b7f3329ddef892d82decb1f85cb0e424,
    0xa6b7987d769f03a4aeb9f9b0ac0a52f00ced8, 0xe48eb143ba4bf0276f8d2bb63f27ab1475632),
  (0x3ae0aebf55529737c3576e9f52c95595edc13, 0x0, 0x6df1d119e2a0e9adf021bf57a958a001ea0c,
    0x2ded6b36b3b5e7f3e6f70a5702727dfd791a1, 0x1906d04d8fae575dcf5e69d98be9a05029e5e),
  (0x2c39475ae49ce44180a590d48a55cf5, 0x0, 0x112b672ff7866275b2279f861fa0df6,
    0x160f461bcdf5ff45a1170fd5def2279, 0x5ad5e67cb42e28bc4e13afbf04302c),
  (0x887b8aca10f1e3c6f1, 0x0, 0x2d3bc6969028292e9f,
    0x7339a6f9cf39da8e98, 0x475d1c99eefeea6335),
  (0x1a1f9e8be5, 0x0, 0x8609d25f4,
    0x12c1f466bc, 0xd7e528ff7),
  (0xec35459, 0x0, 0x168731,
    0x43abbd6, 0x65182fd)]

private theorem BrainPoolP512r1_order : Nat.Prime BrainPoolP512r1.n.toNat :=
  prime_of_chain_eq 557863 BrainPoolP512r1_chain (by decide +kernel) (by decide +kernel)

theorem BrainPoolP512r1_checked : BrainPoolP512r1.Checked :=
  .of_ok BrainPoolP512r1_order
    0x226e6a9d72b9d0c81333be32c3e14d3926125dc9b29be01b074450a080a4e3d96158da1e206aef67570ae3a478c44cf4a500324933ca252d4421f98f03ddcf6c
    0x678d9172242aec8173fc7b4319a383fd37022aa166a12d1f4f8a188aea35415fdc0b9b5471256e05a4b9dfe861dd519aaddc97d7eabbc4e5eb997a5a459ed81d
    0x25d12b049dd7ae9d437ea6e586d49f99aa7d1485916380d99019f452890eaf4e8ef92645516e0ba5b48562aaec5f90a1f2af3521b3691f32ed74e7897aaf9c72 (by decide +kernel)

theorem BrainPoolP512t1_checked : BrainPoolP512t1.Checked :=
  .of_ok (by exact BrainPoolP512r1_order)
    0x913da8aaafcfaaf79aa2b772c474b6e5b5ee1dc6086756a312a866fde8b503ac7f1e2082052301c6bca934c35813bf6297e00b1783f60184ea7b6efd18f322de
    0x6d791ccfaa9e3466044ad9d44eb21075e1b426bc5648a393f9316f3346a8722003c04567375153273373cd2bfb16671b2b1c272753b1196956630098f15c0783
    0x94ce7d7b52e81cc2e3ad8541def1421e012bf780d3a86ecae988c285c9ec39d10c9c821b92815dbf4d8e63acd915cfb61fea4fc1e3360b3b3dd65c6bf2ddf38a (by decide +kernel)

private def GOST2012_tc26_B_chain : List (Nat × Nat × Nat × Nat × Nat) := [
  (0x800000000000000000000000000000000000000000000000000000000000000149a1ec142565a545acfdb77bd9d40cfa8b996712101bea0ec6346c54374f25bd, 0x78e84891d0e7bc101996d929b91b123ce8d09a1aa626e89e3f2386d1b9181b905a1c41e262e4f6cfbce0469fbf3ea8ae73edf70f84cc8389975586f7fda736a6, 0x0,
    0x47f58572abae19966527ada5fc4fe24939c1f0e53a2299124925e04422bc812b009e8af71f7d18affd8e1f6dec6173f9f53df48e654d433948274590455d6309, 0x5eeada455d90828b8ae4a3d1958273c0dbb1d9686a94681235dcd0d9500d9d6aa87eb0ef2b7edfd42bb6d15b2afd4041e6534bfa258dd295c2e73e728ca1fa1e),
  (0xbdc22d2f0128ccd9870e1c44c1963ec345385697c87f22770b108e83669754645ef8e5e05e1c107709699fc203f0ad81141f8f951fb970ba1, 0x44f802923849462532fac36e935912ad09851246b95a646181d23d57a754fe275122c23cc64bf0792ec72023fa5b2969eddfff7c887a57a7a, 0xa2224b94ffda602229fed018f8dad65958faab04e3a0b63b153c7350b8da2aec8be2ffeb5f4f5df2ee4733161af23cbac39f4dda623dd44b7,
    0x8d745bfcb52f35b76ac9336f7884c77812a4f7e443199bc470d50a9e48135e0f89ec1dda28bb62fcc28b398a62988dfb08df2380b12430711, 0x158616fcec301c6e5502cf6a75fd63478ae983a718228d54d1e30fce51e4b8eb8b6a9ee915c7032f531b2be99f0387aa0edfdcd7cfb00f746),
  (0x3d06b5e1cccd79b532b496f58d493bb81dd5734c7af7cbf1e6b60ff3e35cdffa19e41cb0edee2026fa2a357aa70025e6deb44db8d29f, 0x0, 0x6caea24039cd344a9e1125ae180288c950439de9b6508fbaf390d337297db7c3d3e0081aeb9570827e6edadc147223213516973265a,
    0x49fe63000ba1b5803b51f8aefcbb3e1f0e0130877f030842fcf20a9139c3412205090d1fde0e6bd0e9edd4759d6a657ad2596405c34, 0x3a692a0d6f2088d9cd6dd8734bf2aeef5f8f4379cb52f3f7e02afccf8d2f9ba33aef4791f94f29a1c10ff6b72409f3ca5f63756178e0),
  (0x635d09b27571daa210f8e9771d663a1de342a43152d2055cafb626d760be0104c4c28e07511f7e7c1d0880ebf7ef93397, 0x18e0e94873ca198b7ca7458af31cf1362d784af8e2dc8131772b7f21ba659c229a17a348c1365357efa166e4a4cebddab, 0x59c7dc952976dda0adee4038e68e9064c4cd365c9e45b884d6951d564137737134544ac832c3c0ebf8ccbdc2852a974f1,
    0x2cdb6e2e23cbbe5b0aba7b9c886990723619901bff224cf2b5d35d24281c00497ca23fbd3190fc2f985f838bc25f789af, 0x15ea3563482e7329692b4f8812efcd018bfec16e2e2c99c67291f6074565a472d692daadaa326b05c28dc344d6fa4f0ec),
  (0x53aca9d9a644ee01bd734b56d5638f4196f4c029891ca63303887b16d25a141e33a602be78312247545e0aa39f1307fb, 0x0, 0x387f28e564fc9a073d5f284aad3315c24b7e2e3e08a4d5f1f73b5089dac2e6d17bbf2ff0b6e28359b36ac1f536a56ec5,
    0x382ccd8d3951c26dc9bf4763a36e7526f1eb1fcc227adb51e973cdd8783097c4885aee861767fd554af828bfab456ee8, 0x1fd8d715cad14681c4160bccf782d6072b92fb4e177d18ade0cd29e39c81878e566e037ff89084287e86aaa226bb77ea),
  (0x18c3a470db46929b0b3b27f2d55a6837832aaa5d1baf684d2bcdbbbb008af0b241bf737a6be0679a2ea1964cd, 0xd73563ca4f5009d3c25b87b54258cdac3663176a9d05be7786cea55bb5e88d9c56009f922b8940e87872b5d9, 0x336c4b44ed604c3ab4e053db8a9b6a76ff1239ddca696a9e14dc43599cec30edf899cece83827769694acda6,
    0x1879b88714b657d37240c98e6130048a810223df498c71221e645fc723d7b1879db8029c2fe630c182fbf0c25, 0x634aa4335cc1a8c297d4e82368a3b5ec9feb42c27cf7484463660e225683c19f528cea7c7a0a13b145b3a233),
  (0xb019e6b0c1f5d9a3de1671697b667351dda12d40c4e03a29ae3e9e5f1ca66c5dea14fb7776deb184ee32383, 0x937538c65780f9dea115842467fbfb091eae53b8abd3ba264646e22607be1e682493f2dc8bb966bde597cbf, 0x741ec4189699aad1dbdfd3126e9690dafa60608ca24fe45457c3bb3c6b9c0d1984868ced7bc1488bf1ce8e8,
    0x98392141d35cfcaaa07661cc4db01cd4a013d070fb16789aacaf3290a8476c259393da07be374f3dc3f0692, 0x641f238484ea1566dca9a0fcd516913964dcd4d715bdb45d15e01aafde8a86ab135915e92a6916ece06d6ca),
  (0x1bc665c31c926290dedad91d0692abeeb29bd35b2ff3ca4d43f9da26beefed9e9d8a055e945dc1, 0x54e62849a4994a6b03b26d49f4bda466a1f5b816d8b414f0c9a779b5024325177e7981c267209, 0xd81a6037ec84fb0b5937fb83a9b01a8d2042665aaf61da3578f384a3dc0a38b6a048f1865c59f,
    0x183f21e432fbe5da3a6e2a27912497751294ad352ca5675652016a90b548c932f3b8a4189bcb9, 0xa45836aeb01d7c3a442fbd6a028203a4468da66fdf58242896736f6ccdab83170b07a020f8a40),
  (0x1310362fde760af245cb9c2396fc2f478d0103ab4bb301b6c50cc4bf543d6acd7c1085d1cb, 0x0, 0x11b01603abaaca4a4d5af167806963d6168c6dde8d43499785a758a5a52f0529264512ab41,
    0xb4bd6359dde239c4ba9fd19c2356f550d6494fc001a267aa9539e602d525a0ffb69e2f5f5, 0x36816fa85b2de1c44e6dff0a17bcbddfcfe8f5462d4a0d7660a57175e201d756fa7b2d754),
  (0x65bd6a9091fe3f2ed95b8422d2331175b5c472fce38f9b0f7129c61cd7fc889, 0x0, 0x773847c6184403690bd97ea2e6bf4ccea81bdcd29cf7f26bee50dfc652a7cf,
    0x1ec7b1969607e9d9d54dc71797022a9bebdf551674ae6a564fdb192e707ceb4, 0x155ad0bf81ab028c2a47cbba385eb1554ac6e6663f912383d6e64102f49b189),
  (0x2f397b76c45bc55e10132b6003f379830de16bb346a9a4a80fc660e3, 0x2acaed0f3e2ad406bd68be8bfef20f014eea2771733300ba6ed0c2ee, 0x272e691e5743d5cfafb9695832606df306fb91e4a3c779d6210e4b78,
    0x23e94bcd7b194019ba518f5749b1ed06999ded5ac2260e70ed601998, 0x6d963071026633574d729bf49077e5a26a821a2f8ebde00408b7642),
  (0x84ed3cb258967cfd39709e3684331153373209951eafcf, 0x6fd96c086046c316f8dc3bf9da90e97e29e9504002f4de, 0x77597e4171729349f36a87799e95eab9f51d67d3fab95f,
    0x806c780bfc3c616c7793cba93e88dde13a982d24f1230b, 0x5f2f742fc83097a6d2890b5d1239452ff3d6ae272861f0),
  (0x6b0e35697ebbdc7565d8533875606d405d15b011, 0x21044ed888ea9befb27f43817be12b45be7ee7b8, 0x0,
    0x5a202c2de8d8026f81345b5aafeab9ef6ffd2476, 0x34da7276fc71b35fa3f92da5abec57789a78fb87),
  (0x5af997669bb5f337c97ba309a3d331b964391, 0x1ae47f5040e7c885b5b50e238520d9f676965, 0x0,
    0x19f5614004d902d2ed2d73bdea94cfff57441, 0x139c54e09fc1fbd2af80b5c836d2dfc12f26),
  (0x734b8593c7defc7964ec0108b3b4bcbc429, 0x0, 0x3cdcdf30434a8b1c31ce35e604b632371ea,
    0x50b4c984d51a943d0e912d9a4d44d454483, 0xa0f24aade8240517e4e1df4aa4b6ec6a0d),
  (0x1df520000f096e7b2229221160ffad, 0x0, 0x18346b0d16dff898a8d2c146f415d7,
    0x9e8ee6fb49c3afc8187c5f683400b, 0x1da953b46737b20421f78610009fec),
  (0x4b10de29d0d3c49d1dbf5, 0x0, 0x42bfab48327f3294a6c5d,
    0x3b77af65afe59a1d07b4f, 0x348e4a37b78d0f0f326f4),
  (0x3ddb7aac4ab7ad59, 0x0, 0x6d5c479aeb55518,
    0xa9de8c7a7129cd5, 0x5333a8f887f003f),
  (0x1baf4a541, 0x0, 0x116e243b2,
    0x1583bf007, 0x120d6dceb)]

private theorem GOST2012_tc26_B_order : Nat.Prime GOST2012_tc26_B.n.toNat :=
  prime_of_chain_eq 284839 GOST2012_tc26_B_chain (by decide +kernel) (by decide +kernel)

theorem GOST2012_tc26_B_checked : GOST2012_tc26_B.Checked :=
  .of_ok GOST2012_tc26_B_order
    0x573c085bc05e3b738ec6d390beb109ee6e2c7a19cb1232454953306262f712835445787bdfa660034940b4ca8e6e069589abb66525ec1c8896719579bc990a19
    0xeef7568604a870bf432ae109bec6e9a456b4c7a1f207c0dbc5f24585c7a946ce9a3e35c8a6bd4db1ef1a6c4255b12ff4ab4c4af3f9faf3b29bcf1481f86c8f5
    0x4dcb443d0a80dab3d7d1648928f8f272aaefd069d34fd2fb03a2d30899806d102555f01cf0d6929e23bff1531888c9b4dd6cf3133e3d4636d6c0c2f6d00917f (by decide +kernel)

private def SECP_384r1_chain : List (Nat × Nat × Nat × Nat × Nat) := [
  (0xffffffffffffffffffffffffffffffffffffffffffffffffc7634d81f4372ddf581a0db248b0a77aecec196accc52973, 0x5afca40a00b1971485faf69f2f1458d1a6fef2a85bb5efb32584a8e861872702c3f6137132b02d1f2d56357c7ee19b74, 0xbad55afff40d8cc9cc2538bbc5082146785e0611f8f710f9c804625e5016abea1b0822667f35d340203e1154c4185cbe,
    0x3d589da2b112978fa94008ff1c97e8578a80739e7c6889e5dc8fd2514ee704c991efa37ac3b76e7f2ae9787a096f6132, 0x63b26515fa4d35cc448e18ae3602cfce76c8bc2d07eaf2482dcca93d6aa8502bd1c99d42321bbd985993e1eeb15e5b5b),
  (0x91b8693991f99613831ef56f44ee4e38ad9939942f08771b58bacdd63110452e58960ae25b7365330c499fb, 0x67076c110d0e18ec71d77912effca307550332501ecb46f5af2cefd78586c04fcd858e2e4b68dbc8d0072d0, 0x1ac79634e3f4ebc966bdb45b86eec8ece9e6ecdb471dc603b952836e43dcbb4514efdecdf7ddbb02a7eaddb,
    0x701caa0069950ed7502eecc140b00f11086e0e1881e125ecd0987a0d6fa75440d0480108ef3a9764b9c616d, 0xcb7aa92eafe48d781ca12ba93a5cf080fc0f7a4aaac915e7f2618beac92d2691a87666d0014f0c691e56f0),
  (0x289ae34e75ec7af68d7b50cae98feaa3df4800548ae3bfcaec79ff207f2226e5496b5c5527e3d, 0x105feb73595ddcfeb137b98856117c362d1ff8c1c44c61b53dba76931d1aff49bf9c2d952893a, 0x15c29296007fadfc0552f24b45a49e8cc5cf48efc7f4ad69fcc4c0b8c0fef42773fb98d1f87c,
    0xc59b287c4a2e97251b5f97d107930508c1135db18d69e26fc26aeabf4a9a3b7c04e7da4f98ac, 0x3bb29f9b379e27a8cb550e83e8d55e34cc547da2103e1b32997ff7b0cbc8ac81b1d11595444f),
  (0x2267b39170c97a52a4470f2a32bc91bfa62f5f8d6dc1d96b2a01afca84cdf92375e0aa7, 0x6e09a992bced058f7552cdee5db18f4716816d74e81ad3f7e5e25a1b111202880784d9, 0x214e8fe1969168783bbd3f9e1321778eb28136edf223dccef879f5df910d9c39988ed1d,
    0xb5d955384dd6ff1f7d1bf7bc5961b21208e416edde169ca85529881742b09c6298133b, 0x21efddf77f01cafaf6751dd1e0d6fe205987665326e5744a7b3271590eb407033cbeb8),
  (0x8cf20cabae26b5b54427a8a1cb1530aeac50bd32eb5a680b1ce97d0eec7631b, 0x0, 0x81b77b50252cdb6127a1851053fcad4957031631020a9622e53f154cfb7e941,
    0x2f0df4235b7ecf8fc2cd002e358c624dbebddbbcdf48b71af63df61d8fce7b1, 0x71a48a7cbd93cd29b1d880442bf2589573f9069c84a749257f0ad0d212d03a2),
  (0x16d547d5811905be83a65be00d759a21c47ed88fb24f83a99b5ff853601b, 0x11b80b7389dbd9ac79b408117da53bd99c02a7c9b404f245e77f450d96bc, 0x1280d6776120a1167fb143c4a95456e74534507df5bc4a49acd7e777d234,
    0x161537405dd804a73888aeea147c5e0f8e78576c87f4b70a8795430a6294, 0x14148567ffe50675222876d63e7c140f85d16d9673a4afd6c6d2b0340218),
  (0x9d26a804c2e40859244032c2affaaeb6b2dbe8e86d6a2dfe04b8eae5, 0x6d31f5bd7172422719e5951cd12923cf64009773ad3d106376239877, 0x4c3c8a181589a5c25ea2a96fd2b726d9da1107104962fb57b87e028,
    0x264f57b4b7518b2660a0b3f0bba960cfc619c75bb5ac3693cb65b8bc, 0x327883abddba8612146d43000e88c34c3448de16e76957b63f89c85f),
  (0x560aa7e81109c00bb41b9b4144faef2e0d797c88c6dd9db441, 0x175b149f1a8b4d1a4e62220a2799369c2bc1b3aca7c0fe68cd, 0x76143f75417f8e8642f38bb04b92a6e84b662816e7b5e33d9,
    0x29c034d585946be04bf86c015142f6bfbbd837342e9990a358, 0x5371b33f95ca89038c40641f254a33c5552b451a3fb315c0ed),
  (0x48e7b04eda3a60dab140ede8fd07b4ece25a2349c81, 0x208e29684d169374a53a31b44a0ac0ca0abf21a1d86, 0x0,
    0x389825b768acc7083b9cafe072da48099ae46619c68, 0x1eb83b58b1212d349726f5719eec128eeacb3c241b0),
  (0x1239ec13b68e9836ac503b17a3b58eb6227d9ba551, 0x0, 0xaedb4ab3bdc89ce287112e3e5cba483ec1a45ba0b,
    0xc7f0883576ea3ffec5fe7b2c71a4f319b8be92fa5, 0x101e5f3ac85110a26b95a14dfdabf1e7848bb466ab),
  (0x4e4775bab81a893b0c48852e6a3d61fb365bb, 0x0, 0x49f1325c4522239762b4e523b58dc387eb774,
    0x46655ca8790bc20910dca45b81f8ccea14761, 0x3ddd6ccb804f849c08597ab0bbb98b1e5a8e3),
  (0x219f456b89e16f9a930290da097e7f663, 0x100fe79cd7a1d0127a84e04dbc5595317, 0x11464d3ded70a068f504dcacb2061942d,
    0x1ac1508e4234938d8a18f0430a352a069, 0x18f00b45aac767862d94c5eb0be15ff47),
  (0x10b2c7aced529acafb67c0e2db, 0x6834f6330c3530dbd0afdc74, 0xa9cfd44d917736d53d2367641,
    0x7b9e71bf39a6cfc3e854d7642, 0xf7061e6d10b7d3c66aef43d08),
  (0xa180be4c106b904c09d897, 0x3adbba902f8821f0683108, 0xa00d36523e6b8ba75557aa,
    0x9aa73d89ed386deed6d8a, 0x62e094c345143e44b52b95),
  (0x6182dd291876dff4fb0f, 0x5e8d31f4ff6db16a094c, 0x3373f60cbbe86b659dab,
    0xbb35ca301af8e5f74e, 0x4e8eb88ad71dcfb9eca4),
  (0x109ea7e90198db8d9, 0x0, 0xb8002755c26786de,
    0x89e9508bf9ca9e0f, 0x601b21cde78b21b6),
  (0x1478ab0a1f, 0x0, 0xcac3c2a22,
    0x10883f6027, 0x8f82dd088),
  (0x24a1dbb, 0x0, 0x157c500,
    0x23f6b27, 0x1261d0c)]

private theorem SECP_384r1_order : Nat.Prime SECP_384r1.n.toNat :=
  prime_of_chain_eq 41269 SECP_384r1_chain (by decide +kernel) (by decide +kernel)

theorem SECP_384r1_checked : SECP_384r1.Checked :=
  .of_ok SECP_384r1_order
    0x95adec811ebe8d4b9e2b41150d78f91a619189a415583b8f5e01888da3353b61765cde8cd6c12846310c3f0c10aae682
    0x3581b884702fb0931c541a5cacefbe3bea864db86e01e048170560418dca3aa8689f246d9d11ccd2e145532dd48491af
    0x4efcebfdccd7cb25d1b864228f0c32d3a83ec026134ae4753bdff5d3f1fa20b278b31dc3487beb792024fe436f36b43a (by decide +kernel)

private def BrainPoolP256r1_chain : List (Nat × Nat × Nat × Nat × Nat) := [
  (0xa9fb57dba1eea9bc3e660a909d838d718c397aa3b561a6f7901e0e82974856a7, 0x0, 0x1836863488e8a61952e08084c54cca18cd7cdc0667564916c3c619dc0ee142e5,
    0x3ce6178a89526716da1753ceaca0f57fbb149cf64c1965ca4b9a9c16d8eba7bf, 0x4583c21a3e6b3510ee2e704cbce8a9f36ada92c4d53fa11d077b4f0851fb6e32),
  (0xd25ba4f65616cbdffd8ddc15e56b7e5335fc5ba8a6501e5ca47d382e746d, 0x8a0feb20ae3ff411299a3ad76a25fb4920dec1c111cec13833e09dadecd5, 0x0,
    0x204092c08162c5df935b251a0bc01a0ed06c95b9aa9f7adc2d6c89d81866, 0x36807bc281c76f493d135cd85c4034d4d11dd1bf84f4d52674eceb137e37),
  (0x3b18b1420b1f3252737a847bdcb86dce2549b1d27c964e2a5a339f781, 0x32028fe71adc475bdbc97f7ec137e2d8ac9f363ed642c7fc58a991a8e, 0x0,
    0x1934132ab5c897f27606d6c22af398b89c16b6d597f6df90775efe2e3, 0x36350bf383809996e5dbabf453c1302becec414c1ee8e680a1b0909c0),
  (0x2f46f434d5b28ea85c6203964a2d552b42677d178086eb328386debd, 0xc1456e9caf37a1103a92800c99f851093c020bcb812fff70117da91, 0x2b6172ae6ee37a58f0d9a970ea6a0a340e28d962275de429b8ac78b9,
    0x4b46d9b041c1df8da16086c7da28a6e4ba754edc50b6d3f3e7cd428, 0x159f26060159e8ee35002cef59af3d60d9ffa3a3a6e9f1c3b44d8d25),
  (0xb94e6a955cce8ef4646917fdf11de362a687d1c82b, 0xa26feeeb50ee35d9b7c7be74fcdd6d68e4e6944e5, 0x4ee1b8d5b7e1a0897a7a5ebb1a715faa71363db338,
    0xaa0f75f26058f27d4407406380c05879d39e4a0fe2, 0x14091608cf10ff8950a2f324bbdb32d503dc3e0fb8),
  (0x117456edddc5d65ff1143ba9646d82652fca1, 0x0, 0xeffe81b1db640c6eac4399a5d380072063d8,
    0x11416a4e002835c3768649cbc0a0c7e12b83a, 0x3e004ef92fb2eff6eac7dfa4790051608faf),
  (0x5d1724f49ec9ccaa5b5242c5346ff540d987, 0x0, 0x46ab00abda33e38f4635a07081ce39a7f19b,
    0x3066c1fb6b1a86e757e5cb4e293a6e746a32, 0x2a4748d174e89a9f4b632174fbc5ec971c57),
  (0x4f760079bd34bc13d7031de572b9f25d, 0x0, 0x5495b0f63e6fe60df958bd2d200ab61,
    0x45162e7cb299de69bd71802766d516c, 0x38218928a2660beffb86c952045d1784),
  (0x2d4a86794de3c2ae5bf4ebafd, 0x0, 0x1265f757d9bce66796744bff4,
    0x1c5c0467d02c2317af2f33bfd, 0x44880485e540f47fd14f4652),
  (0x41aacb96cac48db, 0x0, 0x142d0a733d3da7b,
    0x3464ed7cccf7adb, 0xa694766ae92ff6),
  (0x17e9b649f8085, 0x0, 0x32a408a4b60e,
    0x29f19ca6441, 0x835b7f59819c),
  (0x5eb2b4b3, 0x0, 0x2c41936a,
    0x33e6529a, 0x1fc29f1),
  (0x1209c73, 0x0, 0x1040d73,
    0x226847, 0x1029cc7)]

private theorem BrainPoolP256r1_order : Nat.Prime BrainPoolP256r1.n.toNat :=
  prime_of_chain_eq 225241 BrainPoolP256r1_chain (by decide +kernel) (by decide +kernel)

theorem BrainPoolP256r1_checked : BrainPoolP256r1.Checked :=
  .of_ok BrainPoolP256r1_order
    0xbd2b7536d35a263f586e97f7b66e78444e69e617ed01536e0e87bd07853b82d
    0x50d896a99b7d30af798989c75e0120eda56c0b7b8e3a43ee036dbb7c8a5aee5c
    0x7eaeb74aa0bbf986c92d07761337edfe6c056bfa2312ede766b220ccc85014bc (by decide +kernel)

theorem BrainPoolP256t1_checked : BrainPoolP256t1.Checked :=
  .of_ok (by exact BrainPoolP256r1_order)
    0x7c040d51910b65e8a0c07deb5410fc3de1c50f13531d6dbab9f5ac754a8fd257
    0x878d931baad71d475d97c144a9284824e4ece9628d9b942ce27a09afbbb95b7a
    0x4c9f11d0194880836122e455b7bd391d728a9df14f01a01607048800bafc6ff1 (by decide +kernel)

private def GOST2001_CryptoPro_A_chain : List (Nat × Nat × Nat × Nat × Nat) := [
  (0xffffffffffffffffffffffffffffffff6c611070995ad10045841b09b761b893, 0x0, 0x652fe7f2b692790b4783461447039ab976b2f175ed17b4bafdfe8194825fea22,
    0x56c52d0efb3434ede42bb14befbae211a0e0b65e3f060b43a0ab6c9495488c14, 0xad1b3a98a50a42bdb12e7522a061939a53b78dc734238480f2bdc2a1f4c83c35),
  (0x1904d515a0ef638ad4c9374d161beda50a33a2ac216ab1d999a83ee3333, 0x15d80cdd1d6400effb578d372c6a647927a30e1d023a677850572e6b131, 0xba47a9e7b495aefb4e017cf6ce7dbf6edba2a976f966a7eeb8e15a6a11,
    0x4524ebdf38a2d9051c58b7b25dce564acf12c3d7fb4a6ce94d623b1a56, 0x1423de5d424baed1e764d66af24f76398341b03325f17f13ab3d3cb0c9e),
  (0x7fc6f6dafdc0de6173bc27d7954e2e15328c0970edc87feea455f4ed, 0x4b058a1158a68c8954869d131de99310c1dc1a46bc50c737865f2570, 0x3ac92675226b4a7fd59d77b79cb3e17a7c66eb515abadaf35f487c31,
    0x77f9fb2c09ab36b11a79223b85e25a28be4f4a3d048a091bc487a782, 0x293fdb2cd620cbec43cf68da6e639cf4c6232023647c35e2e7e276ab),
  (0x527c7ca8a4c73a62a83c758c94d52931e7bb5e85f02af502b67ab, 0x0, 0x21a4017ad087980d951eb04d11e4af2069af313c7d99b76135ec8,
    0x136581af62f8173231b178b054eee494457b6bc8559cfba11af89, 0x36d1efacb450a3c829c1cf87c6ba12c517619b40d133ce92c340d),
  (0x94d692b9e96bc076c4a82fc2d1fe9ba73c3f834c78f1, 0x0, 0x38a6f5cdaf67d699da237a6d773bc1a42b1097b4877a,
    0x63cf6533bc3746ccc0b076e864bf8d2fa90709ffe4fe, 0x920c1167fe9e189efa25c80098461764ac768f538a1c),
  (0x37087e21a5b510283c0c2134da471838f11cea1, 0x0, 0x2bd36e70e47d2f87961cb82ab9d2e7685097f9e,
    0x13cc5c456a924b695b593ecc329ae9063c43867, 0x166809c5c5581dac9b721426be41c81672201b1),
  (0x10a3a83fbf4b9dc385d5bca4217917, 0x0, 0x77d63884249aaf17e030d4c5c59b,
    0x6de62f6df9f38a6eb8ea89b96875d, 0x49040ea14f8c0d9ce2f9334953f6b),
  (0x9e60c5cb0bf79fd87062a6c21, 0x0, 0x6fc2a80b3cde0afe4675d2ec3,
    0x723a1ae0f6bb21f96bf02356d, 0x78aea8edfa61f687b7720cefe),
  (0x32bab043b9c5a5a8a57, 0x0, 0x163523df2edcaabae36,
    0x1d7bbccb3466624cb99, 0x723aead60fed6bbf33),
  (0x2a3506f98a76d, 0x0, 0x6ec679aded98,
    0xfb084122148e, 0x26a4d1d4197ab),
  (0xa9ea61b, 0x0, 0x66b6c34,
    0x885505e, 0x9381646)]

private theorem GOST2001_CryptoPro_A_order : Nat.Prime GOST2001_CryptoPro_A.n.toNat :=
  prime_of_chain_eq 1634497 GOST2001_CryptoPro_A_chain (by decide +kernel) (by decide +kernel)

theorem GOST2001_CryptoPro_A_checked : GOST2001_CryptoPro_A.Checked :=
  .of_ok GOST2001_CryptoPro_A_order
    0xcbcabc6968cfca09b4c84f6afb432c8cab1e9ec4380e8985ee4de141a43fd6e3
    0x4405f252a849bccdc05f252a849bccdc05f252a849bccdc05f252a849bccdb62
    0x1404194bedc028d8423a7289c070ea87cc00be96e617b84df0f2ec2ed8a5b493 (by decide +kernel)

private def SWP256CCAO01_chain : List (Nat × Nat × Nat × Nat × Nat) := [
  (0x8542d69e4c044f18e8b92435bf6ff7dd297720630485628d5ae74ee7c32e79b7, 0xb0e9fde29307d3a6ef4b8da65fead8c1edd00105cb5a11b9fe625e016858be6, 0x2ba5fade415d83680d9c6eb88428f8dfdd3c298126d7e3be707cc1ea50737207,
    0x2be65d931452f3e65baa497858e6c0ca6887852518cf193e820af7c6702bfee, 0x2d542b49ff26aee72d0535c8e8e9df4764efc935951292a6fbac5da87a566ba0),
  (0x49a86d7474d1491a69fe5682cd69fade35afe8b0dd85e3baa2049bb76065, 0xaa25b9027c412d83b1e970117dab86e2d8f777a093fe542a5ca28206abf, 0x0,
    0x387613aedab0f8af6931faef298fe56c75ab0f7395b8408fba8c94542852, 0x3859a1f26cf69085eb12b7b0b6790e799dd505acf51c5c36e7177fc3165e),
  (0x37f11f9242df1b686bf83bafc30fd94406aeb16354479898956f5, 0x0, 0xcc89ceba3d41ccbe8ba8c417ef9bb0da9863080d3a27c948fe94,
    0x15269451eb3cebd14c00cc080f618dab859eef99eccaeef988f73, 0x1daba9054ab8e70a17b2d2783de44b593f8259b13b892fea6366a),
  (0x61ff20c126f33ba5760161b3d366a70eb3088b715f85, 0x0, 0x2ece524aaac149d0b558a13df09cf4912ab993d3e7c6,
    0x60229a995f8e4e29fb83f1989d1e681ce55dbf4378b7, 0x3adb9b8aea14abd6c64e873a8d861672cf96ac250eb1),
  (0x2b7a82c663cdf7db612ac39583963cb67643f7c3ff, 0x0, 0x186bab37b0ddc1cd2ecb4c231450f8965a2e39c703,
    0x13e8c0f2eae48bdffeff76936f5c89e2955f21f6d4, 0x75ec59dee46466c138212255ff87894f4bb1e36ea),
  (0x7e0e06f9d76f497fe561b800a20cec071, 0x0, 0x449f72c4ade2dda18cc5931836023660,
    0x6717b7090ea3467a83e5011fb9434c02a, 0x7c9bc16f20e72e7b738230a622892a4ec),
  (0x52ccbf55c7d4636cce8b6a0ffa91, 0x0, 0x42ccf92e6ca6d81e99b48e37b8b8,
    0x12011d21655985687c7b405a7e12, 0x1aa2ad24702f12a7761d189b7c4a),
  (0x5a7de5d043b873a030d7, 0x0, 0x4660169ce6981c4c54f5,
    0x17e2f1cddfdbbdb6d46, 0x3ad091de38c697f7b372),
  (0x60da55ee1a3217, 0x0, 0x1d2b750ac64ef6,
    0x1de9ca5db53903, 0x6867b6ad2db30),
  (0x317f7dc7b, 0x0, 0x2436bf8f2,
    0x26e1509e7, 0x29389d183)]

private theorem SWP256CCAO01_order : Nat.Prime SWP256CCAO01.n.toNat :=
  prime_of_chain_eq 368323 SWP256CCAO01_chain (by decide +kernel) (by decide +kernel)

theorem SWP256CCAO01_checked : SWP256CCAO01.Checked :=
  .of_ok SWP256CCAO01_order
    0x429c1c7d2949f59e26805bb89508cb1e5a5e724eae45f25cfa9312240cd1d1e1
    0x63c9d0b8eb5d6b4fed71e88aff856ca261d20741c07b9eff1bf94e68d8cd266b
    0x32f0e82e22cc17068acb43187eb10df8047ae735d95418e6cd6441395287e038 (by decide +kernel)

private def SECP_256r1_chain : List (Nat × Nat × Nat × Nat × Nat) := [
  (0xffffffff00000000ffffffffffffffffbce6faada7179e84f3b9cac2fc632551, 0x0, 0x6d759b67fdb448c4c1cc1c066c3c691f1eabd3f25c3a015f2d5b69b730067843,
    0xf537c48fc9c25bf225e16e0e3c1ec55ed5916b531dc2823695d3fe0ad1196de, 0x3e99568d80a4ad00638d248deb61d8987a171b6080724d3f77f519c924cbaee8),
  (0x217cdcfdf331d438478b3a78e359c7a78e6a0bfaf28a60b77277d5, 0x1efefbf392bc37e1e3c06bb0a0994be1e4644dce9f3b5cd68d199b, 0x1f9baf954c4c980d5c121246bf26e4662a31104e61f639a27af48d,
    0x20dbb555efdec76650d76abf27af87baa6840021428473db8253d, 0xaeed7a6314751a3650bbeb5bb2cf8a60ad3fb05ce22725ca073ab),
  (0x85f373f7ccc750e11e2ce9e38d39b82ba8b2df0313bfbea7946fb, 0x0, 0x799a5b7deba2ac45a6570d3e24a6c3ade3e392d006d96472336d8,
    0x51dfa4254c2683888b54983e42b31de093766b06cf8a104cbee49, 0x6c97557ff136a6ee4b05cdfa5b0ded787b80ff6e3dfa50a84c1cc),
  (0x7bcbbd6dcb1dddb18d9017ed19ce37ea0345c7867e4b76ee791, 0x0, 0x48921f6c5be0edb057f1da48f78f1a2d17378f567ffd710c6b2,
    0x25d4e546b36f65953730830f7bee814baa7bf0a0cf7a0164647, 0x762e6c74c15e4ed99196744a3c4b0357e50bd82d5559d99d63b),
  (0x5d3762df80a23bac552a07ec2ce4a556d62a66b859d, 0x0, 0x34b53f01404b47e06986281f9d950cf12cd50113ac4,
    0x190fa80c6b88db1f6b1233c04a1647de27e678a4b73, 0x11748df5c7f596831a9315ec6d9c8b17bc2f35d31b2),
  (0x1c58aae227d4d40d6aee9bf677, 0x0, 0x1abf0142ee9db5700810a118d5,
    0x73e929cc3470853dc9ecc3200, 0x1532e37ca306adbdadb8670a62),
  (0xb58b7ba90394d11, 0x0, 0x8bbf2adfdb24f7f,
    0x8d4316090a97d43, 0x11709355b8ccf58),
  (0x19e3f8aa3, 0x0, 0x161e669d1,
    0x12e1091b7, 0x3cf3ad9e)]

private theorem SECP_256r1_order : Nat.Prime SECP_256r1.n.toNat :=
  prime_of_chain_eq 3584353 SECP_256r1_chain (by decide +kernel) (by decide +kernel)

theorem SECP_256r1_checked : SECP_256r1.Checked :=
  .of_ok SECP_256r1_order
    0xa969487079f1744798bf0de6fded091b66e9d328eb0645fe5d979d1339b7f47f
    0xa4a08891884100c13323460107a8d28eede4387fa3e6e9bfebec9f6d72d0b5cc
    0x4cde11cf86cb876cd59cf0115813c55af0ecd3cda667d98bb9a347a56aa74a6d (by decide +kernel)

private def WAPI_chain : List (Nat × Nat × Nat × Nat × Nat) := [
  (0xbdb6f4fe3e8b1d9e0da8c0d40fc962195dfae76f56564677, 0x363ada078ef47a86144f78dfef3de89e6dfaddaa368dee32, 0x66b24f275a970a3009920cafe50fb42290ef845bf36b04ce,
    0x9a032e5d6a9a0bce4027e283aeff5ec9850c1f78168f373f, 0x36ae182b63e2250910d0659a856bb1c294c7fbc36aa1dc23),
  (0x40cdb9b917f8fa2147a86599427f633811d1993, 0x7de8917eca81e9b434426a92f1616b3b70beeb, 0x32c0d734076ff013cb210b28811f6b2d2e55b32,
    0x321023eefeb3fe47b5101e72026e499062b4cea, 0x13471fdac0abc2a2fbc9acc0fdd9440ab068d95),
  (0x7334d8657ff383c962f926a1bb52125e7407f, 0x0, 0x5a3a1f9adca92110624cf297655b58be19d63,
    0x31d55bf9356eaabcc594e937affb32fb08f62, 0x58d6fe686b36bc17b551e851ae7886920f764),
  (0x232c3dc22b6208b3cbf3275848cc8243, 0x0, 0xe89d6fbe97a6d0518fd6997443ccb25,
    0x113a2a37c739f2d25fc45982e7a5c7b, 0x17f7b7a88b3f2f3dbb98a5b9c73d911e),
  (0x48f5bed874beba0023f6db47, 0x0, 0x24d1dbf95a8ad938107e8fab,
    0xd4ef8973684b93aefe55687, 0x2ddad972b045a1d89f0ba2f0),
  (0xb0223d4806664ffa8c59, 0x0, 0x6498c2c1b63702d3dc86,
    0x5369390f3d85abe7ebe8, 0xa5fe5197973d2721bbe7),
  (0x294a9b06919b033769, 0x0, 0x33f5295f4f3fafaea,
    0x67c9920c7850ba2c, 0xdade35703bc8a4035),
  (0x8877375f007, 0x0, 0x77a5a22b077,
    0x1e4857c225c, 0x212a84dd162),
  (0x169167637, 0x0, 0xebbcaf77,
    0xcd9b6393, 0xa191e4ec),
  (0x785d0a5d, 0x0, 0x6cd2d735,
    0x5e6f0acd, 0x1da509fc)]

private theorem WAPI_order : Nat.Prime WAPI.n.toNat :=
  prime_of_chain_eq 117577 WAPI_chain (by decide +kernel) (by decide +kernel)

theorem WAPI_checked : WAPI.Checked :=
  .of_ok WAPI_order
    0xa9281093c4e3438ddf533282006a17400048bb7b0265f060
    0xbd09ad9edfd3bd89e8882e3c284a36801e925f29aa2cf395
    0x77bb91bfb3ba3bccc400473308a7dcf551fc4555df931185 (by decide +kernel)

end Cryptopy.Model
