import Verif.Lemmas.CurveCheck
import Verif.Model.Edwards

/-!
Chains of primality certificates for the numbers of the Edwards and Montgomery classes of `ecc/curves.py`, part 1.
-/

namespace Cryptopy.Model
open Cryptopy.Ecpp

set_option maxRecDepth 20000

private def GOSTmsg05975te_p_chain : List (Nat × Nat × Nat × Nat × Nat) := [
  (0xfffffffffffffffffffffffffffffffffffffffffffffffffffffffffffffffffffffffffffffffffffffffffffffffffffffffffffffffffffffffffffffdc7, 0x76dfe6a0ee1ff79636c358c2805e78fe28fa2e79686f3c730dbef65bb361377fa28cc7502d58445840a047917da41269121223e632ad9568de6c5231079900fd, 0x15f1f90ed9417e2436f243ad652a53c2619982ab9ee9eae852833fc8f20c6698b9a0917d4d7a9e3ac3e2b8c8ffe9111e97cff507040b126548cd91ce92e32676,
    0xa564089330e1f08cc9cdc5c28c91f17c5317d0ced28fb13b9c91cde4100d35b280ef9ce4d8af4e0bcca8c83e2d3c462e567c9bddb25cde405cb8d025dae206ad, 0xad0ed0fc7bf73114c4b64d27eded733b540279129b8de01f9977161447434307b0650f1769b130564f9ccab466c5f6ad22ac1be79efea5f84e55bca834a62a50),
  (0xb104945ffe6a1d01787d7ea9be49dd9357b3d3f2bae91cc6ee4dbb6090e3e4e37dd7708627f87a667e651ded54cfc77e63bbf517251dc3f2a94a98cf, 0x0, 0x3aa0e2a7395c80cda164b1383ea11daa98b04999c113e754c09d8b8a733520898ce17cbc46c9f5eadfd3184446670c8e5a85665a15362e216f10ba21,
    0x8abb3614bd213311678754dea1a2a8909ced6fc21bf7c737755c2c50cfe7d9b61f59952644d6c8f8537ef984cf0bfc78d8342663f423ede49f84c88a, 0xaef52ae483238f1c0dd185aa667aa0d9252c7746c34b5801e24fb0573338990fea8fac799404a9d50f554f8c8452513766bd173d5f83811386ffbf4d),
  (0x5fc1907fa897864aa246dc403ba8d5fb965b0e2bf0ce28b86c5a3128bdd06d0bb1d9b0bfbff1fa927dce227700ea68a4120e0ee0de11c1f511cfb, 0x5759c93b04ab0121e8456debe363f854e5ba9163583e950099c0007a6e37f71bee6d6346f99a040fce5fc55b3c95ebc44f4febbdcd48a5aace0a9, 0x576b086bd806f7da32f68f23fb62b4a95d4116d311c32002ac46595673fb0d9ae4becbef6f369e22a3c1f72beef47e443b6792d77baaf5c6bce82,
    0xe6a2dc6115bdd00604bb22662e4547c17b3cd75de4016bd95a515bf64421a1d34fb561aa7da2a2b289d707e3c8c35f030650b09a1fa86e6a4304, 0x5d1920b048391a152c5e81edb1b23d21567f3749e7a6fbe767269d6ea1fa83d8f3cc571addb9f810901c75aeb397a7afdc1604718c130ba7cc368),
  (0x197c7fd7da2bf43454e85938bd85c43eaece14f75760d23968d8d43ee811f1cb0b53b39ff4a1a00a4a764d3d9ee985e2d9e0b1f8653d883a1, 0xde3bb9b09bf741f7ba97fe49199923ee94513ce1c05e3584abc25c754dfb36a8e2c32e0f261b93a0b9c7124405544119f4cc10e3b93ec226, 0x1915dcd49236385cee414006fb271073e45d57c8a31d7436c69fe55f280c4e2010a97d92880d4d389a279d557310a5aeaae4dc308a8c21c82,
    0xdfc799c0cfdcacbd3cc591ae1894de8be63d1d59f0f75d9814100d7c47e472a1c563aae4d9d196ded291cb5a228eeac59a8b64bf3d3244e9, 0xa9f2939000987eb2e18fe6600b22fabcc09ee59e5c3f214b6917a0855523eba8396d4d4bbabe8c160f03a6fa5df0d0d789d469371df74d75),
  (0x29d2deec10b127b856d29f8b0fa06ffdd6a784de193c6cacfad3696e09f4fb381b956e3229377336fa93fb606a1ad111764fdbb7542f52f, 0x1cbbd852f16aead1e3901d9eb5cc4574a63dfbe261fcdaf7833796d47ba94cf7fd8e67052e2468e35fce5fa3fc21f57238c3bc45ea4cbd9, 0x11eb32ecc8bcf7ca82ac08c1fcdfec0fe59cfdfa51d7c52b4fc5be63836b2156c1560dfda5c4d4307f267a7253284eceefafa250ca0a175,
    0xdd95848f9dfe446d402879e6e50ffe81afe8d4ee83bad2f23611bf2b13587cdfcaa5662b867453fd7ca70ad81f917fc6319dc10a1dfe83, 0x304f1fb657d4e7c60c3ce8729c9d9f44a7bb4b47e4e67f24cefdf605ae03c42d5ef158dbfc472981e3cc86f547b7fbfd19688058312fa),
  (0xb2431cb45b6406440af73398e6b3479f695952485861b5a08be93f5bba58bdaebb9ffc9041d7fee29f45e609d547df1a4bbe92d1fed3, 0x0, 0x169580046ad87d55d29a82b2fce42e4a16e22257e57b2692afefbc61c71228b02a93230594d7deb1f4398100711b8ddfa38a6cc8d82f,
    0x7311bdc480a8df467428acabb19f987afacb984cc48dd66c1231e22e9de17752ad9a8fbc2fc24d150aede3e1c721bd053f0787890b34, 0x78d96993f3c013b775282d88cfe34583f7d9499892b443b0d9deb6912e8592a233b47af81d14426e28bdb44799e922a64558bb20b3c4),
  (0x540ae5758f81a960ab1f36070675862fcf9ac9ea79d0b7b10da159ebae304ab7710fa2bcca4a29d2c6c57aee672b27cbdab8e8bb85, 0x0, 0x3648bf8cbfd0b8e21c4725f551f9e8a9b5f0ec1e10c36073deb549063ea06336830691f20e48776ed2910a5bebd79e63effc46f457,
    0x4ea1b39e0c2aed8808aeda1337cc22e5c6bc5614549f41b2e32990a6ba25383b2b586429d230cce3fa01ab3d14663fa846e5fb4cd7, 0x409db186f0d46affc16f72f3efff78031da329645e509b98cf5e4a43387666dc1c70187e39fdcf1f0e129bb8ccb0519d99f4cb698b),
  (0x6a604bf6edc4a4f97f49f87f124b9c3b644c58c2f4be70695f54a1a5e7db6ac36221aa80eebc5b1f9879361767060104bd87, 0x0, 0x64791334d84822ae1dcffb6ec2515c4d732413d7eaabfdd6bca05f54fb39acc045eaa3a2d908619d2d9882a926cd90078e21,
    0x41824e671c7ed469cc50a0c130fe56f2df1913bb6f80626e250c5794ecbda3d4aefc1a1c23371f18e58162b8b852a805cf88, 0x12d18eb63da48da892c97c0a9d0eba1c7dc43718df26c4c0d0ce72e5a63a8a7762f4a2eef558b873103aa4435f9a3cad760d),
  (0x29d4dc337c90f756b565d682fa37afdeba837a98f41a20685ac2e90137d47f9223de9bb258e71bc40cf2279321883b5669, 0x28e210e2a0b5f58e9c4e62da1c0be41c15dee0dec2b73595a106b0451ea5bf04e258c5ed3899cd2d933d27b93f3e0d0734, 0x62918c0ba859270e40b313e400668c611ef78462ac63fda56aeef275bd07991ebbca0d3987976aaeb6f771d080e3669af,
    0xe10626ab06f3577039bc04cfe87ee69d0e19147212423dd26c049c3fac60af23d50ee50a002626c68bc7747343210023c, 0x1dc7e1eda0262883e4f5febb4ca0126646d0ec8efdc543ffcb9b701daeda3c4e2f67f567ada995b145489c28dda1d16abe),
  (0x197c1f98d8ce0dcb6ef535bc35edf3c62935e3bb32409f441b0e0504ca81a33660c744e4c3509ebf61dee922afbc3, 0x0, 0xc9c20b4ed10b6b19b15c7be31d8d33bf1d778db25d75965d2d9fa5cd1eb651c9adef5a13f785eb95def2fadb1efa,
    0xb481dcabec490e15196cbb19a0d72297984863ab90a3e8acef829d410dbfae702dc0ee48215f92c235a0eff49bd9, 0xb6daf805861f0b0f2d2a62f559c844baf87a26bc2a4e98b53dc1831da985052645dd2e44701bb32a4d107bcc6826),
  (0x16db487401d7cd248b337a5a6fb5845da49897c73991e844f97215f839e15549e7a5666c69e5ef97e83ce334c1, 0x0, 0x45fa0c6e78ec18f017ded88acdd5bfedb73465e4e921c26e103c9086e6eeb3c22ac5c985ee0f3359c595ed55c,
    0xaae8a2e8529ccb435065370667c21dcef6024bbca6e35a79583bfe310cc40fae4c509d001bbd304bc3ab4ebc4, 0x509ac9309e560d53b00fee7ae3d864a6926a7941f860ee9c873aad18f51bacc5af06cdb3492209fef4b04da8e),
  (0x7998500c57314b9769f374a6fd4485b26a9e4de98c34e5de4642c61cc4f5b6236a1f46afbd939e7904265b, 0x0, 0x25468117e9eb7e47060857e89948d19f42f50bbc7343fc11fb5a8388d92f37d5ad779fc40512bd0c3d6904,
    0x64c49083e0875bc0aeaf49f3ce52508fbfc26a5b7290bc4769a73680479381b99edefaa23db911ad24b3a8, 0x18663487819b2f6f8b727ebc02078d599f703b52b1db0049dcef103dec71d16223553b54a2457ac50e0592),
  (0x7399899ea860aba30735a22c845657940773bf2964e5780c6c63a041450c1e63ddbcfd6d82b3, 0x0, 0x3c82159f0e773c5c6a3c75c3105316d132457a210339ed0e4ce2e6d48de255eb4e7ad8fa2ccc,
    0x63aff307e89d88b9a48a8719a11febcd95f3a0500c3c556d14e7ec1ce0a50ebcd85ebcb24f89, 0x552a1e2b43605825703e78f1305645400632073dd00fa80e15dc94ac2e35a98bdfa48024a7d8),
  (0x10a9bc328b9601ad68d2af97b6d2c9bdb2a8e6a90ecd2a02a749a120148ba6ee46a356b6807, 0x1067fd472e93a120f2a548074ad1af8f7c7d8d6ba0ae298403121426f0418e03005051a040f, 0x91407a1e1213fd10296a944ca7d0e41e6db32343b67ddbee75e9fbf3905511b6ff8332783b,
    0x9e271957ab5f26586ac68576256cb81fa76c2f4635a1a378ee4953956c519c07dbc7dd872a, 0xd618c5797987ac5336c3d2d074344472a575e44a77eb013da218d5de808580246c8cfe7a2c),
  (0xcddc3a56a2f3c229dbefc791127fb903094719a104f6fc7b356cc10cbe5889ad25, 0x82bee8b26c934142faacfc83153f610b8e66f4fb415f12142c781b07407d62562e, 0x9743eb61da39d1538ff32a73f655c09b5ccc6e1886a81be2ed0c4059087e3a0140,
    0x4270b6729a8a4176d1dfc03ec0afd22ab35af8192d7298e1ff0499f2988523b8e1, 0x5da6662a131ddd83f7c8a601dc08bbac3df6d465132e7328a13a10bf7906388c28),
  (0x3b14baa4eb091d520a504ba4781b78d4197d8816abf657539b0789922fdc2dc1, 0x1828622cdef1e26c0bb29e02b9e0afc0bad4cd1c3a935cb3dddd076ec4a8b2ce, 0x1070bfaf2c73e3f0469eb621fcbae0d82384142fcb0fdd97f2c6b900f61c3b49,
    0x4d853db3551af4c668f2772f23b08d93bc71b133579d1f7a4ee4639e60a0465, 0x16082c684ee25a3c76af1fada8cbe33d80ee188ee18dc1f9490364f917191ff2),
  (0xfbbae453bb850b60cd896d10849961f2ae0a4f5ef69456a7bd81d067c3, 0x63aafa059a142ee26621a89d33f81dd119a606d56114017b3b55d93d35, 0x584f455038d7d9dd40e6e2818ab7494de75dc19c319406cde4cd9b6596,
    0xf2fd096351b8255423fce6a1f59be0452189747a481c2fb940a6248670, 0xcc13bf14a8cb8174cc6014a27318c9f0ef17e62797207420c0f961ac8a),
  (0x3b7f033f0dd70b51ba49b89091948b210b0f09e881271a6dd, 0x36b48650a116c1f25233c7aad31b3a31cbc4640f514507cd9, 0x0,
    0x1b087ac07c449b144c67ab3ac36f3b5128fd97d4ddd74e112, 0xcf8da806fb35fd4d9a1dc641181c03dd836b3e5e90b1259),
  (0x76fe067e1bae16a3749371213a40cd00369684fa3152565d, 0x672198ff3f99d2373832163314cc126ea62fc2261a27afc4, 0x0,
    0x5f6a3c7927600a19b6b01280cee08e19f99c2132e8267da0, 0x3c80e05cb0535fdd5b755250050e0d06ac407b6e4bbb8acf),
  (0x244f16482ac460ec1ad804f0f1528bdf499edbd, 0x0, 0x3984e2e2d553898a5ced0ba137e1fcbc09afa,
    0x12ef8ab0f2863ae1bfa6dcc22f217cf24460526, 0x1997f8f4faf50fa8e9a44c36ac68213ee29f51b),
  (0xc1a5cc2b8ec204eb39debf518e5bd1c37f37e5, 0x590719c1575a896cc5bb96c62d41a4774c2340, 0x0,
    0x6a49b58cc047561fca445fe6648df94bef6ee8, 0x6730842ca758721fd4dc48ddb402883b9dee79),
  (0x772af3cc0914ef55ad753477e370906e5605d, 0x0, 0x74e47e99cbe3aea864bcf23ba5a493cda86b2,
    0x2849666e2e528a1e2e784675ab4b852f48fe8, 0x24bd19ed02059dc62e1613836262b809abd65),
  (0xfbaeecd71aeb764230e36241, 0x0, 0x442ef682a7610871e048a2b8,
    0x32679c7ec69f1844ccc21717, 0x4edb901b5f4b2f428f212418),
  (0xf62c3103dd4eb26d, 0x0, 0xd5234ead8843c10d,
    0xbd3c6406b019866f, 0xc9c3b09915094cb0),
  (0x7d6d3723d, 0x0, 0x56741607e,
    0x60a3cf959, 0x19f2ebf27),
  (0x6aace39, 0x0, 0x6934751,
    0x19287af, 0x2060130)]

theorem GOSTmsg05975te_p_prime : Nat.Prime GOSTmsg05975te.p.toNat :=
  prime_of_chain_eq 1747969 GOSTmsg05975te_p_chain (by decide +kernel) (by decide +kernel)

private def GOSTmsg05975te_n_chain : List (Nat × Nat × Nat × Nat × Nat) := [
  (0x3fffffffffffffffffffffffffffffffffffffffffffffffffffffffffffffffc98cdba46506ab004c33a9ff5147502cc8eda9e7a769a12694623cef47f023ed, 0x1aa2dbb69403939f3f55ba257cfe9716330e4ba2b29ba1567be53d86279af45895ba3233cd8446f70e05407d09bfb68bb60bda2f07dfefe2d24b3b92c833496d, 0x1ee92861de5f76957355f4574fafd6ec828722c4477d5145bd47e585f02979444d7b005dbe33d7a66789c99746a0e0ae932a0865c164ba1f77a5ca539bd5a93b,
    0x12ca4ce69966c527794d97d33e4538872b2b12b78608109b1fe96350ef50ada1abd5557e679f8f985305e8588ebaacf8d7b134f77695ca878489dc476f96b96d, 0x1ccb4dc3e5b04cfc6f930564a0520e4f4576f76e04a569405e5d7f76da9d7a5e2a1035d07b2785e010f67cd76e9da87c465542b25ec84ac120e88076e5799adb),
  (0x5d1745d1745d1745d1745d1745d1745d1745d1745d1745d1745d1745d1745d16536c2a59caa4ba403edfa18a450b360a86707980af8a4927796b884fbaccccb, 0x1edef26250f5fefaae393f6bfc8bf811c663f5a8ee5a1fbb745acdc60a562443b79ebbb4fed7bc3dbcd0d7e991b294a4147e458e738d56e889a1edd0ba74896, 0x42cb1056742650bdf757bfda9a190948d2cd2688e5c2f20b3032e03ee477316fee2e12b377c45eb4e5398b4dc05a3c9418b1bd5628aa9432550e07b5be24f94,
    0x1d383938264cfc1bb9833531fb1947fef89d79747c312088045c19990a94fbd45f48efd7c2025211d1cd088be8d8a0b3c6ddf48eaf21559d5ac3f44c240bd1b, 0xe23cbcbf2dfac02294ff82afaf379f7c3ef1e2f0fbd2beeb186b388a7266fc3c843af945a24919c54fa424942242d2d7607de7969519e5a320de8de6bd71f6),
  (0x95f5a765bbe8a9a22fe9eebdc1d37d1f29961aff522b7e34d26e0d5d3ef59487a16a504b64d72b7b25cf601dad62f278a2ae8704b1bcfd219244aab6f91, 0x2ad0928f694de9d3e4cea8df3df4c3a0160d53072862e4149110598b72467558ed6fc86c280873c1d3298d451fcdfecbb0add7d0e7f525b161047e2ba7f, 0x0,
    0xaf642d8539082677b448cbe3ec68452c9f60df37a0e4a38bed0c8e9427bdd8dfe2ae6bbcbf6ab4285de08f2c03a5ac7d95a586cd23ce6da3f5b1160990, 0x88c292bd7276aea42648930d8467f76230a74e9f3aceda502ca6c851bb8321f5a404c1d0b726ae108a785845f91f785565460b6e1b88022dde13a35bfb9),
  (0x645536ad34b670f6cd20f911c74d9590833a44ae9dbc99dfd471d9cdeaffdd7d42e11bdd1678823dddf8ab778055e41d339a5be4affdd2e99231, 0x4b483fd93a5609f7bf688f282f5ac95b763275b4fb5beab7905504a3eaf9e7dff7cb67050aa21ab37601d1396df93bdaaa2ce6cfc9c18cfe5aca, 0x2fde999577d4f41a13dcea391d0e69242deb295c02e5e0d32c196965e1c1eba4a1e0e6a6a1176969b77ceafc390750754aaa58fdc72e150b5894,
    0x2cfcc2c3b616eb903e8ccc6516684d8520dec26128eeaa097450c7bdab9c87835eb38c9f0fc9458ce5aff0d894007fd481408e45de9f79a7089a, 0x8a1ff23447e9139a39088f552dd2cd6362bb93b165ec76097730a2e18d3f8ccdadaa6b728240210c61ab3941cdf07130eac2228467445d20636),
  (0x1467c3f02db384bf2224802427ec642d0ce8eba60792b4aca1c64ffd22f85cd9f75a6ade87c46e25ccb5233b04bd4331ffaa207996e16829b, 0x0, 0x9f38904098281141644103d0d1ded6f76a8f5cc3d9a218f319415e3c2f62602decfcc01cb7788afc7c0e1961b9882f842b17dbf023dbe7ad,
    0x115c386f21d0e2cfce786f9284dc855dcad06f2c8b3ceb5e31a166ee1309cd047f43f0f2630f4a5c16da51d305f1f13f63a6f67dedba2a648, 0x9509942b0d6f317bbf8771de250032e82cf30f1c4ba878fcd52e855c3b526e3d8bbae9b75cee694bc656f58913d155f9ab38cc5d1b7d03d7),
  (0x2d4dd737f2d6000460923929cb389f5d3369e8df6e5b1d6964b6c791ddf37d0a391bb1e34a2887ba8d6e3d7a9840446e10ec757, 0x0, 0x131b69f5412f3e26a2d5b6ea4699f7bf41954abcc73478d80149b310df5c24b80581c84d6547ebff00a9f7634a33fd6e123a9b8,
    0x1088686b05ddf213d8123eb39b40f1c160b251d3df418a28ad577feefe73813d1463d76c4c52ca5e646753a76d1b81a98198e21, 0xcb5c84e03a25b48d1a187930868204a5084fb17b133c8ac7b36bc90df3a30e54135ea83dc0eb295d613089f8ebd76380d905d4),
  (0x2acee525be79fd3bacdefce5232aba9a067764d3853f4bace15a8bdbbc01f6c8dc25638a939c350c753d499203cb7fd152f, 0x25e39bc1f7dd1ba655bd40e0792364540651e0f17e9b0586341656addc59d16c9d8d216322c1609ef486da7693d0229fe9a, 0x24599eeef3fd8bf073e3fa95080e94ba8f32b72eb343af2ecb6acba40b4bce82a2d08cb0963209400e225b48ceda8ffdaae,
    0x1909d8884783f3ab1856125fd9f5512e1fb76a5acb73476a0382cdc12e80874a200eaec4a8218a4dfe2f29a8591afb97800, 0x2a9249f9cce10a6df424b24c653f0620232611eb024cce1aa96c16492e9674ba9e0a40454a3882750ca697434b4348e54df),
  (0x21d48cfbb2bb62b8c4481a642d600d1eb14aa5863705522dd6709becbb3223a2e078cb7ea4468b38330a9bc749d75a57, 0x1de644a760ff6511fe4994e1f1100355fed981e2f816b46a13985490f57b87942ba3a7c1fd8a9c1f97487531c3cbc5dd, 0x18222225437338f9e5ad832e8f42b55d886d4b0daf65c4fff275cd852bc45fe4cfeb9aa7f4a5ebcfacf66608898071e6,
    0x65e6469ecf3563bdae4579a45e75c77464aec91805f1b5a1f2138a7aa7b91f184c9380af9688aecd7ea02ff79b422c, 0x17c920d4c452dfa3b98f634c7334d4ac4c3e6b5d1201abb4b89114b0cf02fe93163e809aa0891dd54b0d0f83d9b6bdcd),
  (0x51a7b8c1926fa86fac338a123a8831c50730c72fbc77a5ec3e106ec01882e23ae67d8f6ca11e47d7da8140a7e1fb7, 0x1f6ec9741428f716f99efb6ebda4dde7b8a0fc1848204947fa2ecd3bd8845be446a117c5de7cff23403b12f355c58, 0x1454cfb193da646643a5a3285fd1f309f4b381bdbed49210a2c94f2ba0a315b8bb3ce6b093df9703d6841d06c78df,
    0x1d9db38c632ce83de4ac593dcb776180e663ad03f8dfa562695079489a388e066fbd9526bde7804774c65166e9712, 0x770d77a239d7ebceb38e94e90f35de6ab8d8d36d11ef1793fd754b9a7bdd3f0bd2e6f0b1ec200a0df7a583ad15c7),
  (0xb8242a37a1d54f65d99355915ed12a4073590e47dca062d752c089e16fb366617a128ccdbce1e2aa66065d, 0x96ce3be1f0e62f46962ffae8a8d746bfd8acff75d38662efbf8be22d7f11a62589fea883054cd02023c0d8, 0x6d606f8c4e56696b95b885f4836977731a68fa3798139f98fcc4542461f9561e90b87747b86482be0564df,
    0x17a83bab0e8703aa6d008a10eb70f14ec66c0db2d0403d30fca0ec800fb30bbc4b326899ea292a97e039c9, 0x4065e48f0b79f78cb9538a75db84e7efe8fe2761de0f6ef2693db4e5ce2b343927a4612f6cbcd09412e221),
  (0x18a7a764a30ea2bb28e9f3e455883080988c759814f5e617b726d7172d8267f917e799fa64c611397bf, 0x133a0f17f0aa0df35f6482f28fc4a30c6dd96f20a63fce9e8e95f4da1ac622f50f4724ac27782d42d61, 0xbc8728120285440c357c5e8eab7f247125cb2d59582b9da19a933a326ebad99763008b77be07cf243,
    0x73f48d93d12787430e439198117de3f9daafaeb3d00c002cc8f4e53659d4c7ca38d368b2282615c1af, 0xa30c8140f64f968bd282ed7060a9162ba8f3498f968e28d66dfd242ffccf148d255a9eb1ade019c72c),
  (0xaf57be1f24d3c3f85b9ea731afd47423e87463e6dc01d4dcc9057f408f98850ae121cfcfd10d9d, 0x0, 0x9b0961ac4e938df9af3c0db44411c703a4ac1f3b92c0c8d6f2ef0c4e699c576271bd9af3453cb,
    0x8170637903aca58ec0ec10e62c252ed1669b1609e5e66ce9e0b25d2ce8e3e8453e07560002bbc9, 0x654f153da18457568d9b2d5cf5b4b6c19c648776e3b072b8114610b9683b2bbc5aa9ea413e77bb),
  (0xb34bc334d4aab8425f2b47a9c9aaf25d33a52338b54d8a5208d31a85990f34ed7eb772d, 0x0, 0x6b63bef65e637b0b9792a9371ab98296adaac74fcddd2d68259cd0d27617cfc309d6e9f,
    0x83252d7ad699f36ea1ebcf8ee50afefb1ca5d607f5c59a06015b2e4c1678f89ab3cbafb, 0x150b009d670f54552c60e87678aeab30e9d5304135ce3a7deea8049712671831c96b01d),
  (0xc04cf7b547087b153efdd1ec10893a1b29ef1f6f21787977d1f1e3b1599a12b5281, 0x0, 0xb33e93d0bcdf7bce7fe064088c355e1809ec694a3761681452306156a29f79a9d70,
    0x1f378125075a6df12ded7d3160e4186510985acbc0b18d94bebcbfa1cd74020c8b1, 0x8725cd6891427cf36fe8b45ea73f1025eacee3db8f3e24b179cd416682859accb02),
  (0xda62ccd49c42a065eb835f011ecacb273b46a1e690bf49e3f4dbc323e835cdf, 0x61bc97afe4f33e69d2dbba375f44d866ffecb5ba5133d487e3e736daf67a5c9, 0x52b88c3ecfa90be2b6be5fc70684337f2eab6081b90ecdc12d6b27ebb570bb8,
    0x8c65158289bd89bd69401143ee01dfe05890c7c291f7ad97436afb057acbd72, 0x244919d0349a9e7e72ab97c3aa0f5680606eacb3664dd2c4dfc110898356999),
  (0x27b674684484c5279f9674999b09081660bc9592f74b9491ce53aa5, 0x0, 0x17683ddca5387e8d64005772130dea12d5f3bc10738a1b723337a15,
    0xb058ca5c8a136e1f5bbb1d70515f65d710beea42d74d3b615f7f47, 0x64e92384f2dec46da0ab123df82767f955c2bdcb6da7f169cbd369),
  (0x2423ad54d18c8f3dd2b14cb40d7452e7a9fa25f7be383af77623, 0x21711c92840a931769d6ffd03591bb711894b830f6314e45a96f, 0x1a6782205922eea337f2e9e73efcbb19c3eeef1cffa2aa203c69,
    0x1f19eef2ca3b20f10f0353b354fe05abe668efe3eddb6b1b45b5, 0x2321d8927cb156d037103b6092f315dab0c06a5c597ad7d50e2b),
  (0x1a7b93b585d347baf6f8fc6fb53cc7bc76cd421c0845ee0d, 0x41b16f22b2770dddb3d3a8b2c54bf1800a3f22b2210379b, 0x1556fa09959ccb3ae506b42f2947af8b8613b16fe8b82d7d,
    0x1000492304c89e72d9eda535d7894287c0c020af2bd3d41f, 0x131a54027f8cf5d6163f5161ff2ecc36cbbbafd1e75ac7f),
  (0x9fc22b157c30314dc6d2b939e07313594be3412977, 0x92548445fa0dedc32ba6440568e4008819081131b5, 0xb58b43787660401b957a17c856f8191d69752cf6,
    0x20367eaf3b23abb2036be24684be58a4c40e83ff1c, 0x8666f40f050f1bb66bb30056750cc64ca234570936),
  (0x2b48f0ec0d60bb2a8eb63bce5d543c9c244d69, 0xce52c16b679f2f3e152bedadd68bfbece78, 0x0,
    0x170f239b73ce0e7140dfa36b6c7f55c0f2940b, 0xd810eeb4d878a84cfaaf477ba6d28c093ee11),
  (0x54a2fcafc2a8a46b7490ee10c73dfa11, 0x342722d523f1cf119be04e440e46ff8, 0x0,
    0x492dd6996cb73473a754f10f051ea325, 0x1be632566e37f3ba0c5400d809c8cff7),
  (0x7597e9281de0eed8f2bfd9f5, 0x0, 0x9192a270ea80dc9483a52c7,
    0x5f85467052a2beb9a5d60f0a, 0x57771da9e0e8d7d94295b859),
  (0x6eaf54b6281741, 0x0, 0x12ebfe6b45be54,
    0x21dfa5918cbbb, 0x3ad94b4a85d314),
  (0x1f9ce16249, 0x0, 0x112fabc7b0,
    0x1495a3529e, 0xfe86b14b6),
  (0x75d2847, 0x0, 0x67b48c5,
    0x4252842, 0x746f59c)]

theorem GOSTmsg05975te_n_prime : Nat.Prime GOSTmsg05975te_q.toNat :=
  prime_of_chain_eq 176497 GOSTmsg05975te_n_chain (by decide +kernel) (by decide +kernel)

private def E382_p_chain : List (Nat × Nat × Nat × Nat × Nat) := [
  (0x3fffffffffffffffffffffffffffffffffffffffffffffffffffffffffffffffffffffffffffffffffffffffffffff97, 0x0, 0x689e81f341503ac7e49444a6bb8ef95eb307c8e83f9e15d9e572748c60f71b6439c11e5efdb35cdb743c2b8d3126fa3,
    0x32af1b595630ec7e7ddb3b6427c7e2c6c02a640a20e8a5b88849f2e316d84b987b08c1f99b036fee7bf2583569b0fcd6, 0x1f1025d426bf00c3b2298622296736ab071b6f2a5ff12dcf539e4be9a5bef265d06cc7806c97df92b981b766c0c52b40),
  (0xdd82c56443d6519fe3f76538d1922e677dcc3ec6912a39f4ad26cf6e76322de43d42ac1c7a0ce4029292af8fe9, 0x0, 0xcb490aa3455b7cd79f2a224e7d51de3a4f8c2d264309329cf6f1aa5925ccf413417264a622a76f78ded58b9469,
    0x20d8f0047cb2f453dc4f28a3c25d885ce8c3660e3bd52701bcb39bd73445f4b25c1a99a0604f1f8efaca77c812, 0x7dd3fc064e4ffaee709dffdf93dd5b647aed135809dbffeac1fc192597ef48d7549be64490bec5d4def9c20955),
  (0xc2de5e79a29b1cb35e19dc2063e9495f714e82e1b55e663b15f70811d659a87db4d3449cde51e2299192fd33, 0x84f01a40837e324c225e9c668077eb1875623ec39033894b8e7acd589a2f3f37cf26cb2581458388eb95463, 0xb0d2cdf6d33e42597bb599a4b13a2dd8c84cfee885850a5b74bf914619fe1943980906529fc961b3bef73109,
    0xb7b17146a3f97e4ea8878af8ee6c7f249f1b113a58db33d8f0c7a7b7353a0d1544337abe553b382a432d858e, 0x6a8349a9985b4db38eee98b6e7b455f4c8b0243200e2c159e2143ab12052559c6e55e87bf4016686d47b2e53),
  (0xc2a7a5561fd5599dd8817fac3b52040350cf82bbd92a20367ceffa74bc9fc976fc6fc6039d996e5, 0x0, 0x2d568af3f033ae20107554dd7799daafbdbb67b92540cf062bfe2c5db287fcbd9b26301b77d43d7,
    0x6ed1683dee3949f9fc46fc0767c3d4defa18ef2464d19081cd5f8c015b7360deb0590e3d31b492b, 0x6b7a3b4b4544f37f9359ed83be64df1970e1836f68777e56c00e0bd2f9a822ce0ace0e9c09f3f9f),
  (0x511276ccd2c0a7dd82b589a84665a8878abaa42c0cd8d7eedb5320af51a6f7f9d0d2d, 0x118f0d279c268df3f61b81bd4523017061dcb006bc7e7fa2b51a1448d5e087d0f684d, 0x1cb447e7c41b535b409555af4d956ff280622ad6c1cc295d2d466bd3172b5f47bfa45,
    0x1d562dc35e96130ddeae568ec1ccd2a1f6a8c4cbc888f6ae1a5e9ed8afd6b7acd0cc4, 0x4200f108eaeada8aba682ffc612ffec2c5518d57e6b404d0dabd22a0a94b82845ead2),
  (0xeadc1f949fcfbac6d121b9b3045fe4cecec7f2da32ea71d670b4a5bf467f3d9, 0x62678749cec7dfa893abbb613416c6b4f697db6e5e58f5bad78956f3493a1bc, 0x0,
    0x2d1a808d2f9242abe6eb8d64a6c43c710b731a6f22a60968d6b840c1737abb9, 0x52bf8e3ef0b73cb30b871ee4aadd457888b833c8d303337792de027374219ba),
  (0x70e69f674feff240973f9c966d5ec436074bb1b83c130246e2e2ba1021, 0x405b2f6f834000f908f1302a908e8a0c3696dd81e12de4cc79af4e4f14, 0x54c0af506af68f6ed81c11baf4b9a62e2ddda95d8e7ea1bd46eb8b4a1a,
    0x4ecb60ad475b2bab41d07b8316bc946a10ac6d96bb21c150e3a19ad74d, 0x66b700c6e5fc0d5c74b01341e54f7fc56cae8bafbc9aebc3282a429d7d),
  (0x25a235226ffaa61587bfdedccf1f98b51d289d862d3fce8a9f644b331b, 0x0, 0xe9a29642c3fb4b8893d88bbc22085bdfdb1ee11e451875c0c6d10265e,
    0x1a23fe74e72af629ed5a1c581e4fa9ded4219d12df84c1a41042bb0a71, 0x22b9234b8793387925592b73520622248b3c549e32590064fddab52c9a),
  (0x4d0d27c00098d6247080a02f25b9509f50b0a87b0635a363c3793, 0x0, 0xc844c0d78419bcea5938f0f64905b9bf5c2172c63bd6df610b17,
    0x29cbd0710ba455df060b2ed607f0850f207154675357669517699, 0x39538a9e3f854e8e74a4a76ecd5720f1524a2bafdf78b08fc38c2),
  (0x71300889dbdd8976461145ed50804b338600013b4d8cc1bcd, 0x0, 0x2e5a27c754f8ad3e4eefc4dc5db3ffdab20c714a72914208,
    0x1b751e95de4378728edb495da3fd57e6876a9412ce48a00be, 0x383c031632a87621481c5c0782324c5bc6e006f82ce1d3502),
  (0x25baad834949d87cc205c1f9bc787d6461423b37aa4bae19, 0x0, 0x17a038d4270808d0a47bfab7a5f5f85f33651661773e6b09,
    0xe17b3cef610900df08292e5b720503bd70ba7701b5ce1d2, 0x8252ed131a08aa974a657aa5b0dc86009a8836097cbf09),
  (0x56ac6a4702d0fb851d7c368140600c6d72d5b7635d0b, 0x0, 0x19d3a2fbf734429d8c3a176b8f50840d933e9bdff685,
    0x19b86a2b2e6e647c97c2dd3c17b3dd0135b571ef273b, 0x423d6b7b4232161db61ad17fcf58e2a6f42ae9373043),
  (0xa80f2a668006c0a67dee192b68225f4cb4885fc5, 0x0, 0x9e8edeee3f76193dcb6e180fd15d5d9267273dad,
    0x6d45c6a40dd5af70cf61dfb050b3eb701b52fdbf, 0x8df8551277719b30582e0da08d93fd9d0415d040),
  (0x2a03ca99a001b0299f7bd8c4e9b1e91d63b52eb7, 0x131be1fd0205805200ade842faf01ce8cd2cbc65, 0x1ddebe7e14d4dd27635a8fdee26bc9e3c2089bc5,
    0x297ea418099375b9149628dd7354b55b80bac047, 0x283b03eaadfcb2bb44c7af10b0cecd0514fd5a15),
  (0x507e8691c3a59e86c5a3b8f3b991, 0x296d70108e4c4ed7e9b8f1b0886, 0x0,
    0x385008b3bd29a90af0e022e78431, 0x42c2bd6415cac7fd4a5397fc1211),
  (0x446745878dd3ea74b1050bc91, 0x34f55cf42eee1d00de9e431c5, 0x0,
    0x1ceecf272de875c7e2d053a94, 0x4a31951aba22ba622476aac7),
  (0x3e5ccbd42019899, 0x0, 0x2ee314d2bc892ac,
    0x29afcfb3d65dae7, 0x3263bb420c02f80),
  (0x9ba317c77, 0x0, 0x50aa0e433,
    0x8855e5e9f, 0x164a64d6a)]

theorem E382_p_prime : Nat.Prime E382.p.toNat :=
  prime_of_chain_eq 2806963 E382_p_chain (by decide +kernel) (by decide +kernel)

private def E382_n_chain : List (Nat × Nat × Nat × Nat × Nat) := [
  (0xfffffffffffffffffffffffffffffffffffffffffffffffd5fb21f21e95eee17c5e69281b102d2773e27e13fd3c9719, 0x7841580fdff0d04fc977a02de203bcaf1050c21e90c14267f520ad6986ec44349f9d62aeacf3e4e3f45cab5e62c17b9, 0x4b665170a459ba99214d39901aa18c6d442ddbd221b291f0350ac6a675d2673476f386ae68509d33c844c5c6dd9c8fd,
    0x2a96e25f79801284420d8c35647077851834bdba70f4f823509ef40266e534347ffc9183d4bfc8aa0001f176e47a98b, 0xb794b126801951185a0ed4a2da53e80d82524d96ac9b3d7545188d49cde8fe102796e72c2078314df5ac11ec613119),
  (0x4e15369259e58d358b6e77cc6ad87cfd80ece11aadbbf8026344b4167783eaf815493509658fe052679cff6dbd, 0xc1b7191c5602ab55f9175405e1a75f3b64236222e9d2f7a1ab4d80c0e0df9e33d787f044042e007b382c8485a, 0x0,
    0x370f558f66e9a24048c01813de75ae6b354ba996a54b02a56ee06a9899337c86f0e6b3d5ae043c046470062f8c, 0x419958c0a411b5998d93216504114f9f624e47901d29adba4aad4b5141a3a2bed48b8fb0ec10adf125b98b67d1),
  (0x3c5844736c4f4145c84da509673f2b76d34fb392027fdfb6e5730bc4d9443a8e56b7315ecdbd8e756a6c7e9, 0x17f83b327891f5d364374ccc4131ed32d05c498344e66d6e5b959c921bfb74eb7620b6bbd9ba61947e0465, 0x1e1e73b0c61ed5441dabe0aa9e4774c4dbc90fa566e98cb51a19c1883d7ac61e20a612876e71f3ff1abecbc,
    0x25f701dae19c4e91942276ab3203d95ca7ffb474a150ec5188a278095cde032f466e26c114494bf45a6d8a7, 0x25ea89c5e9f3424ec66ba91048a978ee7d146e5adf748c2cee155031314ad25304f79967d102fea25ebc8c6),
  (0xf16111cdb13d0517213694259cfcaddb4d3ece4809f784ae17fc5393daafd3414585fba12972e120459711, 0x0, 0x103274ba8ed60ef74f94ca96ea35c8ef7966145fbd256d98dd1a48a098139ba8de6d1e76c1acef714dda9e,
    0x818d8b03bea02d1c5e4b1f22ac9e2ba3b0479761141a723dd73afac0b600e12f4b6d11c15192c9cc5c254c, 0x3a0d4b3df327b86703c7e722e9f1460a509ad8ccd5d9c531d14c263b534ff7ae92773c0002d9c53b0a2bb3),
  (0xb031439e79ecad60dd9fc9f5bd9f73b5fe5f56cf9412844321b006375ef29fe6ae5218887b7df, 0x0, 0x2b63ffd34ce2c2bc3727ebb554234e34dcf31d04e601c1dd59384f704e970ea4ea04f2f4def4,
    0x2fb7ac8213a479699932c6232726063d92d5f13b0108decbb9a38dd42ad184ef9971a89a8c4a0, 0x6b6df72edb06cf6bddfd3fa05e5f80ae7f80b5422e671f5ada65a77f5acca3e75bc44ce79c3f0),
  (0x1636144e3b8d833bbcd1183114ed0ff479a6777267f6b2fe68f741b2424aaca83c59973, 0x0, 0x12de7dd3f97c063a4db5c32595549dec6fe26819facc9da6320d9f450db80ff41fd760b,
    0x4dd997e78b83d457958743bc70dcaac98098e4beeb5e958b2ab8edbd8835a835864ab5, 0xbd9552b26fd2647b87bef792dc163fd39b5351e3f8e44a77f4d8185278d7bcb494491),
  (0x724be2df46a1f89e7229f9b53e007d048e99d08dd684bad0255d2855efbb0fd, 0x0, 0xe136c80041e1eebdc45dfd9e4a683b5e260d3f04314e877dfe0e6bd55c2756,
    0x41f8940859d22ad1e090f14ada435bba69cbd254062d759377f86aefd506e89, 0x36dc8801bb452d0f7cd14bf366045dbb447c8ba2a9b49a1c251735bd26a078f),
  (0x8306d1c892e36113a430fab8b368f39cc0124be00a42587d23467c9b491, 0x296a2075ef39185563e8c19fc1c6bf7aebf1996e5c06d50b48149dca06b, 0x59d7d9c96356a4f7fbf81c00bbdb5845cc2ae85fefa1dfec68899a39cd6,
    0xc7c1947c90d46dabde771830ce1ab6fa8a74efa2b1bf74f092f57d20c8, 0x745bd74270c30890b211f49a57f68173fa67c703c9dad37ba9f883cca14),
  (0x9892a32534248ea12e156b807888767dc4331b4daf3b0981fe455, 0x4baf8c228a866f3e766d861bae7294389a6cb3c77ffbe995c2ce0, 0x8f1beed4ad26bcdcd6bae6950b948be6185d1649bf59831c33f17,
    0x8bca0c0753144d8e3643c20e6b4cae0002aa3ccd8e3bd5b8d7bec, 0x1ce289cbafa0aede66b009f72c11eba81d675f8b21206588ab068),
  (0x1697feb469908ae34188ad35f6493a44c96cc5d38fd, 0xee5c3692a7748e169a0eeeaa21fddacb1d98c03baf, 0x843469fa5c9f17f36eeebc27a699586c7a034e3b9b,
    0x9993c8198702c06e45c90dc7cbd529502ce57e71bc, 0x20120993c4986f78f3dd4f44b2c55b00b1cd928286),
  (0x787ff91788583a115d8396c744abf3bfa7a29c8813, 0x0, 0x14f86e211576710cdbe2d6265bf33e21b9ab453832,
    0x3af4608b0c23ff7c3cbc51bee6f18e21697f64fa4b, 0x24d3dd1b512ded0f5e628d81db6eaa96227c4737fa),
  (0x19cf9715e49298b67cee14c7, 0x0, 0x12f7ebc30931c209b2a197cf,
    0x19b86387ec808820c0dfcd0c, 0x787bb34270dd0dc5818fbe4),
  (0x75070dc8192df3b3, 0x0, 0x9fe498186854795,
    0xd08834880f74995, 0x35a8ce289a2e0917),
  (0x132e484445, 0x0, 0xbffd30d,
    0x12f7ffa364, 0x11e67a5529)]

theorem E382_n_prime : Nat.Prime E382.n.toNat :=
  prime_of_chain_eq 16277617 E382_n_chain (by decide +kernel) (by decide +kernel)

private def Curve3617_p_chain : List (Nat × Nat × Nat × Nat × Nat) := [
  (0x3fffffffffffffffffffffffffffffffffffffffffffffffffffffffffffffffffffffffffffffffffffffffffffffffffffffef, 0x34cbd705449345e18b9f43cadda7e07813ea5712d9705a8b12893e908a35f4db7521ced7afe0293ad0b7bc83365b02ac4c76c445, 0x1c3a87068ba3eb98e374dfaf5f69aa3ebd222a96e4b61081eabafe1699fa18255b795b745c8ced6f0dc23c3a2a4e9fe5f604b8ea,
    0x1de1354464516558129334b29e7391046028aed2d64271d627671a25013fc9c74f8f48ff8cc8d47831180ef234c51042cda23d2c, 0x24535b0cbf976b12303668a8bc668e48b9bc713a0c2aac27731264bb228aa9e354f766a9ec182df750a4dcace95e9a362a002469),
  (0x18a3627a9a31a00fcc8427056a1b97f6fca1660907ef086042f6753691631142ffa4e519564b4d6b4ee554bbbb7a4f, 0x11d27f36d3c40e98a1064de64b836ab20aee55bd159921f5798c951aed64bd86b96b62b667f19f2024d79ce92569ab, 0x1262b45ba7a6ade2ef7a89fa262d507f982753df303e168e5a0e082f6cb64840b3831f51aae1070a849dc1bc4ea614,
    0xd036d4f03d5bb55a859346d0883bc6e276d5d972de4141731489a49f302483ba844ad11e5746ab2d37356870bfc, 0x13364dfc109dd8dfaa4bf53908821e0194bffbea364e11a8f12d3a15d5d93f76d4303286adb5c5ca9b4d88fb5133b2),
  (0x47acc164a94a8bd0de97b75591c4a2ce81d585ebb9fd2f9c03be125435e084f0e396031f099467ebb01a86ab12a5, 0x16c4bf9261e57b3e530f7d423e0162226be2a1bfc2934060a2b8c90a0a8da373e433b5d4988d7107c4ffb51f7032, 0x0,
    0x275b53b692a86dc678016f17b12be7f5371e912be77c77d484893d583ce005afd7f1c022415c685312889ffa6d3b, 0x2ee099e7b26aad7f528d7f31385ca43dae3bc405b87a51c5d70a286f8102c7099dfae00bedb6df2cf7837be45f81),
  (0x24bc63740f2ad5191b33dbc7154c3cf4d1d008beffd11487d0707ca1ae5ccf3135a54174ec624bccd18f49, 0x16d4a6232a1282a6d66dffbc9f74d82e2b111b87bae1ee152ee66004fa78ba9fb9462113e1a6d3acda6f4d, 0x1280437d89b5d26eba1defe225ae4aaec4a8d81cb2b5a2505256288c673af9f89e661d4b3c399589b52c63,
    0xef53bbc1148577ac28c3502cdd67183f1114e4d05b3402903a6f9e1497080fe98f89938605adfb6c05992, 0x138b71d562b19c000ab3b616ca5c4159ec2664c1167c0fa3fa253371c446b459990f437dbaae8f8ac36109),
  (0x1e91c40567fcd812ea63d129c469696ca39e9db696c37cf066d26149fbe57e6f4d17d832d0c936ac9b, 0x880ba2433977b2e8b6a89dfd8405b0bce4985864b7fbde98da15f37144606efc5a11b8046ca6ab9b6, 0xd49ba4204ae166d1aa0e45c60750a6f91ff545b869a533fa7d7b94bf1bd40dc169070a7795e342403,
    0x21c7132f0da89c0db3622e1e7320b457bd0561fc6ed56f554a1b36247989128a3459758f6f08d4553, 0x1aea2f38ac450e71f95330eab3e4e008b9d1f84f46886daaeae8f7325f74d0c952deb5b54446d1f9a8),
  (0x40019a6decac04ff22df969ac7f839aed45033388f410370874a071af09a3e441bc585588eed5d, 0x0, 0x33d6314cdec7b0df7e7db6ab0378369de6d4e421c2a6265894c27ec7ae4ee0e0f2208200f89b5a,
    0x2ee1a3b0fdd9099057213d81986911049f20f247bc7786e8767a6ddfdbb645726da7c890d8a252, 0x3967c4e1fb40d20084f63d58f8dc2788ca2dfc09383305bdb0441eaac1376e266d3fcdbe54bcf),
  (0x10416c4cade28b6d7eb2b068534b3b591979f49ca2a2887acc0cb3c67884ce5875434fc743c1d, 0xeab9556daf55c994fe62f2c42de3dbaeb0c2e3efe8f070a2bfddd24cf8c8a50c0bcfa2da6407, 0x4123990378b446e8fcfa7e4de6610ec6afcfacd2206084c708d33537824135cb8d3ea6f1030,
    0xb2a2e787fce4acc46dea3b250cb881c98b8fc5c4eb5235aaea26856af2e89a87bee9996b74c3, 0x95f1dc92ad3805c5a84ce64d32a50ec67b6cc1e84d24b0d9a2a092a88da40ee4bc3beb46bcce),
  (0x58324ea8fb0b68e19811f25256f2af1f43ef8089e519cb0798c77e3edb2c19b2312afd5, 0x55dcb2cf509c5071150472b3c3b4a8cfb78f05c4930ff2765663ce55977f21c6cc8d65b, 0x1e11da2a84d8e8f59ab5e937f1f076e6ec99f8b10804af47050ec52ba2eb6329ba663bf,
    0x48d01fb44cce2e7b456caa09c9b7de49309d75b7a8f4c20a0940979ebfecf3426644bb2, 0x15ec6f08c20473971081a6b67d5c0c6d845eb63d4ab37bdaefac1e399581ddfa4e09fe9),
  (0x145c838bde0fff43fbaf12d1836bb57a2b54ddd1d049c88e93005a0842ffb13fdc1, 0x74722fccbc7eae3b226727490bf93eff5ce3e662367fae5e46470cc600923d14ed, 0x2846e963719bf03fc7efbff25d40e41a2fe67cac1a477c86db09af08c486e26bc8,
    0x1e37dc5e9042bea1027df827169e02b60cfd7bf9cf795759bb6cf40e9349d4d2c1, 0x2fc377e32f78232e9c5eefafc23f0385d746e8955d965b508220ea90cdfeb05f36),
  (0x3881143f756b86a24b6fe6853d867a0a299de3ccede8c8431e0465e9e48438d1, 0x1c41e77b0dd5fb00664eb33f570ee0a4c803af98ef37708ba6bd1614f1d9712e, 0x0,
    0x2bc3ac412bec4b6195f990412e479ab3d053f8dc8f2a378b5a2aa8a5e1736e6b, 0x3d0cf3503a119323d46146498a91aea0471cdae32e68be5dfacf5424bd30fc1),
  (0x47367350c3e0866440324970500fb979f5b989aead762d692b7f00d8cd7b5, 0x38c60403e3fc3cbb7285b1c179cbd8da202ec0a6ee0e001ce1a4b1655e800, 0x0,
    0x46d64289079ae40138ce36ac13ed48a95c90a411b4d6879510b0c6a62ecd2, 0xa8c3faa9f2d7655559bc69416dfc4eec907a8414916568f1753c8fd745f7),
  (0xa1ea96623124731d0b41a279222fc0c82865540f09253c30cf075, 0x20c1adee7c90e619d43b03d6f77dd477f8ce59d470c6988f5b604, 0x0,
    0x55caea5ed0137f0c08cb56147a6b173d633b92b4c27514656e95a, 0x6a7443b3e7643dbb0d6844e2878897902706867422553794995d1),
  (0x1ca047d8c90aafee81486bedd04f35b736bc8f9b9f47e0b3c91, 0x15b04cc375936961b1cd5fd5694976ec1ac005fec2a52d8bbce, 0x0,
    0x12fecebd845e89e7bffca96501bdb46c9e2d1f078781148c9db, 0x7b7dc7b009ce5e2a52bfaf140e0be2b546e4fdd1b3852aecd6),
  (0x92822566ae440316c1bb95d683c271e559a8ad1dac659d, 0x4b8f3a9ae7bbf220d781b260b7b155acb42cf9a556cc86, 0x6dc4a9cf82bf13c3863ea277ae8ef8bf85dbcc5ef3b534,
    0x340a0610fc7eb787766493cdb08e8c57909146a182dda3, 0x91bbd137bd56758253d6d11ea5ae528df73e18c6fc5f9f),
  (0xa99d057a111df82d3e31f469a04a1e7dec0cf831, 0x3e448cc8558135b277fafdf4364ed3cc8351f0e9, 0x5ba8611b751e117363595988048a387eee3c9a37,
    0x95af7ad463230f4ddc7786da8bbd204f9e568a21, 0x9918c621558f4cbede4fbe9da14ddec5decc5b70),
  (0xbfd558a025f4bd056f38eaa1463913029, 0x0, 0x241c8c116824407763d8824a697b5c763,
    0x79fc24b34ae66721f820e92cd91089733, 0x5f0fd622fa6a61dc70d390f48890ecb73),
  (0x691c0247f4587fad39d3875, 0x0, 0x480dd5d176b1aad61626d70,
    0x628097454ccf8decfdd84e6, 0x5248cce93cf1d63bcc21fdb),
  (0x1a37330fec398f, 0x0, 0xb0f34365b8be6,
    0xf9c25a320d7cf, 0x3b0c08465ec7f),
  (0xc5b5fa15, 0x0, 0x5ebb38c3,
    0xa61172ad, 0xbe23c009)]

theorem Curve3617_p_prime : Nat.Prime Curve3617.p.toNat :=
  prime_of_chain_eq 4182769 Curve3617_p_chain (by decide +kernel) (by decide +kernel)

private def Curve3617_n_chain : List (Nat × Nat × Nat × Nat × Nat) := [
  (0x7ffffffffffffffffffffffffffffffffffffffffffffffffffeb3cc92414cf706022b36f1c0338ad63cf181b0e71a5e106af79, 0x0, 0x79233d9c2143aab8778feb91068d0fd0ea7adb70b396873b0148fefb5a821037001ccc102c8e23f4a77ca31d9af782d1cad1a0c,
    0x26a1bc93abc30d31b5c6bce51ab2f05b90090793b80205de0e4242a87e9dffd06b638be0df8f36bef95df35a02a0e9d8d654d85, 0x50294d1fe8c7c7e779854d22f58ff106a5fe9e9e076101eb865e5767d9d60f1a7cc15c3bea592722d5079736a1a3eebc6edc1c7),
  (0x11c79ae0bf21c0f006aada1447aca85a028011c79ae0bf21c0ef9674a7995417f83695995c76298b02d155192542328b47f3b, 0xc93cb123bc639468980c6020508aa210962689aa272cf4f827074a8989ae145bc95e03911bd8f34931868d4d537611d1fcf2, 0xcbb08bc55e06418f92367916582f6627779b737fddd01f947cf75001a2d031d15a734c26ca74b96a2fb2a486b3e73112e623,
    0xc1e31c934e40b2fc812b236ea68271a2e1af480ed03b7e87558b2fdd601299de423769446c7c39a84dc74f65884d8f03d351, 0x50bef04b110f65bf2973df3fd896bd26c3af6ced1a45f832d57621ebd4535529b61e490601f796ca98e147232a19403aed8a),
  (0x538e3f6729b8ecd942470595b81acecd587f1e989c6dbd75144b3b08ea09f0cb2397b798658722c451ea310ad5c3, 0x3c25086ed1a4cd9acbbd7bb779ab78f4393d48d2494965c701577702ab4dfbd756a61dd4539e8ba562e7992420ba, 0x13abe74c46d2054cd89230820ddb2859724c727b27ffb70e2ae7b035fe9ef7f8fb902456209a16502c5303e5df60,
    0x3b73ab08cfd8e1e81e94521a6647b56ab1753c33bdc36d6e639e52b09c12b6e09cc7ff89e4f71a3d842a21880cc0, 0xd17a43c018b87f91b917f8e4f29cff4bc991ae6bad11831a396b230537213c3cab18fb77eb04b01f01bbb94d2a5),
  (0x14e38fd9ca6e3b365091c1656e06b3b3561fc7a6271b6f44fc4b90ff65bb60386f9fb1e72da0eeb39c9365e98d5, 0x4a6584fd8ad31c7cf46079a3ba9b028fbb53b3560ddda11f97313b8c479a0617e8cd85da05d9e43a516bd9839a, 0x516ff9028f0d6bb5fa138b8733a5a728b52f1d5c3afbc2125691acf51e4fbd9c0549e02d6d286c11bad4faaac,
    0x3562b4debe5bedf76fe8d299124e63e1f9a2e4c06c19d9fe19c3e360934109537afb3007b75f3a9507ab051571, 0x276e04963ea60b60d4d60b6b9a02c55c4496da5337b29e3f736d111d55c22f1787334b3f5caee1a5d743b442c2),
  (0x16e229a11c84443d8e4bfc71f10cf2203321785363b58cf3046cc7b7c03f85ed6306eea940e9b2acd9f, 0xca2dff13d6732d9c58b2b33755cb730fa197e01f061f6ca0ed35aae335ca0b6a9d2cff3a9ff3e10059, 0xf7c178bf0c4d062db33c599ffe742ae0d93fcbb0aef650e19e5e69549e62c938a18f60e9dd3cd7f214,
    0x14f81a47edf8d0e1d6a688b4d2e78847f8efcaf926527421c47f24f344414e5594387c7e7e7fa191362, 0xc98ccad93115a8b150df0c387cca9c3f25fa855b6521c5b744e32c7461ba89013c1f64af20151b9eba),
  (0x5b88a684721110f6392ff1c7c433c880cc85e14d85659d35a5aa50d8c9b44fcad1f04812274ccbfcdd, 0x27ad8982f4a70b40c8d2f0fd13977abd798d9951b3aacbef36c51b0af0d1ac89c8b1a7c303379a9683, 0x0,
    0x3277bc53299f015f09ca384ebb33c2174e5fc31b680c8416339a0c626484e2a4381126c82a1a4c89a5, 0x468017ed5e6a19e194c61847f97270e51b385ccfbd17064abf27da256376d9d0be33483c899139f22e),
  (0x92743da0b681b4bd284cb60c6d1fa7347a6fcee26f037f5476552f7e1bfef9ce41f91f10a45ce649d, 0x4edf6c965b3197a612a191c644f4cd9414e3b0614c2acefc6ee703a5194ebb4bdced813b82141c666, 0x0,
    0x6520ee5e6c006e323189f7371a3c8bc32c935776d624149d6f22c28e0a48fd44588afc42b3945d361, 0x8e97d3a42d2025e44b566cf22d22420c6b4e5d9aa257ad17a88bfeafc5638898324984cc9822a76f),
  (0x24a8a7f1b107d930b9fecdd36ac730fb43111d8c7d99e225c3588455ea1cb0416289f25, 0x220d290601175eeb1d0b4b9db562d5d35373beac82a04e9e4cc7f5cb54606168441ca6c, 0xa6fbffe212cacaacdc0418e8b5f6158333c0fcde430032251345f9ba1c25fa267c5c47,
    0x14b0ac505d1e8ce98365589ee4fa94f026abf1887329f8cc423c1666ecba9ca7a5159a8, 0x1dc2e8f46842075766206b7cfc65866e50a837a8cbf0a232adb0d4af17c16575086b48a),
  (0x10ed133f93e69b82b265e61fde01894e405fb2a8f3d7eb36e6b42a312821eb, 0x3a6234d3e20dd44b306a62c67be9c093b1723a218d64025d792fd91bd40f8, 0x49eab2ef6f769d7ed55f638aecc66d3789c153bb21a11ebda0296998f9383,
    0x919890edaeab4ad425143b4c24716886181a01a8b2bb609123b55a9035f1d, 0x214f557206551d0d5d8e998c89b55fa099461700047b210215a254f9f8a9f),
  (0x303531a71a63052a73d8a7ea8fa7f79e925a40ed1312f2c9aa7f7325b, 0x1511b46bb6c93e344fd24f84b8ef7e2b716beaa769df3e7c69577899, 0x6d38a50db1ad030e5a335e208ee96d1caa2fc3a4b560cd473965f8c7,
    0x2b2d69e0e844b90a57ac270d1b7b9b32c261c86fc4d0f1d33ad4c1643, 0x2005b6cad3fe7a9250e466a65ef8852a10c6d286f4bbe0bf515de5e90),
  (0x23e681ee56bccb88c9e181c46e1d0e05fef1553d5febf1d, 0x0, 0x77538b76c73c5fd508938cf802b29e34c7879b90dfbcb4,
    0x1aa7612d994aa331dfb865d2f9f95b4f76b0e11bdc81ef3, 0x20a384464ddce38561454c93e82caf8e08f13d3f10c7028),
  (0x6ac70949183dedc09314d73550803bdf973ea7, 0x0, 0x6680049673d4320ec520071d35d8eec5b5ede5,
    0x281c56771386a2d355da6287e2cfdb067c7ae7, 0x5d81c2d8776070fa88a93c9143ceb5f06faad),
  (0xfa5993035d0b8e70371cd, 0x0, 0xb58e2d1690ce9afd8c7b3,
    0x7d54deb602fd476ea0af9, 0xbc3c65aa77996173aded0),
  (0x2ac6e8248435af, 0x0, 0x1422efa54d986b,
    0xfab5513351460, 0x137e0e860d96ea),
  (0xe15f8b7, 0x0, 0xb1a8303,
    0x3bb488d, 0x43990b5)]

theorem Curve3617_n_prime : Nat.Prime Curve3617.n.toNat :=
  prime_of_chain_eq 3874501 Curve3617_n_chain (by decide +kernel) (by decide +kernel)

private def E521_p_chain : List (Nat × Nat × Nat × Nat × Nat) := [
  (0x1ffffffffffffffffffffffffffffffffffffffffffffffffffffffffffffffffffffffffffffffffffffffffffffffffffffffffffffffffffffffffffffffffff, 0x0, 0x1764600c74babcd780ea474f5bc9998c8507254e9f9691b172c610b825e16fecbbd4598af2da59c3127fd8bb24e5c341b11d57642d5cd5c59509e8587bbd9ae9ec,
    0x9809c104863a44e257b230f8d37fa852dfdd84dfa49e0625a780c2162b102ffe685652609d5d7398224becc5dc620451be3ab533e877b502711fe34beec2d149e9, 0x8f85647a0d1e78522a476bff73145778c961c80371d11714260dd748023bef9c7a28b19875ef643761d47909d08975a546945e6c53caa322762eef5fb2106c9107),
  (0x972dc45af1881eb54be2790fa63cd36a00972dc45af1881eb54be2790fa63cd37640669257b2d332b891d0f05e79831ff0b61b85e974e6c7f9362df698d98125, 0x4c174cf4d469abb0b2e63515fd462af5349a6c4275fd6bc533b0c605e8ca017b2e50a815241a299430902ff763a3a8641d0942568000a29e70f25020aed734e7, 0x5f28186c72f1174cd849a65fc1ef95c82ece06e28093361f74cf5aaa0f68f83b9d54d39b42a43782dd4f6ecf6908951694133ccb9486795b7bdca684cb7c43e5,
    0x2fc75136c9e83662c67bd0a3782a355e629a672b343e44623e8624699ae0fa001e03e53a7779dd230b3d88cebe2a4b2d4d40ba9e85177238bc1617ea0c770fb4, 0x2fc5e9c69c1680663406099bedc2ae2014f2602361af79bf990983097e139185600fac8e76d5136d7f2a18d2fccc50ef21db57106e8039302a8972d3676d7497),
  (0x1d030697c9068c39d1ebbfb94fe0afabf24bd61ec5d79c3ba04bf8cc63b90a85bec17f8fe41d9b2e5b5b440e0b16de1b22ca41ab8c1383c1dda28084ae79ef, 0x3c800219bcb928491f5088ef0477a9c6771d42937dff3228dca509344a77eb1d2c6a730b55120631cdef9743f48d43f14b519fa609160a91492f8f953274c, 0x165eefad5b403b897776b3b72a80c0cfbd7f16e1b30bf6ac8ab514f4e5c7250bb8f255d50b7c3128c8058dd4e4091a154c23473be35abec10740803216e137,
    0x10e8944993e02d74a26419a6b81ec6a0b88984c828b130bd385a5aa7b82fad9d81d2ef3526f980177a48734d1f83aca44c7275b0d377313de6f5d43b22b301, 0x30ba050d66847f8a949dcb6b17c2a55343dbf422f5571f0e90976a6d565e11025f54e03dc28d61bd7f6376611315acec1394c07ea6840c7a450248aa61a8d),
  (0x112709380a10e0cc7503fd78cb4f09db4ffd89d3861d54aec8025927d7a20507a31330428b8f3747443e404729d611eeacee1f24fb7a30f5e5a293c3c42b, 0x58b52c9aa2ebb696f5b3ce0d523fce47626043a49cff1d1944fb094c970a719511f3670c663b7f1b874564bb55e9a72558348989603325992e4be8d11d, 0xe713922399c961987a09e972ec9070ed5b11a9690e058c6b98dd54ed5df4ded51bb34c09fe9435919bca3bc4dcd890bf816e472f2a52da773cfa4bd247f,
    0xadd46dd3877a6fc5bcba76a2173bd4c63ed2a0f78697b7f62c90afd254b9c14c7ce87584217a0fb3e984c34fd719b775ab564395dcff9b5b32304c117d2, 0x73c697eb817ce1a0978ee594bcc53e9ad5e02f38dbb333175704597f5ca737040f714dc9195aca906b65d92c04c05b8ec9d96048e73b6fdfdfa3294cf0c),
  (0x4a7d0b25569d673b70f62295e9f6f90cd765dd48b9bde30a06967cf3cbfd4b8b5fafc2d2e6d8b84a153573a7fc827f56b0dcb23cc9497ad473cdf6c3, 0x264ccb9fe92f291c77777d793b8ece5be73328a07b2b713d3c218ae35eda94f3596c95c4badf4fd312d81541d418c39e63f88517f04fba3a741d2fd9, 0x18369848e3bbd903703ffce4421c901bedb428532312b8423c95234cb89fbe568220db849c55d4d6594776cd38a907cbfb4a0eb61ae64fe543e8784f,
    0x204597db77cd55a4bfa8f0909853efb18c7f3a9c5ddd45554f692d38a372bcfe6f01a6a18cfe71e3f3fd189fa68c6c041b1d8ac4bc0bd4ecd2c540a8, 0x4979d997064377aeff2c63ad83fc377962c8b72023abdf21c11d6f4bdb8e218c7154afee553ae4e83975ab2c1b88ea74a0d66403456a47e721c52f58),
  (0x569781c0124f22a31dcf5ceb10d10e002893fbe9a13cc4197d748234ee61cbe9eec8dc6d9d983eca158aef31a55c30a7c24f174f695ab6b, 0x1ca799b4139ccabc9e0a3b5d6b6328bd067bde50b70d2fcb7fb22c64beffe047010dfc80a30db2bca8cc9ddbe387c79147f5963a977665c, 0x7f08523b1d3d839d66669aff3fe68c91358e6cfd0cfbff13bc3891aa326a8c9c334f00b4e7d62c003714e50d08c075f615a7ff86352c13,
    0x325e400ea3aa2905273e2a095d4a9c5e6225a7479b14039246063158229bee9fb4277ab58e2dcbfe9eeed1af678adef56a52fcfbe2fea8, 0x5603ea88c98ccb9ce0a3119ee6a8a579ef61cf95162fef30363db5d28b82c41872cb7786e6955bbf956bfc21e3a3b4e0007bc951a18760),
  (0x15efa11fe4ac7c81f97270c552c3e676ed161f66f46c5390e149a98aa8a9aaf300d2514899933211fb4d789dd177f60445c4c59, 0x118b9e642f645c496f327f5d32628f68127dd6951636ab91471e399c42ab7295ce0bed0a46a703734d813a6fa9fa14855de8327, 0x159702441ca09b2bf11afc71b7b67f4c7b5b06d1b39c22b36a3ac6d4f9a9e8d7ff8d3f850fe49b422cab4758bc82d71a69a3713,
    0x151333e2dc40435f1e34e08a1c4f9d5cd728454a3da4cc4ed1820cdda5f1fc1117e1128d184b726e1460ba9e756493344e31b41, 0x138de1831749b3052f53c88f653ab530d31e74562f634474ffa07e7d28ff9d20c44c754e492deb8450ea9cb77df417913ddaf82),
  (0x3b1ca4b6f4578accbb2437f8c978fe8e9f38eb869d6f5d25672a6547d98e26014e4ae4ce6ad1be3795e7c206c9a852fef3b5d, 0xff5107ecca7ed42079903ee402ead2bf9b61ef3d9a04c6afe09b53adb137f9bc0f23285bf2824ad6fea9a4e14d84d8e2ebf1, 0x3f63dc5310bf6fa87c60c118f5b60d5f3416bdd3c1e5650d89eea0275ccfa576fc3211001a3ba9823944ff43840bf885281d,
    0x8b0477bf26b6a472b6cf19fe58bdbefaf8cdb97d412bf3dac1ad411f648d225207a1e4b5951f9c89bf1543240f6504613bbd, 0x1ac259f0b70488f6af78f7f2104e9b8a11c5c3a4bb91917e45df9a2f0f071d51f5c393b216335f86280a187dc2abe4d4aaa6e),
  (0x1d8e525b7a2bc5665d921bfc64bc7f474f9c75c34eb7ae92b397d033f9838680fb43f77092447ffa2dc4079abd82478784cd, 0x0, 0x12f285dc211bd04931333ca57275916c8567f7b1dc06924ec1dc8393c4c98f21c6e6af139326a0c1134a7fece2f336554179,
    0xc60554e302240aebca570fceca4bab1f5be31373fc70d2318654480c77019367c981748698f9688e296a1f494904a236811, 0x19177722335598d274c9d65e9cd6e7cfbcca2b1175dd16db3ef938f6fd58852d8974d67f3c9e97d87fc54e0198f1c3d8c5a5),
  (0x1183bf06cd236b7f080abb403bb2128912bb8827e2cba9d231e11ff1025b0182f1416277d98c4c04d968d48910df00f7711, 0x809ee0e4d73bc274c59ca38358c587b06a72e51f0d7a7f158110828696ec8c2e593feaa55c298d2fc65816f6804e88b4d3, 0x0,
    0x10d028f9e33345a79cdd5acfec9bd57bb12c5e038c9069c01504476eefa5ad9a4951bfd6e01be894330bd7fc09e33155782, 0xc6c97a4168a798e3f4b09539e7b864d3ca77d82ae86da9a0e115658f63cfb2273c4a209bedcf06954e48b4e089c75b5614),
  (0xd2d736915763e5b68cab09ed9cdb428dcad9758192bdd0779873ba0929dafa1642b7e1251a5150955d01dfb09, 0x5fdf21ef57682f96a92ba9a10da9472ccc7e9527e92381e1fb0d7ed99d0bef1a9243362e58130e59a3ff22f0d, 0x0,
    0x546a788a9c405d3d3723a8cecdc187651aa0aab2baf2ff5cd269af4e56fe40c21e90c103349a9acecef2d818, 0x2148df3661a2002ac3b9427795634fab0aabfddd7603be80c879b4749148812fa42a1ab858c74647bb385d670),
  (0x5295685ca1288c4663969fa4a4d1ad2ee139526efea114699b83d94980781a8a3f47d8745d10cb3c01, 0x521ce95cba6e5b8d977cbf1474ad2c5db8c458dddb24f42dee5c15871b330e214ac9b004f5f72f5cc6, 0x2e957a0c3396bd7eab8845af767b78066da1ed58ee89cfb2cef1bc827412f2f25432e9732b31ecdd37,
    0x49dee547fc8fbbe6ea7450250f21b3c23ef09a1f385b5e3a391be2287517e415f36549db0cfc9b0f16, 0x16cb32e6e3e03fab947e48d06eb8605f7ede8b6dbfaf7d3535399d5adf9792575f2255921ca969038b),
  (0x2af53f62b8eb344e88b56c7c8cfd22f0a6efb9f9aa5d99e35b15596f37f8e6de0b17ba885f5, 0x23e2e4e1fa087edaf85425b0238296a004c590b2592eadea892eb33df4bdac238b6d74435bb, 0x0,
    0x1768a485f88efae0adc774898e2f34d66f039b30f058128a877ec56451996624040b930b8c5, 0x12bf6d0768537a9add8efd5e81dbfd08a154418a06228f7d0ec0197791ea8aff8c9dcf211d4),
  (0xe65ec6099b36da00a8d9834855629dd90b5928fa3b49248fb598d690526209d3891d, 0x138b4384e9c51c80f0e8fafc2ef732c6441ab15477478ad89c8a9b332ecc20afb70d, 0x865d0a567097eebdeb1c9a5900d212c79daa91d83cfd54a1f4e97cd1a9842f68ecef,
    0xc4a83988ea1752ea5788786fa1ab1e5a58c8392fba64cf8a76491d520871ac20226b, 0x6872fd071807117d102a69a375c5a6a3d105cbdc3a45f100dd4c2cd74e17d2d9f680),
  (0x4f45af60cef699c22a915c114586155979aad9aa31cea8b05e643, 0xe5d59da605a22541aa6407e7ad9d776f9fd969dcc3654ae8a842, 0x462949e4db48dd51aa311ecb382c73adc04d36f0da74136f21013,
    0x98ad54a83718658937414fb3df0c96fedbb8a00fba83e7cc66c7, 0x4c2cd085997cfc92bbe72073dcdaff41b80b28c91ea3e02845d1a),
  (0x27a2d7b0677b4ce11548ae08a29ff690dff87b2cf3580bdb90ee3, 0xbed1160a11d9eab25739b9b3e19deccd68c71a6908adf4849c22, 0x103a31dd9b2f62849d1f26259773aa1bd721deb1c83b9b5c7deab,
    0x17d8ce6544fdfdb6ff10a774be302fad411ce4c15df3c084230a0, 0xb580a075b8d9833ab53792b1100b3db97e7486e13cc451fb5e4),
  (0xd3647e577d3c44b07183a02e0dbc63642a682b91e2f5606cc1cb, 0x0, 0x5af754333745a774a35e85f21321a7ff60037ae3c05390bd7f59,
    0xc3eb1c3cd9ed3ef6cdb6b2b4a49cda3d76b79fd144d5d97471d7, 0x6d5f82109230420b9b5375439ec940adfcc3510e53de4a7789ab),
  (0x4a3bdf1c43db92ada1b7874317e088d74a23e6845fe2763fe1, 0x0, 0x47be65c87c6c4491de998e6c3805e12a853b0a34898fa8aeb8,
    0x36af7a90a431a78f552ec5110d502e6d91e14f84b3e7decc61, 0x41cfbeabe465967e5a75e0c417fbd1dafabf5c6c880feafbda),
  (0x3c38504607d69c6641d3e4d8b267304f41ad1c71b7eb67, 0x0, 0x1b55f78f13bf7a2518a777182a4255503939f0a2c99eb5,
    0x1857ff6f43480efddf75adb1cbb73d5e183c4d3569cfb3, 0x29ab2148e73b9bec74eb2316732ef348456bb77ea027cf),
  (0x2bc00699df5602a71b05282a1e476451525960a13, 0x0, 0x1d165c2bb4b874021b6996e3dfa86cf924ec53de1,
    0x32f6e3ce0a4a1f9a309b6bf52e72d822cbb4e144, 0x152ddee6e55d621538ff8c0d0c01575ae9fe565e8),
  (0x1f9c1167764e764ed9294bb31ecc558d1, 0x0, 0x13ce8f960957118c9ff0e25f76a7d29de,
    0xc180f6ea25b931d00f2fe115d838146, 0x136c1e3e7d3de6115ae42e7a523a20f2d),
  (0x18a92d6679694bd5fef3bfa9915, 0x0, 0x167daea6d4bd50c5dff162748d4,
    0x14c99748d1c2c574e7cbd402db2, 0x6940ee38158ae4da863acdffe8),
  (0x320e15e0c0601afd6022b1, 0x0, 0x12cc1d08badcb0fca7a0ca,
    0x30459855d6ea20d5550da4, 0x292820c0495e8eb8653a41),
  (0x1932cba2f49f259c15, 0x0, 0xbb86ce61c3adad041,
    0x1923988a24a8007bdf, 0x17acc2b75bc24e86df),
  (0x2335197f1d53, 0x0, 0x15c6d29e397a,
    0xbb4b0bd6d24, 0x6aee656c5e6),
  (0x44d7e415, 0x0, 0x1b706d1b,
    0x386caddd, 0x19344e27)]

theorem E521_p_prime : Nat.Prime E521.p.toNat :=
  prime_of_chain_eq 1678693 E521_p_chain (by decide +kernel) (by decide +kernel)

private def E521_n_chain : List (Nat × Nat × Nat × Nat × Nat) := [
  (0x7ffffffffffffffffffffffffffffffffffffffffffffffffffffffffffffffffd15b6c64746fc85f736b8af5e7ec53f04fbd8c4569a8f1f4540ea2435f5180d6b, 0x1411360f2c77556676daf0930eb29723d0c104927cededfe90a3c6be124e5207ecb324c6e801254064e1108daf77374eb6cf4eda237bc3ddf307c646bcfd23116a, 0x26909783c03472b9ad38cf020f13ce74cff37ac6c7b101407166b72e65e777aaa8feb06aa7b871e5d345a3f8f5edc17462327ee14d6097d10fd7f957d8661b5ebb,
    0x64bc160d24115e28d7894c27c7f826c4ad621c9e5639a933a89bc1c1739d4123fb28e54812044ea1356031ab9e09ce9624c7088ffc550cdf6c200fc79bd7acd6c5, 0x156a96d8c412d81f9b07d4f4b19cb244eb1f5f1cf7280a7a665901bec282052df8585832ded57942c033b559aecd0bbf76989481833d925bc9d6f281fab86e6e62),
  (0x39a1dcb4570dae0fa73e79db44ef2eb064b008d61116a658d8efe664542ede51a2713f90258d89b2538d2aef2d51d1808aea375c4b9c3b4e6c97a63df5221b, 0x0, 0x106dfcb19ae0f710bb04e656f52eb32d109cd74157441256757c3cab837b5ea6f08696cc966e8984d681fbf621d67238e0342f567094d33d0714e41db53d51,
    0x352b3f7cbbbe7919f3925b6ea14102b0c06c0773fa1783eea224a0f7b981a0f8b19ad26b36dfed0a4dec74c7f95da352c2e9144a2454f743e858d869f1f23, 0x1b2b122a4906f7d67d8e0169a26c6a3762feaca87126957f17cb01b80ccc003e1e7b685e15d90ae225c132cdd3d3fbd9cbdbe8009fb68963f60f89848ae9d2),
  (0x113e9b2b8cd7406aa454da82feb94f4384799003713872308e5a347cbc7dc93e315112a5d2407e960b4843945d76abbd3b03f08f0ef808aed9a294e575, 0x0, 0xc269c9ed102dfd9c70d25625ef14197bb622d578d34cc93cc530159edaf3da0763336beeaa51d23d1dd81a8a1ad985db8200da3ddb92fbc446da4cc4d,
    0x88c65faabbca41071be6abfffc038febfaa4943fa81a7f36090bced6634038d35afc00e60808b6fd76757a87114f5d567b481e467ccadd3ef8d663ff8, 0xdb55f717f7e3dec12e78abe3ff49594880498d78ecfb21872ca3e92c8bd78847afc85ce938e75599327038e0d1c27d3f7f57b3397bb8bd0cdda1141c0),
  (0x69421898b409883fad2fe59d35bdfc9b63489a574708020e6a9b40ccd265708bb4be6e1c3513ae71f612c55737f4799ea3109da63d379, 0x2ca1b44990b3be9dc0095020c7fd8ac74517bb7547d308559ae702924d2dbe1fc19758bbb3b659fc0b1de84c1e3542b6ff879d8a9f12b, 0x27c8013eb071eae249c3d62a2e5e0d7685db1e88f04cea0420059b7be735aec500f801c8a88befa38a4758f28c9b809ca1fa42e4be1b2,
    0x5010de9805863848b904cf0b01db7b1ad193d3ec5728c546e6dcb92673caad1e6bbd3946b5b559687db2094dc019f1a9016ba9978086, 0x4c8a7a099ccf409af3c803a99488140ea0589185cc8093eb43a6da7c165c3108a03bf0092123995d775e339ad42fda2124025ba9b116e),
  (0x1a859148be7f60d18e68cafd47ff7e231f10472419f5ec5c534d6af509721dfa8f9f670e0b7cb80af13e0351a441d004423b928b88b, 0x127d13576c47b523d713aaaef0ef4accc6e8ecd5eb6847390c77c5ea5fff9c922bda64829ce504b59f9a43f2cb5b86b5c955b204937, 0x32a8b1eaefe481aad399da2e06663362ed341a3ea754c555aee091f1733e9b21023265c7dc875b5a5950082da8a5bd21884dd30536,
    0x1325899b29085e86863aee9f8d08f8a0e452b2b0aaa89832df9a7eb5ee831ae29e66c39016eae301cf75b6bdccb71ff75e2562ace74, 0x3a3147a35d35ca1de759bcf77b788f80ed1c02d529a811e6bf852fe1bbed672f17bbc5a3411b32b2f2d1b0718d634874afc09c92b1),
  (0xb3e4b0cc4b3b1b54e70fec6d5fa2afb1f8e8140887d06c6dac4fb9993141ff73f41f05050e999896d9d3999083fa4c8c8726cf3, 0x1259575ac5362ff82653d5cf5fbeb30db13f6f36e1e2f7786656bc8af4513d780209bf7ab23e762f021c90852f2ca1e2aba0eda, 0xa93275f74b65d793eb27d75ff1e19b3e434c988c7370edb2fb136eed7c719578c2e3fca2c00586539e75c0039cbaba45d4e3ed9,
    0x286b49927762b46b23d5c60301ea58049085004aa90d6a574ee990a800475df735c683bbfdd4646a8f9a6fa85ad6905b8ea21ff, 0x96547ddaef58c1e17140f17bad975d0ab3851662061ba47a72070b01cb61092ad735b75beddc0432d00de56edda95fff0994c65),
  (0x58393a42d768831aece77101a78b9dc427ada5c75f0cf56bbb80ba01f164070e9dd879b53e8e51bd0e6ba25ca55254604d1a9, 0x265a8584d64cca8647245722cdf192f99674ed0b5014b214f3c338248607202fd0f9c99ac333d004c044cd9f2c7da2c98875, 0x0,
    0x28a73d4f4597c58f4bb62ea5734c3f9c46e7cad78687ccc764e946c00f954b885d7d203d919d03af7818af1280e2b4c0fb68e, 0x34efee5a84ba39c2b5886958df5b0f81e20e012102cca010447613aa4fa5a5e37f9589e8cf95fc010bd05ff689a65aa065184),
  (0x4e09ed9fac2a5085967121813f77ac70fce127caed2163b51bf930878dc775b17e985d737317b30947d11033f792d5, 0x2d960506449ad9dc0ead6c3bb4aa22d1653f6e6759c8ca23377d18c293b74e108c388c3e5539f4ae3ec422c11a4349, 0x609b5cb3c3cf7322be93b59de97fa860b5090601fe79466f1a29364a81419d997b802b95bdd2f1ce903bbc7040ce4,
    0x2fc6d9e08f59df0f21008b4f24046464ef3c363025b4549052d8a06133b83a672e06c65d941d906ccc0c0cc5e999d1, 0x3a33aecb3ac4673f9babfc136264fbad28e28ecfa1b5d4cd8091ae577ce89a0b8c59099d4135f5d0eeb14210e63a57),
  (0xdf7ffd7d88f85d68e2e459bc88cb91e20160b65779ad8bf8a563f6310b9a34c12b35dcbfeb6da986b2bc36a1d9, 0xddc6b6ca65e6a302d39524acc7b379ef825df41949057ad48721e7386006cf72778d206142abd6d6552dd4c5c5, 0x0,
    0xc554618615dcbd0522f8cc8a84c33ced7877d5fbe7d175e0524493c29a6c19f55195b0129e42734b0778a58ba, 0x77976a97bc0db00cc9de73ee5a5e683a55faea5119cd4281d20951f3d9993cdcb5f4ffab6a71e11a608ebfda52),
  (0x47deb1ce32109b613a17c0d4d6a74dbcd15b1b37d241c0c70c148190d664f6142dab05bb976097481e8d, 0x0, 0x11ee89dd501f8b252f18d59b8f8e6ef51f947a4c41c295be257bd0dc0faa3a633d8f8f2f2b4beaa49441,
    0x20c61fd0ac0565b409e16ce3181b3efb1f8c0b76dbfe7a5b5ea97b39c42932d3d35d6931a50fcd5bdd25, 0x33047c342b93ea2148a88292574e7120f68a11e7a2006b77ba2085239f59aac130ea753f5a9e5d62ffdb),
  (0x10c372cbd2ddff0f932745289bfdaa5bdd4199a224896d315def09be92f4fbe2bb1c5c5d7fd14e31, 0x0, 0x13ee59379c61b2394f3a1568c746d5157db4312dee7a57c6b7a2387e1e8562101f1b0336aa2f7f6,
    0x800e918588cc6c1e54eff70c446ac5ac5e8610529253366c049926cd790a3e283b726114c2f4701, 0xf8de3346f9cfc1dbdf80863cfd9fd9a435e5a028f078702b71c44747247b25354cca4a206494bcb),
  (0x1885c6a681fffea04ad4826d248edee114dad7f6f6d4edc01e9e5f90e293f2107b1a7f4e9c610b, 0x0, 0x68aa3c22cab6d68046f08bb85ba89202782696e104f7db954ed4ef15dfafe2feac3ebe74c63fd,
    0xd68fb4fb0e0c6a69bbe7eb5a4bb6ea21d1cbc59debee2cbee295a9ad7281b592456980fb60b85, 0x9b4920c85c9763a282c186b6490e8f3f2033c709c524bcf8166b633e9ee19d4384bdc3d19e5c7),
  (0x1e2e7e56c7627476837bb4378f74c38b2d5c1d898376171cbfbbc8497b2b1a8322f513655af51, 0x8037f0bef017a02485ac473940e414b4c29cc86f2d02ccf2821eede073d3a2e3a887273859d3, 0x0,
    0x9daafec85cb627a0836399eceba83f0483b51471a274c466fc8afabb0ebb0b82e42bd7996c81, 0x1711bfac62bec9a616a4a75113f8da4333c6cb986b0f6b52856d3407045f09eee7fc4418092c9),
  (0x2aecca700a80a5a2dd21b65a65a0600fe57d51eac3fec55b9ed07edbf4ad7adea493f9d075d, 0x0, 0x244ac18f2d7a6b73a3bab86e1278a9904b598e31ca285987b2e3366523f88937c5016b3a746,
    0xf9cbd2e1e9ab24dc6934ccfbac80221ad0b2cb24e722193d71bd9ba382c06d3c0be76fbf98, 0x1908c87d95b6b664b8666761422c37278a040561ff88b93aed5ecf91f91769403af3c570c1a),
  (0x16cd44df26ce5acbbd369355afcb1cc0d017c4bbbff38a98a6c1bc5df32742c1fa1c47, 0x0, 0x11dfb5f53e4e697eda86625499f7d4ff1718dd2d8df1c1d6c13f683f6981e26f064d94,
    0xd26e556a56647a87ba478cd7e00ef1eb9a280de9a8a5f75d7e9178b5b49acdd53e0d4, 0xea67ccfefbbd467430e4ca5906d4d8afd20be49ef9124eefc1432c6f85ff2512b9eb2),
  (0x4117c648aed16cda8e6866e709be121aabb08b80b7be123e8761c8bdd031af, 0x0, 0x411416eda4b24b49880efd994bbe11aa1487fda0361df9ee701856c3676440,
    0x11e96aebe81d5a0720ffa18e15908ff2438745cef2c42d3933f0d96f55af8d, 0x379abcb55d0c699ac695235f41868eec31f182a73e12f41f942b5c5587b712),
  (0x122f74c4a69f17ef6cd03705b494e20afde5e794f6c480fe0100bf3, 0x0, 0x114e7e517066f23ae1a4cf823270cabcbc0287cabd66a081c18fb09,
    0xfa437e7b181832cc406845f0236a16af8a6f44ed2a4a81be3f9d4f, 0xb1c63dd6f347c9ada0e4184b4912730944364b2982e2edf6108bd4),
  (0x1fa5a5f5ceb59fd573767c8fcac04f20169f413a8fa2964e109, 0x9c7ec11714897580477627ab98aae70d311d7cc8f62bbd5a5a, 0xcef6fd6c7dd7e9a5128572246913ae4cbd9f285aa566388b7e,
    0x12e7a52a8b38d8ca2941cc7f5460e8559d07277769460535c6, 0x141c4815f617b936200e0b0fbcb878fcec4bf2fcb801892c527),
  (0x2fa2f39adb703a5a9391f18d68648020ebd322245f, 0x0, 0x1d35a73c65f1e4ef87f05c4d3562145897abbc0944,
    0x1f4a442301636c4272f8ef37e7b619ccb915e672c9, 0x25dd0e05d49271375e76f03d6cc21e428ac2cb8410),
  (0x16ec3f54244d1a27bc6cbf8a34a2c747f84e4961, 0x21f3b560c1f68b81ede6a15365d686992998c55, 0x0,
    0x1531ec6c71324ae667e7a2d71a0d957edd94e572, 0x54d781240c4399f827ac2813eead5cbc657fab2),
  (0x3dfbacde2ae2dca390b73509c41, 0x3a4bfec788a85fdabb15feef82c, 0x0,
    0x3abdf5edbed9dd40d6b9714b7d3, 0x21e0e80c62f812be127bc253624),
  (0x1b9fdfab20ebbe9a5, 0x6752afc75058af51, 0x0,
    0xcf1789322f8e0ed8, 0x7bcca90aa43b6dcc),
  (0x72349ad902bd, 0xfa254e374cd, 0x453e6488cb0f,
    0x54f514b6cd08, 0x2d90bff53e30),
  (0x158b8711f1, 0x0, 0xa741a964e,
    0x11b3a4e6f4, 0x10b73e6429),
  (0x25854c7f, 0x0, 0x1afc3379,
    0x10b70c53, 0x1ffdc4e9)]

theorem E521_n_prime : Nat.Prime E521.n.toNat :=
  prime_of_chain_eq 121357 E521_n_chain (by decide +kernel) (by decide +kernel)

end Cryptopy.Model
