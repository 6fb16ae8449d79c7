import Verif.Lemmas.CurveCheck

/-!
Certificates for the curves of `ecc/curves.py`, part 2: a chain of primality certificates for the order, and numbers
that show that `x³ + a x + b` has no root.
-/

namespace Cryptopy.Model
open Cryptopy.Ecpp

set_option maxRecDepth 20000

private def GOST2012_tc26_A_chain : List (Nat × Nat × Nat × Nat × Nat) := [
  (0xffffffffffffffffffffffffffffffffffffffffffffffffffffffffffffffff27e69532f48d89116ff22b8d4e0560609b4b38abfad2b85dcacdb1411f10b275, 0xf3787da9f66a5aff6eed18a97f5043e8f2c22b34775088fecdcaa1cac1a022a7a2eed5999e291aac09ebc229eaddf69a6a32f1b2e885f641a63a294b304a3c83, 0xd01e860885586ad1c95145f55b8da802157d427e46e1b020d13ee2dd2fa733d23c75ab56c4d197fdd0f0498c70c4d23283ef6de34a1a5ead52e0dba45ecdc0e7,
    0x1cb28ed612ccca89ab49f8db90625cd3ed7e2d948ed01898857528f4d361c370d078d1e729d499aace43159959b17649f1ec58b232b0be464ba50815ee5ff7e4, 0xb244c9d63f227d9d8c7d753f84385a24426bca45c133195756956e80390ccaad191472566cedbe954aa11c2cbe653bd5f40a34097b889658d0bf8ea29ac80ac),
  (0xffffffffffffffffffffffffffffffffffffffffffffffffffffffffffffffff573ce07a3e747a15e71e108ff886885dea99679271f0c487d424c21f456e97f, 0xb9c33e9679d07a30f92de644ea93582b10de6e05fb39bece9d0ce710d21ce0c1e55276aa0c9df752c42f8bc8c82bf7574dab8631d0d9ce2ea8a47e1fe91d8be, 0x34bae90926d09165e82c56a274c63183624ec9a3b4fb2f1529a6177b9d1ff9d0b207f7618869713ccf8c39bcf7136832692d4bfdb0f44c58d12c771ab5cd7d7,
    0xb701c194c4e6196d6be3ecf9665b0acea981eeed437b722493edc3f3b53b53bf6554cc497821af9bd9a23b1f8586c4a31f927ad6428dc9bc7c1c2ed87d06dce, 0x51a561704b66699fb2fff980d2513837740582de62cf98a1048b63af28f3d4df1f63c6218c0552f2876d1d6975ab06ddc331c9aca5f22a63751ec5603396ab4),
  (0x1145218285c9cccd7451c50bab58a8fc1b7f90f1314267270abbcabd2a9db56085f4b261c6d03270a7ae3802bf436f0189e1a0ecaf194484ecdd4dda47, 0x10c2d54cdcb0bc7df07c8d3fcaa5160136dbc5df0f3a487e3558999f8bd3300a904c419d60518b42a418ad3e346f0d5489ee2d26de8df0f5b4edd1f3cf, 0x84e8b05eec11313ab0ef1c44b1f30abb9691fa9f1182c5d0dada48539a2f22215c1986cb064a8a27e6718d0e0faac511f837b753923c89c519a62a57a,
    0x6a046b7f9ee91c6196cef3787280ef61af96f2b0afcbb7dcc4d2224f47a916bcdb1918a114336bc0d3512b3111a23ab8dfd6ab0af55f7afecf0cf9ca7, 0xcdc7b9d7d1435d8a87f5b3240492827ceda967a718cfc81b045f5f86c8bc0cfb4d8f4b5edfc8f2b43daf7ee48a1e5a199a9376d70c0f05c5298c53516),
  (0x4926f0f3a735f40b748364873408173b7dbe18a3e481d6d151bbe02f4c788fea9c5ad374401b73f81b7404ea3c6c66a832b4d988f3df9f564667ad3, 0xdb30e80c6a383ce27d3a7be34fef9ba34b48744a6e6f09880e001640c495cc7bcb3476974e27b3ff25cc19e41784805a064e0be52081e8d9b97467, 0x419cc4b9c76ebca72c6a5ca8d2719284831d47769127a7716501d2e07ead74f099c86877cdbad5190ed91d5032886cbac8e7720f718089594ad841d,
    0x4909b1efca6a31154fa5e603d4975be85e5b4ada4dee38c7dfbc5d841262437356aa5a4aaa5734add730a49d13309b03ba072ddce29b9f4deb3261a, 0x48cb9217f9248e18e1498291959f6677a13977ba20bbacaac538d18b4369fa9a870f52337888a87bf077f09ac2e1cc0f6d231c3e5ff574f3447d1f0),
  (0x296d66a7c87f0f0e9df3e2028b488e396b33403f8223d2481703e685e2f63d77d9b0c3a5966b68b6a9ad7e9207f65ae64dad80a936820f89e0b, 0x515cf66454a1724e6e6e005a2f91ddcd84cba1eff10915728b02e7fae39e92443cc4a0a1989f69b9ec5a2d4fae818895f70423930dbcc85716, 0x212b60483d90803b1a93ddeab5dd0c23b4200f5ad11243033514338e4b6075f57cc4d4273a3bd006e20b8d407c8f6012beb287cf6f2243d18de,
    0x1e46a75c3137aff5644367d06cb25ad16f679548026cb506e16420bcdbdaf4e6251c05d053c74d7496df23c469a0b788dc88b29e2dab5024467, 0xeb0a13ef678f51d097c06acf13ae8cf6cb8c8960960770100f070b34a2c6902bc43b83e02a88ba44909e84120857f75e4c237d7e41b8dd5585),
  (0x419d1b16eaa4614cea9d62bf18c7ef6f2205e1669bbc0885c29207d76634a0b9d13c2a9e558ce49517a5fd597b51d5453ffb0065d3, 0x118d37e2a97a1bc5e14b8d6eeb3aa129a3880852e65db7043e81d47d74630e6ce3176c85ff363c2ce7b500979ffefebf9986d3a4c0, 0x3ce951f435f49c700647b9821185512af9ec91100e8f27b1f3e8ce844bee6326ca0b885270b3ee8c2b972fdc46c8aea156f1510b7c,
    0x416862d28697f87c836bc3146a33333f053d61fcf3e83b0314cf9b2309b072fc6a7ff41c67408440cb1ddd999e39e3240075b22842, 0x3d4a7c0d924f9fd0e44d020ec1db5073eefc6cebdc3d840e4123a57c23edfb720b088d30baf398b8d08a90d8513c830d9a9fa6e34c),
  (0x1731254630c3e357371e8e841b0188c2fb64582bf3eab7c7126e670f5a7c13f97c2463f15f693588ffff661d0c939ec7f29, 0x15f312972aac5b0c8b56ec4df537f4ddad1d683c594ad711023552e508bd7ff5702e6373d713947ba9e50928b3248bea961, 0xde115e068886c7eb1d57afa66f1b0cbe9afee03eb4a38e6382c2b6f50f223785ab3adfa03fe574c062a5694c8ee9d7ecef,
    0x1538083e5599fcd03d2d561a4a39ada7eee1227fd6352466275c2601dda49f5187ab7c8f42c811b97a1e538e5cb1078da70, 0x27ce1f25b92fd1750fe7533b28dd2380257b5c3006835a70b4c61535412314bcb9c1e1516dd32fe30d0daeaacdcc017f14),
  (0x377cc2734bffbb6e923ac0a2f1a8c13960a383ffe3174010eacb0a5907bea6068d2c9f7556e4e849aac85d15cea8787a9, 0x1b6696c8863fa4c7e8503ab69d084c2edc067b030869a2fecac464b59c6d9e867bdd80f11c0cc20a13b072f4ee797787f, 0x1f64660fdc46413c32235852d67184eb0734370532b87f537bdf32b8c3ca2e8aac494308a320c0fd678d751882e400efa,
    0x20ea3c05b9b4fbc2471efc6f0221ad82cb17b4ac0cfe8037c0b581e17f71ddea4369e1ef7f02e584b08fe59726727b08f, 0x2eb7f3695b935e272c70c26f43708986a4f5cf92e430a5f3abba81a92b8202eb42914de7374e562b3a6c18b8550cf8fd1),
  (0xf934d09e86bb6dbab4ae0bd753cd7ec2d177167443c6bced1f41b98b057ba45c8e1106adc54dd7d508ee5b4e2b40fb, 0x11e3f0ad6f86d1c46fc1fbe781b3a769280214bc62dbb7128f23f6326c33b6ca5319028acab9b2cb98827e80c7c0de, 0xee06b606bbe5da36fb281c25a12521195cccdac038cdebd210516572b7e4aec0e6087e7d51c2bced180c9c463cd5c0,
    0x5935a450d89e94b58788e90791dbc09fe480354b3902b6070e83b95add3fe63585c25d62426fa708b621f2d341f404, 0x154f9d2adaf9265c605b5484d71e81f32bf883cfed0daadd9f12f18a7836d89392a1a8c19a9a005ab8a7520ed88fac),
  (0x125ddc8a663301a1f829b7fed67905e65023e85bec1abb3ff06ac4800aec28fe682fe2a3dfd1920dd4b, 0xf051191bf726e11d7fbc8c9da6526edca136b610c642552c6b1871dd4047f9bd7e9dd6de58ac95c2e5, 0x3e538029968a4fb9915205aea129ef0c619a7c10a720b0fcde0483fb7ee9f940b696dddb1eb5dbf2d2,
    0x12de695478a60e44ba1cf8f1b08ec25decaaf38dc59076fd6877a5632f84c23b137686162efbb4f7da, 0x70a590971d96631835ab4fd21c5a1f9d2edad8b8d509069d7bdb1b6b421a60ddf193d7a1a7360b7861),
  (0xbaaca592fc4ed58473ffaea4c8751e1b5219bdc5f5b3c9928b03043640a3b7c836f52cc62e985b2f, 0x0, 0x1ff8490053fb8329e01ed90c399578ca08ec0ebde2dcf7ab4450376e02ce3dbe1ca79698d669f4,
    0x9ae8865aeea5844389728333953b89fe3e7119bca62942b07e3545268a40bda86f7dfabb0d068f1a, 0x19ffa491af2f73349748c74ddbdbe63a5c30bc5212975e68728bb775ae49c5cf879b621ead3708e5),
  (0x1aaaf314ff78f9ee59b6cfce65c79696304cd1f7d706d65f30db1d205217d9c1219930c7e22341c3, 0x0, 0x17eb8ee01837d900b8ad0c1481725651c219c0374bee01bfd689c9b741fb57b23916f8029ccb2f36,
    0xd166c09d53c1b7e64f189d1ac1e9e8c1fde68d9cc68e37f4e74d682ac87188497eb30689e6b49a5, 0xa62137eadc8ba0345981cd32c15084af41232d05c0d593c124df65830bd72574f87cf3339bf86a4),
  (0x8e3a65c5528534f733cefef77428787656ef0a81d9156f82aab33aeeb8d0506f4afb57d2121453b, 0x0, 0x41cb4faf4e4caf68fb34318fbdd273071361d7d647c84620c149128bf82e4320134b5d13b1a2a1f,
    0x727e45b55659ea40a2028176c3bea6de6a872096e459ca641e40267f70ebd25d648517f21070d3e, 0x5ef15d17f5c7ac9550689d4a05da87e9b290f7922519c46dadd9d6bc57cafdb48eaf29c842daec0),
  (0x18f03398942ad39ef674d3378737dde2a0bfc876f49e49f7781ed7a70c9fcd8f02364bf, 0x0, 0x7362deafb3a680f20d41298dcf3bb5a8cde0d37858512c8d187ef01d8382627818033e,
    0xcc9421db69778373fca3e8a521e97c3cc54eaa6af109dbe5a23c325acd8e153f6355ba, 0x2f0100dce5ff03785500746d4de141bdd2225269fa6ab6de7500b702681423f6a13343),
  (0x2555a2939476026d3b11b3f94e2cb678b4c8fb56df0138c1684ec533b16e97bb9a92d, 0x0, 0xd36d4f7d050d2d9a5bb82f8ba694dd8987983d5a54d22a12fc5baf31f4899cf8b500,
    0x661eeb24a5daeb84c9596093364b87e7402e1f824a28e1b60b38d5c454f2b8ac583c, 0x134a00fc2f1640f2d4206ebf5d38ab42d8e0b6602bf2d74c67436c783061b5d8a0241),
  (0x577e18d9b85b96634c63142882fd87887e09af10f6dd81bddd19dc8a46e16f, 0x0, 0x49fe48b2f283e7d2552c5b0405a49e50e846bf2716a3785541dfe8837f3515,
    0x2dc349ecb3a48b2dbf9d0639620450cfaec218ffd3151bc4f330f2b5b812fa, 0x38d9155404a92321daae0f191f12ce6ca217742b0a3385bcd2df2f2cb4b822),
  (0xe8c36c6e568d52dd751df2b9b81e2e508652a77b006445d7ad, 0x0, 0x78266dfc3fed2ddc2e97cb151767f1a7519dd66138168e4f92,
    0xa834b15d4392975443adb2c7439e40e452141a94fde02301d7, 0x37432c9fdf15952b1f74b04ab326248282aeca1760d13035d5),
  (0x3c7564a83a2ee4f9f498f7708cf333319f5c422c86659, 0x805e3ad92b2a2e18453d5590e343c99ca1cb971ca93a, 0x0,
    0x38b455078cfaf185c024113e76d3ffa65a77d08978ab9, 0x3977a1b408ddffcbc5638a7520e9e5317dbbf9e1b39d3),
  (0xf1d592a0e8bb93e7d263de1245839292d315fae5b365, 0x6a82e6249ebb3fbacffd3e4f5e1b69a3fef88d389528, 0x56b96cd981a1801bbb02a86803a1e0cd4cf269e94766,
    0xb6a733b5c39e14b5d541de2bc227fd98b13f5f986fa8, 0xb69c24736cd778abdd0d01bd42a89ff0882ebcb3857),
  (0x282436b65c611c12e6beb317722ef82527cc5, 0x14fda5bc6ba3b9aef6a251e6c32b4a2535160, 0x0,
    0x1edc62b9a086564597db4b73d64dcc50426ce, 0x16f90910c8bdfa12ad87e4122973d88c52d2d),
  (0x14121b5b2e308e097358ccb5e3d346ce12dd1, 0x11a5fa4553183b243501feb5f160c1548fc40, 0x4433fb6aeed7bade985a123154370339b39e,
    0xca6d3c6ba5b14a40a3b080bf695b4cd0aa78, 0x8f11d837a96bcf530050f9f522b28fbc2e21),
  (0x10e6d3ab196c41b71de104f24f28912b181, 0x94ea36d3fbebefbf5a8d7e4d3b39ef40c5, 0x0,
    0xc56c9efea2e929d48d2dbc15b3bd08d6ea, 0x2477084b2c51336cb5ad6bcda902084017),
  (0x12436d6f07903fac7cb0afbedc8ae5, 0x733e0ab67e7b089e9ba13058ea833, 0x0,
    0xd4946dc0871aa5b460e128ed83ee5, 0x7764bb914c7fc2c4fb7a5803a5af6),
  (0xcb996a0d7ca14470e784be9, 0x9412463a68ae858a2f34229, 0x0,
    0x3d1e665a09654318baf811b, 0x1d89183971ecd686d54afc4),
  (0x12f7a90e4f41f75f21, 0x0, 0x5aa9aca3dd809c2bd,
    0x1239bbc4f16ee95109, 0x129be4180956011880),
  (0x1039e1adbd44b, 0x0, 0x807776d30396,
    0xc3008c304978, 0xcccd54e1391),
  (0x668dd51, 0x0, 0x448c838,
    0x54319a4, 0x4fee6c4)]

private theorem GOST2012_tc26_A_order : Nat.Prime GOST2012_tc26_A.n.toNat :=
  prime_of_chain_eq 24121 GOST2012_tc26_A_chain (by decide +kernel) (by decide +kernel)

theorem GOST2012_tc26_A_checked : GOST2012_tc26_A.Checked :=
  .of_ok GOST2012_tc26_A_order
    0xceb557d47ac4dad02b22b23c29314ecfe2d757d6aeae5c3aefd50ba12701d7cf0d998b303a9fe2f85fe62e54e7f22a8c66a84e87e5861fc747d3a3a6bcd283d1
    0xf2ce93aa6b39b4045da92bfc6a10180cd509f18002f4eca95d15728efe85ca0bff8eb909d2560dd7be776974a3c942c2f0fa4df28211c7295dec1ebbcc26ec49
    0x48aae8787a349b9e134305ef7ad9848a05ad0321570199095780e27f1f590a326a807a7b016af2ebc357f6d63062d452a86a211d4e6ad0664edd62859a20e041 (by decide +kernel)

private def GOST2012_test_chain : List (Nat × Nat × Nat × Nat × Nat) := [
  (0x4531acd1fe0023c7550d267b6b2fee80922b14b2ffb90f04d4eb7c09b5d2d15da82f2d7ecb1dbac719905c5eecc423f1d86e25edbe23c595d644aaf187e6e6df, 0x2b64f0e28db0b172bb1476d034744aaf466380b48759b1bd2a309926e8fe68e02352fed0bde8b1f640a6cf04e5f80557aa5a28c15687a489a16f4da8a7beceb8, 0x7f35f4bff2af30b74b2b1a9f0b86ad4bb5f78d98a27714d08c30df60fd1ef082f8e79d1777254c322026cc0c832816245458360e0b6d2a2e892f826d798cb04,
    0xdd097dbc5e6e1f6e65c64ce2643f4b05e8045fae54765be02081307915a290734c45f902794d7341fe793eac5f451e7e605f68bdc0ac253c3595c187ca1e85f, 0x3d5658ff4156be6d7453e4b4686a86534a4c93eb70b1fc0dedf86c0ae3123f9ada7922bc4b1aa8f26d0ede85e00cb79b8025503e16cca7ee062976c84b23e887),
  (0x67eebbf68ed5cd3e1f121dd1751f6f4d6d84a21ddf6eccecba81d9ffc256bcb89b9f61964657c463a0b2f25b03b8d1b68cb08958aa781bb94d986bb4d2d, 0x28babdd4f8d550507cae3939f65228a8b75f544df417893a491a5ecb553c06c4cfeef0fd94b79f504e9650a7ee520884310ab2603d9796f8c8be50f8de7, 0x0,
    0x26bd9f324eac724cb7fdee1f00f38968d45be7119d63ef07af45ffbc8661bc8d2bee36f002661e200096908079842ed40f678a337d2db066c0bd6389a68, 0x34f9bbc8fc4b8a1fbbf1e3e90b2f024df103666bd0889a198f38a8d1928baa23dccb259fc5a125e8eceec10b148482c16b2e6d1cff851ac34a826ad20fe),
  (0x488d59bf202a59cbf22adf9d5d6b75d8087b8531e05902f6b97676eb78cd83a2259c9aa2f772eca837850d833b95467110e01e8ece0c27d5d21, 0x3884907fed700e6f84bc614a9964b31a7a6293615848e792f939e0970a3b67bb290f27396f6782b31ff01875aa9d486a1de55e3d022ab085ee9, 0x393cf7ca99cbe40bfc3bead5e7f68e1b43797f124b320caf6c8b13d9e9642af176965c211ec1c5b5135c6ce16bb687e2dd6954e4982d1e364d1,
    0xb75c9a0c22fdc076b162f41f51ece8f31e259591831fa4409bc659341a70456a80706d6c8edaf4e16b6a2fab16c2c3b896af253b7ea2149f68, 0x25409514b33103920c3efe7fc890c2dc9d118ac9613ba6da46352670d2164779ddec6f1d0ae534640f2f7dd921c7235b65c46dcd7f4b714e29f),
  (0x6c8c347c56d529695ab57aab690bab5e0c0e11ffee79f26ea57b0b42ed926abfde56a0bb90b6f90137dcb790b4e819800cf681, 0x1203cf3b72cbd56c791d0cc5f82e2e802c9b89daf50ad1d37980035abe371c9221d65a834d097e733d9c5ce7db7b0d33629a01, 0x28b6ceb06203bf8f81cd77cd6d4601adcd53cf56a9efe019a7799e4d40ab9bae103d2a24743db2a83e4e61a83698fd0551e560,
    0x162296ff91ddf452e9517aa3117ea705fd9a0c86ecde3dca760fcde4b3b8db768cd00a460f3a41a68360066d3d54d216677a70, 0x3df0ce01af2c553801c20e77596fc4c8dab453eacaa317d8f5ecbef2e3311201535e71e70661f9b99c5e844733b6e284f61),
  (0x5d824509e3ab8e287191a298f72b424fdc14e5a195b980e76d465fc79131bb9a03c57c20757c6610a23335f5186313f5b3, 0x3f5635e407928a9f857008f44e3280e0ca213a25d38052c72847c4ae1beeb7e67d0d05ac878adce7386af637c85e35c59f, 0xebb80a3d68bbb4e342b33c8b20afcd2a440de1e8889cf65bdb64d8b207b4033a6f2e56fb3f47968e08a071f670e2b1218,
    0x349adcdc5f4d144d0df1d7cbab4910db4db0ab97a8f0761be452adb2ba9544d61abd31091af682a670c5dad222a131aa94, 0x7984d9add650ef2e2f54af1bf5ec591b940e7427951557227d092c81f3c2f7f57417b405bbf751def4bb4d575c40017fc),
  (0x3a46926ec8cc01ddc83252430fc95c34492249a9af6bf4db9cb6f1609aae049f6e945c8f7a643a929ceb89bb3723, 0x14370e0e90d97261a9850140465a0806fd08198eeb48310a5c32dadff087a363d1f3719b1bcd048934680d016e29, 0x195216b3cea311ac3d98b582195b01b09e237a6407a1f42a2bfdbd5464963254e13f7b675ba3cc771707382ce5be,
    0x1bc8f396ebbb8ea12ccf671650adda90e6ccd5d60dbcce473f327bc0f8148f2f9a248e5e83e2f4b6ec4df3c15f74, 0xbdcf7dd6bb5d463587c641e0138c2104d397d36fef8305913659c47403481ccf734b3af16c42c9c3f5c61a85c18),
  (0x65b10bfc62cea321510feae4f13efede3e71da4afba5fe5850ec4680db4fada206ffacbe08a024cb0b01, 0x46fc00a9ab46c0f6a4b6d1b23b01f14e092f8559d01058c7c43dc875cb75026a178d02ccb0a26f7c6918, 0x0,
    0x61d67f9421fa6480d24b963b34be535531348b370d6fa6068f7c57cbd03291f3a1f5b6d572783bf64c2b, 0x1a9d2b4dd0b81c8a17e7ee8d3b24fa0d5d5a9d33cf425afa61f08f44596a6c07bcd1ea6b99e048c272e4),
  (0xe06c3dc30f05d1f1402320dec4f4f4acad1e924d3265c936efe2c2dba1a5d603428302cfa4cd3218b1, 0xd108c4c7cfb3c5dd29fcef4c1fe624e3e2cec7b1bbbca794341fb6798ca52cc61f7189212a85e68f40, 0x9a7bb1dfbabf48d285cd006bfb23e42241beca2636d4a40cad0c3b4600b01cabb8c8b2aa2fbe3f7050,
    0x1c72f3a4f1b94f7f8f4eea00c17340663e301e351a63ed56b814b676b9ace6b0dce2bc12c12d8746d8, 0x90fe4992e96bbd83c3e9e2e8989be562c0f218484de8b26d05eb5cf0ba3d92e3007a06133e74663b79),
  (0x194060d9c8b9902d01ccc5f782b8972504cb2dea250f273893a06e09a4a238d80ab9c2e0936e4b, 0x0, 0x9d2ed83c1e2bbd6614b40dc5ca76d45a8843fd54844cd09d40120c5e9b11b0fe729f94c5e18bc,
    0x17d8cc5357fbfc37235b6ee703eeb4d758d0103738b18e60d7c3e40252f60188093e81ebee1fbe, 0xe9dc706183ed5b997c9e888867752481af879befc6296527992060150548083bffedfa33bdad7),
  (0xff5b94f985b55dd86cf57342eb38d097038ad29f2e2d877c7daf6289889c905a121b, 0x0, 0xdf6595621099d00950b04c82f7428b70c2b06f5817d27c29e05e8881bbd5bec175bd,
    0xee1274962ef118ea650aa1655d4717c3fd91fc58e9fd294d12f812e938a0c98dd629, 0x46365f948218ed714de9f4fe9bddaab47c2be4404e1e17776ca13bfa26ac2bae0d68),
  (0x11cc6f345096e58f7aecfcd466baa08da4363388c28cbcbb774bd8ac0accbdb9, 0x0, 0x108944c919af5538d87f47265cbeb049f86ccbc4661d0d5fc279112957431a84,
    0xa0ff4e12b2b195dec7b0c58542d395b21260e9cb0ff5e6720939980a6a19289, 0xc0e7901f8d48e090b184dbf6678092b4c8f963384307f0a2c16933629b806d1),
  (0x689f9c8982193f6e65ed3c836751b0011ac76cf30902b162b4a39f941f5f, 0x198a90869a923bab98a88057dc51e10f76c2d091aa44eb75fb6141417b95, 0xc6f2a8855464aa54c2ffddfcb8cba5308584013b7cc15fbb60ca93f1a3c,
    0x4984b44faa3cbacf32b2dd37bc88e4ae3097456541ffc014f8c98741da13, 0x308f98ea890a9bf0213b43a9f46a4d9986380ef35ea39a93ca34cc18beab),
  (0x3db6a0c25d419eed5bf9a6a4cf3acd3325fb0e4e476d9b65c5636ddb2b, 0x159900a461d28274c8ed474dfa0db3c96567df60bc893f0a8a025614d3, 0x1f6b5756f2af9ad9d3aa57064a7a8a221366edc921911c4913a2e105f9,
    0x936d50f0ca4a3217b8d972a893a8c75373619e90273679c9fc5f1d095, 0x56940a79685dfe6842baa5353d130bc5bd0370bc6d373be102d8e7fdd),
  (0x6c094e2a28fc84cf4f950a04510a160cf8d6149dafa076f0b8c10f, 0x0, 0x47919b3ba0b23dc7f5dd489e262f77f5bdc0e5e5f7b143ac70f8b3,
    0x58b6992aefd7a34ae0383fe36e7bc77c723dc5fafd3c1c0fde75b, 0x4d88dcecf8acd4a14e1473642e2b417841dad882e9dfd6801ab57f),
  (0x2b3c210b41b78af345b6d8a83adb2c1bbb520d773cbe9, 0x0, 0x1b06bd6950fb7b7363aa5273b2c0cd14281f098b2c948,
    0x14c4225d7f60e738d1b49f56f9326b509075678f97177, 0x1c922577277a7aed671be4164d4b9b9fc71e9d0933ac9),
  (0x15d4a41ff0b58b55f9cbea28bc71d602013fed7deb, 0x0, 0x2b15986fedf07236126fd7ee0ca5c20571744f4de,
    0x155295d852cf6fbd6ab604c61f22f6a4bc47b8d, 0x140f18d1f891aeff489d5c796eff01da77c8e884c8),
  (0x3c7c64948cfe9891501b81b530a358151e259, 0x16aafd54027b7db6cdf14804d963564b04efc, 0x0,
    0x2538ef6749081d238507d5e29b8c61ad42fcb, 0x1476f470131b892fdbe524aa170ad7e723475),
  (0x16df401ff8d033a43b06267b87b0d09241, 0x24e77fcb590e8d18daf4d5d53da6fd975, 0x0,
    0x2de6ecd340370d971082b66bc0e97e71f, 0x573ac8872854dfa1837acb7b425fa3a3a),
  (0x3f32c0e02ab374b2721dfdcf9e0a1, 0x0, 0x1cde3f976641d8f369776e78f8796,
    0xc62ed1e8a963edf28711ad48bf43, 0x251faf5dae93b495fc8dc984c6470),
  (0x370470d4dcc6d69c7dccd, 0x0, 0x2a5d792b46a8917b1f291,
    0x2816f315d8654fefc10bb, 0x1db3958423be86afe4786),
  (0x4bcbdc96d57, 0x0, 0x3dba822f6ac,
    0xae93bc3503, 0x35162cd2fe1),
  (0x5cbb04f9, 0x0, 0x3091d7b4,
    0x27223022, 0x3da9d24a)]

private theorem GOST2012_test_order : Nat.Prime GOST2012_test.n.toNat :=
  prime_of_chain_eq 1227847 GOST2012_test_chain (by decide +kernel) (by decide +kernel)

theorem GOST2012_test_checked : GOST2012_test.Checked :=
  .of_ok GOST2012_test_order
    0xcc4463f497901c083bdfe029b8a37c387405a6ef4e90ef2d1d1ea2e1cfbfa5aba0503478fa6a5edba8544c1605354a99cc962a5831252d6e964587efdcafb83
    0x37dd62bfe7d943d8d923d7096abef36985ac34986461ddb8b8a4e398633567fbd96fd9f55ce36ec32653d32db6c0ae65fa1f44b5753b8460871c4dbcb6a35a7f
    0x380b381f922670da08e08ecaca79104faf30922b35fe912034f3812c8e6ec420be886c38140431f3c4587dce3a8a72dd64104b61f900147f2248fa15e5145d49 (by decide +kernel)

private def BrainPoolP320r1_chain : List (Nat × Nat × Nat × Nat × Nat) := [
  (0xd35e472036bc4fb7e13c785ed201e065f98fcfa5b68f12a32d482ec7ee8658e98691555b44c59311, 0x8c66416b464b4198db6f795141464ed5f54b43f11f5a98c4a44d23418a90a74a12ce72bbb752273b, 0x0,
    0x753a96bd34be4dacd132dc19b55fbadd71edd20279ef87f8a3efbccd6cafc656f809259f54f13a3a, 0x9d6110f76c13d4478270c0bc2b889e093141c5cbadc0ad2cd14282dfdde52a2c15f462341139f910),
  (0x210e29e6037bdb614489b183df5e365176498b3912c3242c064250d74aa20830c0ccdbc69, 0x8ea46fe6405d11d59d7604635585f471393f2221bef5ed2d32c81cba77bf2e0aab108860, 0xf4e711731c3640ec120f75f380c0a0e62dc315d7eed54368ce84a726109b883c41f36820,
    0x42bd5660f828073ba03655e4029053d1a0fb7580484c3a5d35fcd95e2f38c6b36337684c, 0x68cd7ad87383ee24223455e787a40c2a30bde09843487ac2a3da5326580a3014a8960b95),
  (0x108714f301bdedb0a244d8c1efaf1b28bb24b95002e0fa6991483ebf9c29f025e1a46e3f, 0x710459f06608057184a8fde5417833cc6814c32dd1013fbec30315eb4c2325118ea275b, 0x3ae7e869c09f13c3de26d199de000ae29ffba9c20e01a6b3bd915e3c2e18ea273671424,
    0x7a60ad3601680be3c0125fe7d7885355b174f00b53c5024dcdbab1c71e9b7933da11cb5, 0x61aeec22bd1c0da84764541191511a5642e1b6c55903b6db8e4a731197503b0e3b7d385),
  (0x1c2940baee96a5f542f8c055aef52e562102fe4a06cd8cd1438ea4a791f9fa3d, 0x12ee2df8b7e88613af283002b37f94a50d6604efe19c5747a416e9c3fe2c4238, 0x107881ff4ce6c9fa0a34c800d2ad39a32f79b8a08670022f79781e86f529c41a,
    0xe624e5913ac86a8ff7f02dffad91249574b0ec60e2ea5d5bcb9dbdbe0dffa05, 0x65a27fe96224cfecace4227625adcf4e285626fd22d5361d28e2cbce0a8ce4b),
  (0x102aa05eaec8a6be6214058096f4dfa6de0db97d6223794455c856e894813, 0x10eb810c71f3024881ad0b3057ea1ae926fc8bcc6078dbca9b655874e496, 0x166d3ee0597e21b0c0772fbc3a843d0f4ebca2f094f711c10cf71ece3f58,
    0x938203c0dca51d43910241621dd3d6b3191a7997657b7f46b009361c8816, 0x2bfc0e3145b5f0e803980b984cf5b9bda0a12f2ea53a16b8b97fb4da30fe),
  (0x1c4d039c52accbb062654ce22b0d53b0e7642600e6df0f5f9c5, 0xc86b423e834a0160fba1e9d8ef9c143b109ecc800372030e7a, 0x0,
    0x9f58c899ad40fe456e5a560b7e1db02d9ac5c4bf1e68b1135a, 0x143280e4da4949b76e1d08e7344d094a2b759bd5b007ee150f1),
  (0x50b2404b0e7d0e59aab22d1c8fb37d4d639044222e38575, 0x3255e353ae66491d23701d7a86c45ba64719dc9cf3ecce8, 0x4fa86ceba7b4d6fac563f8c33df08b24c482d5ebec493a5,
    0x3cc9a535345b7ddff7d5b25f00af5b5ce400b40decdc43a, 0x44699dd4dc8ad6e4d229affb1fe88d96673076ab5d635f),
  (0x2c85a7e2ca33575d9bf85f8453095f9d642fb428ffc223, 0x2a2ff0fb5a896c94fd567fda2cfdbc5fb1f2df1817232b, 0x1c052793559eb4473fdf4c713b7fd032ee5cada78f036a,
    0x2c0183580baf55f8c3de966092a44828fdbfc88fc22674, 0x1ad0e5d8bde85103657d6a8e51283d7779184bea221765),
  (0xcef36a376b7610c5301b0265442405399da52c1109, 0x39e7df1e8f44741abb3e86ba266af304b066c3fb7, 0x587821f28e6364c5abaeeb581450c9d0e2d97d7cef,
    0x87c7857b9fd878a3ead03f072e64e77721af71d8a7, 0xc2d4239dae323a90e24f78fadd043d9b6dbbc76fb6),
  (0xd13599da1dc3521282421cd91f33c32b3d7c9, 0x0, 0x3f5793e0fae560e2b1992942912481c05d8d9,
    0xac0ea79f9daf88aa5501231d223bae64041ad, 0xa8ba8fc19873630f76db2868254097a2808a0),
  (0x9902ac5912a6060af859ff16d22e57, 0x0, 0x19c1f8ea3ff76404fb519677216b52,
    0x2479f11ab20887ef891f02f48c2263, 0x447098cdc23185ffb50ec20dc11176),
  (0x421a73d461f801e3d611137, 0x0, 0x250e40d1608eb209b7145c5,
    0x1394e91da861cdb685d44bb, 0xcdd4ff14a51f18dbff6e5d),
  (0x5e7320296a2d, 0x0, 0x2b9717f23607,
    0x307864dc3198, 0x24b3311a664e),
  (0x489c285cfd, 0x0, 0x43c1e4b81e,
    0x215a32921a, 0x231234abe1),
  (0x1662337, 0x0, 0x768fd4,
    0x144cdd8, 0xa29002)]

private theorem BrainPoolP320r1_order : Nat.Prime BrainPoolP320r1.n.toNat :=
  prime_of_chain_eq 24421 BrainPoolP320r1_chain (by decide +kernel) (by decide +kernel)

theorem BrainPoolP320r1_checked : BrainPoolP320r1.Checked :=
  .of_ok BrainPoolP320r1_order
    0xeb9e72d9adda48b26b949645619ff57fee208df6025fda19e856a4c0d350f99a893b544b348ec41
    0x56a750c115cc5fa9dfc455646166aed6457a75ae544fe442ed9869f0e0b4d20e4cf64d45ee4d8d65
    0x46e12f368d3f0bd35515200fd83bf6393d3c69bc46c5b7221e18cc3b0ba265213f010bfa187fc1e7 (by decide +kernel)

theorem BrainPoolP320t1_checked : BrainPoolP320t1.Checked :=
  .of_ok (by exact BrainPoolP320r1_order)
    0xce3c784649e0de1de4f166827359d06025c67132673b921d978a67fb1b700043daba07b56e2e088f
    0x1902161dc5b2ac2b56b9d565b0e3fd4c932a48b8f9063e6d1f9cccefa26ccfb15f3ecb5b25624208
    0xa77b6f4e2891818309240fbc7fb45f8a200440fca7ad5100964b1bf4cdb502216ea6769b766e2500 (by decide +kernel)

private def SWP256SM2_chain : List (Nat × Nat × Nat × Nat × Nat) := [
  (0xfffffffeffffffffffffffffffffffff7203df6b21c6052b53bbf40939d54123, 0x0, 0xe06963159ae7577b7fe3be1dea0ff44d71e1c3469f7eb3cc246aa3342a6bfc3b,
    0xa84c70cc8b4ed35d4a27577e39e3b199a23b8febe0928cc3750da6e269ea38f3, 0x2218b5b8eaaa4c7708cf79901a9ba62640d099b19c85e8ac0c631ccb273fd3b7),
  (0xdfc4bf3404760b6f38d5d912c3f60bb39fd6bde4348cc21589fcb4f91, 0x0, 0x911318a5a4b36de7c853bba5a3d8c092e76b651a3e3eb0bd711dfa234,
    0x2ea6d8bcfc81482bf0dd839537b3f41a5cea03b2a26286d1ce942e11a, 0x9fa452212acac4b2eccedf30cc0634ae7f23293ae53fd64502beac91b),
  (0x1095868c09ab2f487658e613a51710dc5156778c17cbb5110ab, 0x0, 0xc1ee1cb25f68da5d82ebce3bce871fa049cbaee13236e96b8c,
    0x7dacc4433c3e0d8b7bb57d8635888b07373e7426679852d38, 0x9a13a1e9870fd1b87afdf7ca5ac20f85c62c70513af361cef3),
  (0x6b4d1fec0673145b733238a7b1b36e01d9dce63713416db, 0x0, 0x13b5e45c6c9c5c77ea5fb5c36f66bb0a0f650321e1bc3d6,
    0x5e7650fffc9c847b89f25a884484f2b6662dd46e3a8b164, 0x4f7c38aaa200633107eae41957d45404f09db622545f077),
  (0x2c05626df5848ba23c635f713e85fb7f02371e4052121b, 0x0, 0x15ffb50a40caedcff7fac8b9989b72a5a89b7f2272bbc5,
    0x25a287413af4a9e86eb481658f94eac85bc1cf6446556c, 0x207f3397031f75cc58ddb8fb9266830e2bf8f9006da02f),
  (0x649e97d6c3781a9765756c8a88797c553169567e0c503, 0x0, 0x530909a88ddbc5c33ba9b97b304e2ba9e405ca2ff3bee,
    0x4c86cc959b9d95c4487a9f0f9cfe22831febb114d07b5, 0x136d057c992b9b4a1f3e84a1dcb45d41bc90519459f9d),
  (0x198ddd6b5e576436b42e136a15ae02bcd3a891e242d7, 0x0, 0xcaa66e88a6c97545b4ea32a58c5c198586d2eef2501,
    0xceda109ea482660343f0af32dc8bd877efd3cf432ce, 0xed7c5ca7c58ebd2d98294ab3ca790384309820b35dd),
  (0x312fdc3c60e5ce5dbee720a8c6b2ccc0d836d1ad5b, 0x0, 0x1930fe630177fd22e4b77b08505a1336d1274566ad,
    0x2603434101b81e830330a61f0c093962fcd73555a8, 0x2326d7625263cdf85a9db3bca1b4f6de5430783634),
  (0x72f719533a57d7bf2e5adbe5fc551f95f1f, 0x0, 0x1cf9d574c3702941088012af46685972a9b,
    0x2a51884756e233c638999b6bc93d0f0b0cc, 0x61f66534b36d7af8c0680769eb1ed340ec9),
  (0x1b470dfb7a36d162e55e25dcfcd2853, 0x0, 0xd72a8433443728cc69bdb0e9017bba,
    0xedd33f3e1837db04ee60c92b202a69, 0xaa4dbda77f0c6e10776f717a8c9271),
  (0x5838c7acb498ef1b81cf3b41, 0x0, 0x18dd8105960f641ab5f338e,
    0x430032910d2c786e19dce97b, 0x2e473db995f0d74e0bd2a8e5),
  (0xede41ac30a36502b50b75, 0x0, 0xb9dcdd10a8ff1d9a5d283,
    0x4689cc11f784220ab5e92, 0x9a4b6066cdf933abf74ba),
  (0x1070c3c9c7a99, 0x0, 0x15d5c84af518,
    0x318d5b24fdab, 0x418e3e054bf6),
  (0x146f66a73, 0x0, 0x12c60e4ec,
    0x49720783, 0x21237f80)]

private theorem SWP256SM2_order : Nat.Prime SWP256SM2.n.toNat :=
  prime_of_chain_eq 1140709 SWP256SM2_chain (by decide +kernel) (by decide +kernel)

theorem SWP256SM2_checked : SWP256SM2.Checked :=
  .of_ok SWP256SM2_order
    0xeb9539fb12a69fa8a00429afc717f1319f0c8d5b6b742939772c4ea8ae886749
    0xbbea3c6e4f9890bc31aef1ce9abbeaf4847d5c84bfa4437849cb29256264e8b1
    0x4eacc0d01f9e2a10d4f0056c0628ef26e06a3759ce9c5557561509c6fc21376f (by decide +kernel)

private def FRP256v1_chain : List (Nat × Nat × Nat × Nat × Nat) := [
  (0xf1fd178c0b3ad58f10126de8ce42435b53dc67e140d2bf941ffdd459c6d655e1, 0x0, 0x5ab310bbad1418d058d4f47e8f86955ea9997ccd85e7d9837e8aaa35b8f99501,
    0x766b6ca042af59f120a0ddfba30910020082635b03f873d8097560bd4fd311bc, 0xc9fc6f1103c5c51b061429659bf369f897d7c47b5b0a2fbdff5e9c335333251),
  (0x225eaf966d89f92fe318f5f2e9ef99eaf09513938607bd423f6467d928f, 0x1e5f530965673f8399438aec170df1b1b1714d76c341a768e35460ff3d1, 0x1e0f2b7901c6e9d2890718ae99e2811a084f0ce05795c8899e02c2d8a06,
    0x1b3d021aa88a0f9d5be5b00a42be0d2cdb12d242ad5d4638dd59898830e, 0xa162c07a864d4966d421d4befd70b520a3971be5faf4c18a247e7ee0d8),
  (0x11093a2ab37071525ef5e606b4d1aad2e2f8ebb408b8bcc30cb8d, 0xdb62a7fde2cbc22baf12bc2c969df804deed59ba0b0e473038b2, 0x912062318040291a6c2f9e6e709bc1dcc05d569a5bdd8e3e2eb2,
    0xcdeadeee7ed4f75c1b4e58c2a0eccc7cd0a6c1933b937dc67c61, 0x8fd61f6b2757ea8cba69c6dc9bf43f78e6c4a6f57a12ad0a6bd1),
  (0x170ee4d93c453e77860ad24c82888a50f1db8d0786a8e8a3, 0x153add28d560b1b7efadbab11e4f772fab89f0d56f4bbf50, 0x2b85b5ebde3032a04862e3d96f2f343649651c9a4f59c9f,
    0x641ba65931c4e62f7615f944fb003c0ef3c9e29e2b93914, 0x1023fb12c676864b047967039b976730db774b8141e0e17d),
  (0x3fd05d1e8ebdd620cd30ade60eaa99156042d277, 0x0, 0x25e3a99cbc24f0f1405fbcbd6a2622c3c13246e6,
    0x1197a3b8f26a4d9b55d085158954d321600aa5e9, 0x1d4f9b074165ba0d270ac557392a74b5fc50a7d9),
  (0x280a9df8b5a8125f183ec64bc36b7a99977, 0x0, 0xebd76cf91975ab90299e6dae83f45156bc,
    0x10bc57917269369946c1af1efea6c4f5094, 0x460e8e06e259e640bab011587d08bc0f1),
  (0x3c25b98133d7ad9184e1be82e94ced, 0x0, 0x362999e8aa363f3fbd0abe63d2c6ae,
    0x2cd4a0e0eef537fc32aea6b3c87f8f, 0x1a464f7bec0f349af55872cae60ffa),
  (0x939c8b490c582c609f9c334d861, 0x0, 0x15b41486d08fffdfdce774850fc,
    0x7d75c77a3708f18911859e81ff, 0x105fb7f2cc61adc3449166204ed),
  (0x188a317a35d1871a7, 0x0, 0x254b76db3feb1f67,
    0x12c2effff6f13eb4d, 0x985e8571565ec7f2),
  (0x8bd8b533ccb, 0x0, 0x57209f3fe0,
    0x1cd80c7ebb3, 0x76ac9cd484c),
  (0x269eb4c63, 0x0, 0x2042f7901,
    0x10dbdf233, 0x2635238d6),
  (0x2d8fc6b, 0x0, 0x26977bd,
    0x1d808b4, 0x3ab5fc)]

private theorem FRP256v1_order : Nat.Prime FRP256v1.n.toNat :=
  prime_of_chain_eq 35353 FRP256v1_chain (by decide +kernel) (by decide +kernel)

theorem FRP256v1_checked : FRP256v1.Checked :=
  .of_ok FRP256v1_order
    0x417243cd79c7844af39d931a5f11f543d7cfd485a1bf467b08816c4f19752e7a
    0xdccb67b8d7840aa9812b7edb38a0dbae2fed9fb684f5eb18f032a32f50bb3258
    0x3174e3399442d9f10287b8801da5b86ed4732ae1b7b934e912f3121743b8d61b (by decide +kernel)

private def GOST2001_CryptoPro_C_chain : List (Nat × Nat × Nat × Nat × Nat) := [
  (0x9b9f605f5a858107ab1ec85e6b41c8aa582ca3511eddfb74f02f3a6598980bb9, 0x0, 0x2bc0ff051d247063c406acef169b35849e51886565aae0ff5c909bb2dacb22,
    0x4e39a53ee6939340274e1ff06c9c07adf49a8331852ecd3505a7c3be6360d134, 0x24b4b77766065ff1efac7537af79e71d4866b54bfba15063c5423d884979e1a6),
  (0x4ea648e593aa284ac5937b168ead2fe068dca58212317c2dce1fdc2d4f93, 0x1f5e8bbc8b6c9e0871602f6992eafd2b93160ad28e14d0c9b5bb588b41b2, 0xd6b749e549ed54612d0df03bef02604be1d4568ea24c11d7ae5033acdb5,
    0x282a0d0e19f9142f34d3ad7f20bc44e5e61f327f360243dc01ed5ca48a20, 0x452f08f36badb6ab0b7ab015a127981db0eb5131f22017c1d59d3df957db),
  (0x2445130864d6bdc921df5d4087e46a428359ca0781b3b1a5169cc7e63, 0x29025adc801fcbf5d5e50882871098289223992e6d50cc2266eca4c, 0x21bbb6b572f0ebf272765021109ec4245f70d7146b7c21242840a9ad6,
    0x1d871a83f61305dc60f5070628b91e2ff79f230430ca1e2d1d7b7e7f0, 0x1a697300d37f7f0a23fff50adf84af0b8888bd2d34462b15b45123501),
  (0x2fec0a8c273f2cb04b386da09ca28a0d51f3bc944c13ac39a81, 0x10548ddd34b116bc90713cec08d96d182c45a4b5dd38692ab8f, 0xb4700199eb158e4d5c1267f06fc74cac6912811a27457b693a,
    0x218ff10db1d586f000e57ebf7012542fff07295baa2ac23af4, 0x27393cee22d36e2d08018fc193020acc0471e63ffb2ebadb29),
  (0x11b60e7d3f81f2dee1fa2fba7477e4905e7e6a7b, 0x0, 0x31506c7c0dcb161b4dcbf77d2fc9685fc469d2b,
    0x15aa37ca05a6ba9218105b3d50b7a46c24380c2, 0xe8acbded79bbce09238e6331aa12f6307f139e),
  (0xa256f4912db906bf47bd9e5f0863dd047e3, 0x9b869af1c24b650e906f6d336771e86dd95, 0x65e3fa2494e978626b62aa6e5fa7257248d,
    0x5b2e529c59bb7ac29c5be2c425bcf5cc8b8, 0x2833eceb7ad22412a624088b988300b749),
  (0x2aec316b1080ca5d5114b2a4a8ee95, 0x2274f200c0cfe11c88c82f2e4a8c87, 0x0,
    0x1a15a3a0d604428a5a3755f2a29031, 0x18549ccd24ad054a703aec265276e3),
  (0xbfe597d296d56123d, 0x6cfe0841d0a02a860, 0x0,
    0x8ea859c2f1c539db6, 0x6357ad3165f55e516),
  (0x1ebe78936aa0d, 0x0, 0x6258c19188fe,
    0x157419736151, 0x1401bad4a2c44),
  (0x1cacfa835, 0x0, 0xff7974b8,
    0x24242e5b, 0xffb2317f),
  (0x257428f, 0x0, 0x2336029,
    0x9a1f87, 0x27abf4)]

private theorem GOST2001_CryptoPro_C_order : Nat.Prime GOST2001_CryptoPro_C.n.toNat :=
  prime_of_chain_eq 13693 GOST2001_CryptoPro_C_chain (by decide +kernel) (by decide +kernel)

theorem GOST2001_CryptoPro_C_checked : GOST2001_CryptoPro_C.Checked :=
  .of_ok GOST2001_CryptoPro_C_order
    0x30386ecb3d90a27ce4f725479a857a78fdaefae46f8b0da577602af2c9613c44
    0x60d5d547855e00700d14149d8540f7b66189c7a8df258ffaf1d561a51fad364
    0x3c301072b3cd1f8a45f4010e77b85da4b7479a3a6d340e6eab62a14925fa3914 (by decide +kernel)

private def SECP_224r1_chain : List (Nat × Nat × Nat × Nat × Nat) := [
  (0xffffffffffffffffffffffffffff16a2e0b8f03e13dd29455c5c2a3d, 0x0, 0xee203bca4262791aa7f2004daa954b76ca9f656d15a0d8fcbf36b2f0,
    0xa01aac812596ba5e69155ca895df1db3afbecc8c221dafcb7b84ff8, 0xab10cd594c7da8684372e94a872b1c55abc92e7e0a31d1107ef3d6a1),
  (0x16d23777eb8ba889b3b14cba4821e69804adb95b99d9ef58d3b, 0x0, 0x22cf0cd4fe476056ac5a2a5626ce340644763674cad80d433a,
    0xc4d8ba8c45e128f024f8b9babc3d6d519be7848006e11bca4d, 0x1410e7ebfb04b3c700ea71fdb0f280b9858483c04ca627944c7),
  (0x317034771c5cd18a2b452035b4b283831794601708feba5, 0x0, 0x28c5c2ad9c70b00bc946c3b0195c1390f503bb631c89af4,
    0x1f82b1eb6dfaba36908a7474a06d4dbc14c427205310747, 0x2fe1a604ae3062c279dc5d54e08efc7d854378c23e90d67),
  (0x28e69320ece8f19b4fcccfa0ff138c7f3a9db80e934b, 0x5617de1b63a2b5695d932c55a9bef317aff822e2a10, 0x203bce115ba2d16ec6114bc4c611632ee7a77f907643,
    0x1f78d52f5c368cdd73420017efe9f52672fbc920e11d, 0x8858a50e2e6e701cfabd7ccaf348259927b37d6b219),
  (0x504608a8572defe31d371e7474050b474b5e39, 0x2e03c6bc328e39d64ac2b6ab3b18d3c0faadc8, 0x4c073bee22fd8e3b4b6cf3cbdd59a3ba88909a,
    0x87d1de3e87762b3551606b17d1556f81dc52f, 0x30137a949e96b910b14c94c81267a180d618aa),
  (0x1b8cbb695cfeee8ce5e4d6b3583d505, 0x14c2fd874b53fb61725ebb71cf1b67a, 0x0,
    0x527396b02e03c35ceb97612eacd6dd, 0x47901fe00bd3b499744bb4826a013d),
  (0x15e40a0d928bada41d0ca07b55, 0x0, 0x66445718ad81ec7006d12525b,
    0x132ef5f4fc8856d5098e538ff4, 0x610d7f76a65bea0349183c5d4),
  (0x9fe02e6dcb9f37b44ec3, 0x0, 0x367eae6b652bff77731,
    0xa98f7028f94ab0f0bd, 0x448999138fab0eeea3ac),
  (0x2bc66351255, 0x0, 0x2b4b2135bc1,
    0x21c88b97fe0, 0x252cc8ce6aa),
  (0x2052fd9, 0x0, 0xa91c98,
    0xb12b1f, 0x108ea73)]

private theorem SECP_224r1_order : Nat.Prime SECP_224r1.n.toNat :=
  prime_of_chain_eq 35149 SECP_224r1_chain (by decide +kernel) (by decide +kernel)

theorem SECP_224r1_checked : SECP_224r1.Checked :=
  .of_ok SECP_224r1_order
    0xbfb0c7416cef2338924950ea297baba9a45a8c19e56d07522bd2dc8
    0x2a3b0fc55481fe7547493ed752409b4196872e39038f751a4bfd5d05
    0x59a2db6eb892f815d2e402eca1ce1637ec1ed57ee546b67e75d09dcc (by decide +kernel)

private def SECP_192r1_chain : List (Nat × Nat × Nat × Nat × Nat) := [
  (0xffffffffffffffffffffffff99def836146bc9b1b4d22831, 0xce74148cd7550e7e04c1c88419318b52c8ab9d2463abbbee, 0x0,
    0xb98bde3962410d3437d91b2c9d7e45e0aa314c70bfa3b5a7, 0x92c44902b309620658e181b27a0fc59e2a1eb5e98a9f7d18),
  (0x7fffffffffffffffffffffff045d4f298e82d460096f360d, 0x0, 0x52e74f284a21ad726af386ef8d9caaa1d82fd3a1692c3edd,
    0x1b13836d06d066ae2be2e6a87220ea8ccd99fa3a6595da61, 0x4dcc3ef7855dcc51a46f4fc7c3479867636a8619027b06fe),
  (0x23593316ebd720dced7f4f415717cf9c7d934e8ac8631, 0x0, 0x7997c66a8c96c6c4bd4585d4b8bd731f6497f6e7eb48,
    0x359db0573c02005ebac84d9a05815ef05b3daeed955d, 0x118efa7ae7ee0586dad9040986734e8ce450048afa91b),
  (0x96b402974b59ec2b6d6f595a64ffa2d46b, 0x0, 0x90b90d51975711427100e3c79955965606,
    0x3c61fbcd12b8eef01de1c1a2b9408c4073, 0x26d5d5704f0852100496f1a0e6fef8013a),
  (0x253d48cb7084ec460d35d7d1f93acf33, 0x0, 0x1ac435498ce531d04cd8f1ab58a229fc,
    0x1f0516ee55c30763d25b32dbad85d560, 0x9b32869ebf852f56a5ce036af102506),
  (0xabb4a9591b984d9abc498261, 0x0, 0x7a227f1750f7350aab8933ab,
    0x3644b9924a5f81560093cd4c, 0x3e6a31f953ebba61f5b4f1b1),
  (0x69c470da29748c7b357, 0x0, 0x3d9305f4ba117f7c89a,
    0xb5a86447631980f21a, 0xb0f7d0c62768536d8a),
  (0x17ae7018110257f, 0x0, 0x1627413c7c50fda,
    0x1ae3972d3c0945, 0x114641b035bd480),
  (0x60e1e4a9, 0x0, 0x4170afbe,
    0x4eeab4a, 0x1b101f0c),
  (0x204ae445, 0x0, 0x4a4021,
    0x11b3c4bd, 0x145cbfcf)]

private theorem SECP_192r1_order : Nat.Prime SECP_192r1.n.toNat :=
  prime_of_chain_eq 264007 SECP_192r1_chain (by decide +kernel) (by decide +kernel)

theorem SECP_192r1_checked : SECP_192r1.Checked :=
  .of_ok SECP_192r1_order
    0x7d7d3677298d126e9c139a383a39b775c25f4554658d2119
    0xc6aabb3906c7bad6e1a2f11f58cc6d1f359d787aef929d0f
    0x44e7df8ddd6646fc8c51e95334aff5eae0cb98a960c2fa6 (by decide +kernel)

private def BrainPoolP160r1_chain : List (Nat × Nat × Nat × Nat × Nat) := [
  (0xe95e4a5f737059dc60df5991d45029409e60fc09, 0x0, 0x5878469ba8dd34e0768d3d991c5ad0d5f095ac36,
    0x7a53cd6122981883588700b672eb5c14734ab839, 0xb68728bbf0304e609e3b4b4ece56ce75955594a2),
  (0x3b44a52c8f1878587a1fe1610293f464414bc39, 0x0, 0x14147aba63cc780f7aad3a0b18f223c156b611c,
    0x1273ec8f0609ebcd4da72fa6c77ed012686755, 0x10bfc8cf685f6d3cc6c16e47594f871549f10d8),
  (0x196a31634b82fd2582d8ba1b6743889f8a975, 0x0, 0x315050e2bf7a4a0a15d7f818c2a62a32ada4,
    0x1f68f3d397ef3563a3ebf6be55dbbcdc67f1, 0x2296aa47ced04db5ace62f357dc9d57375b),
  (0xe26509029522ecf35995876568841, 0x0, 0x2ac661a0bcb309233889afcdcd017,
    0x7139831d06bd298899bd9896ff77c, 0x56e91aa0e9267dcab8f84067069ef),
  (0x1927abaaf4205344b14723b0dab29, 0x0, 0x2c4bec3d49696a1eef8daf624e7d,
    0x158badb7dc4ca9796d7712a56d1f4, 0xe1124f9ab201e881da1eed65a796),
  (0x457c6b5fb35964368886d3119, 0x0, 0xbb968a9a418dba16413ac7d4,
    0x1f6da1aa23cfdb49b226671e6, 0xafc0f857049fe87e6c6ea715),
  (0xd2614f37203ac9b96bff, 0x0, 0xaaac18d6c34afdc24a80,
    0xb471b8ee1ed8794d3f4c, 0x62e465a7304d84bd95a7),
  (0x1521ca1fa5bf, 0x0, 0xd6aeb4a7dec,
    0xe097800c464, 0xe3f287a100e),
  (0x4a1b4f4a7d, 0x0, 0x1ffd78dda6,
    0x15e913ab83, 0x1539adcfa7)]

private theorem BrainPoolP160r1_order : Nat.Prime BrainPoolP160r1.n.toNat :=
  prime_of_chain_eq 7458889 BrainPoolP160r1_chain (by decide +kernel) (by decide +kernel)

theorem BrainPoolP160r1_checked : BrainPoolP160r1.Checked :=
  .of_ok BrainPoolP160r1_order
    0x3d9d08576f55c42dfa9477e8ee15f396b6e2acb2
    0x4f4e933f714eb8565631b7c17b4cc14bc5e8a08b
    0x97bd29178b6ebd95a1fe2cec75e85e9d17838ff9 (by decide +kernel)

theorem BrainPoolP160t1_checked : BrainPoolP160t1.Checked :=
  .of_ok (by exact BrainPoolP160r1_order)
    0xb8abf9ae0246b649ecb7ea66c9f5cf071d3da2b4
    0xde2edace5f3abefbd865490bc1c90254134b895d
    0x85435eaf13653d0af0f72daf8f889940b3a59cf5 (by decide +kernel)

end Cryptopy.Model
