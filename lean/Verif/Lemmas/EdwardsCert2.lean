import Verif.Lemmas.CurveCheck
import Verif.Model.Edwards

/-!
Chains of primality certificates for the numbers of the Edwards and Montgomery classes of `ecc/curves.py`, part 2.
-/

namespace Cryptopy.Model
open Cryptopy.Ecpp

set_option maxRecDepth 20000

private def Curve25519_p_chain : List (Nat × Nat × Nat × Nat × Nat) := [
  (0x7fffffffffffffffffffffffffffffffffffffffffffffffffffffffffffffed, 0x0, 0x391b9f7e6b1f03eed00a90b05ad404c6f931b948105b3d90cf5dc56ea10a2b24,
    0x32b0d093922a4600b28447267dbd8d9d1160d01ddd0c49ca742985afe9bb1df4, 0xb02922ea0f7fae7175df0b1cb8e46940bb92ee866573973f212d8c8854d38e7),
  (0x228a73b2c0ecc3ccb0cf090fe49107af5a941e45133974b374abd6c6f3, 0x1d61b642751884a69760a216f9b6d50e6bfd0c831cc64987fc7180b8c8, 0xe7adde680204f409318f70e415653ed2c2456b8f98567e6abc22f2af2,
    0x1fc476c737ec2b569fd69de5845441ca11ab59db26ae76d092aae1f803, 0xf4b682859b575d58ad986f930f183bedc6ee9751c3fba74313bebd948),
  (0xb63b40251b619fe84326594638b2148ce2055a9ed914e45bd, 0x1b4088e6a3860c6d50280055fd423a99a73dac5919697fb50, 0x0,
    0x31ff33d8197e2aa960e9a62a61cd36bc72386bfa08cdf6048, 0x795c11ef8d9d67b89e8e31064496b7e07034fb895ad88476a),
  (0x504cf7442c0f10cb0a61c9a7ea2258dc58dd85a8501, 0x0, 0x367372a49c20a5f1097084b32904a2479aadb5b25b3,
    0xc887ca9d3d5e3e6c0719a942ba9f3d008d8c70a7ed, 0x1137b06fff1fd128480376c2001459061621369d0ae),
  (0xa9d997c4caa90f0696a14265cfd93b42fd89, 0x0, 0x670144c1f4b4951e50d7417391b25b3d57db,
    0x5023f17d61410f70f3f02d02e581f16f7ff4, 0x6ff9adbf44d4f52938c06a31427e252f95f2),
  (0x85679d0d5d00696db6146331c9cf, 0x0, 0x4948fd6c8b2df2248853a3101a97,
    0x4ad7c526b7b7121b875827ebce88, 0x2a2dc1e58217c6a380cb9460d75b),
  (0x5a6aec4e87ede54df1, 0x0, 0x44da6d66af96cafe9d,
    0x479aef8b9b52b1235b, 0x2fe59577bf2b1f3c09),
  (0x5f83dd9af33, 0x0, 0x55d4169c40c,
    0x7ae6aad81a, 0x542b73734cd),
  (0x17c342449, 0x0, 0x1403df58a,
    0x165e6c7c5, 0x6fa84133)]

theorem Curve25519_p_prime : Nat.Prime Curve25519.p.toNat :=
  prime_of_chain_eq 1023733 Curve25519_p_chain (by decide +kernel) (by decide +kernel)

private def Curve25519_n_chain : List (Nat × Nat × Nat × Nat × Nat) := [
  (0x1000000000000000000000000000000014def9dea2f79cd65812631a5cf5d3ed, 0xf3eca06edd98bbb47766f3c0b6609ab7250210be126e5be855ffc46e8603eac, 0xa44fdd80c756658e46ebe64c7ceb625650e22c81a66645079ef948f3da41ae1,
    0xb1907b770d7d3938644241a28b03d277787b8908dc4fb7918022b66c1a4baa4, 0x24f3a47061d91a048edea0967e4474f396ba0f765d2267dec0dfa5acb9e411),
  (0x194b3083360ba8a85c7ae95fbd9aa0a714ea62f282bf6434a9c888eeb145d, 0xde4f6060fc0ba16316133065f2919bc2d89f6d7bcb6402244a68fe743263, 0x9f683ccbb160edb25de568d76535053540af1e1e7f92e7d7d9864b4f0c8a,
    0xe38c47e6e81f5072d894ffbb73c86a2d06ff7c051f5885fa5a6eea957a2c, 0x5c18bcc2fab55dd6580d7ee398b937fd2e1a7b625298aa3ab8d925cb8816),
  (0x5dffa9b550f078204847e0b2b13588935498b4f4da3146c4e4be63, 0x26a2558f519878cb6693ec202e2faeb132048d18eb20fd4c427ef3, 0xc34fef5e454ea9498cb3ee839207f05d195b78e2edf6eaa5efc02,
    0x38558d1799fb37244c6263615cbd1d2245d8ae33772340cf7765b0, 0x1e628b430d139aea01eea93fb82d970c38645b35c20ead0c8e4f98),
  (0xf0d3af8c3f5a628194cd668f76945cf34361b141ea162bb, 0x0, 0xce9c1f5e45f0f22929faafba52c7e476847967374002770,
    0xec23ed6285f7606c37ad25bcd2ee989b0c6bf3c0d91010b, 0x163a774190a682dde60bd09672598d6cbf9f7295ae61b77),
  (0x50e49d1b45b08bb0348c8e4c9644ac076c912773f, 0x0, 0x2633a918bd789c09a6156dcffabe29cf5f3e71792,
    0x2981d99bb11a69466dd82b68fa5bc22f177571e45, 0x347e7d5578740d8fb5f7327e784d7e809044a87f),
  (0x264bccebe3ebe6c2e878a1b50808b7e9405ab5, 0x0, 0x18bf6f863d4dcd58e7d64f125388f84c4e57cd,
    0x7421eabc1bc18e38eeb85e046dc236645e3b2, 0x24a82d2d06cd2aa2046ceae22731afde519514),
  (0x19a9c823968b8e7d906e7a9f2fba9, 0x0, 0xa0be9d662b834be1ccbba2cc595c,
    0x16a43afde35877ce3f95d95507559, 0x4ed7900af0bfb2b595654b1e51a1),
  (0x88ded61322e84cb41b593a1ae795, 0x0, 0x163bdc095ced28eaeb23a1625de1,
    0x6a6b24b2c18f437e21d8322ce411, 0x2644b55a8653b59d4e01878bbe17),
  (0x1fcfda4625edbd3cc042a1, 0x5a031359ca72dfc0fe396, 0x0,
    0x93d732d449b89abdd745b, 0xeacdfa14c27f4b6cca520),
  (0x39a633116644a3d84d, 0x1bb5ad74f7bc7dba57, 0x0,
    0xa02859eef70c9fb3e, 0x26b393a36197109855),
  (0x38c326778fa04705, 0x0, 0x1f0f31ccdcbb0e76,
    0x257836e7497f66a, 0x2d6171f7a9997b6a),
  (0xe2e20f7c852d, 0x0, 0xa99faf6af3e8,
    0x9c10fd26cbbe, 0x53729575c87e),
  (0x3ad22c88f, 0x0, 0x14530167d,
    0x3a365e167, 0x312f069c4)]

theorem Curve25519_n_prime : Nat.Prime Curve25519.n.toNat :=
  prime_of_chain_eq 4819861 Curve25519_n_chain (by decide +kernel) (by decide +kernel)

private def M383_p_chain : List (Nat × Nat × Nat × Nat × Nat) := [
  (0x7fffffffffffffffffffffffffffffffffffffffffffffffffffffffffffffffffffffffffffffffffffffffffffff45, 0x0, 0x6bb84468c57a3d5153af5e6794d24b3ef309fff402286e0e34af41b3b716ab76a185b99804fcc10e923879a965868363,
    0x392fd785f831bae9336845678ddcf7dcc9701e7db1f49b28206f0fe6cfa928788f9b9b102110159561f74595bcfde0da, 0x39f4b268275656b7d1954bb382f48a71314352d12849318579993415435e74483029e798f3c039f69feb595d5d3b7906),
  (0x11c596f1f03b4b5e3df5a3d4d5ce792f3c7bd98212b9acb73d9abf951a37188128f4dd9f7e67ef61d93847b7feaf, 0x0, 0xa252dc005ff872fc5eadfced50389c1c6f8cc7c4506d23e81ff149a5a1542011e388e83322a40daa1c790226a3c,
    0xf83433277007624118d141ed2405e64d69b89d6c5b0773cd749cff58dca7e0cb408a29d165539b0203f2c3b973b, 0xac347d7661bd3e9c320e42c54780657df6fa026872f48fdd9ede9bebea1b245b95ca0c72845804b6709b9c60024),
  (0x15755e8534e376a329850c21654f7501c6b5c18b5433f551898d99a79811aab5a49a9b7c77511f285da905, 0x0, 0x77b4f4ed07104aa74ba59c4fecb2a92f7e686dc25306751255f4c56c30142125b5bc758e94678ebbe8298,
    0x73d48423ffa95422f73d31865ac2bc49ce9341a2dec8b3c1f1428ef0667b958043802eaf91f96ba07d619, 0x7ba8d599f3fea784e427fded149a95116163ab9fa2b3a834ca63df4ab5b0594e04a5ea778873f520efe20),
  (0x1c8718b469dfe0f0d80f59fe5da3b68ec8869d1947ffb2450790b9f09ead56d10dcd717050c0a89d0b7, 0x0, 0x131a7ff635ed88128d88c6aba9116c40608a5590e9f558be5c1fdb6ff0778868eab6c5dc7a457262cfb,
    0xd7bc1129a25a70765715b5d3522752a8c4b7d04ee324a5fd09400aa3bc4e7b454a61da938d914bfe90, 0x1c3789203e16795327b68516feb41a5784d7282a8c417eb37269605dc4e7e8e1e0644464e1bb6b5e668),
  (0x4e8725b9918c0d99b8985d92e63bc4f9e5ebaaf03ab899d9ef57b1d506b05ce32802eda7a6e7d11ad, 0x0, 0x1316e3788cbed1e75b12a12af062cef6a1c27ac6686f75c0540f9fdeb9fece64ca35bc8314438885e,
    0x3bb9897df84dd1b0d53cbfd334383b12d3b00641a256b0d050b97e73e1601ea205d9cc538f82eba8c, 0x21ce58a33496bd9d4bb8fdba6e09d6272ade962392b368cee762113f9d4fa719c7f25413e45e33743),
  (0x284590828d1e0f5f5711f9f2adc7264a3e96cb7fe91ea3817e45dfb74cfec598a6599cc244414b, 0x507f16d2168a2a269d25c9d456d61f5f4e75aa6fad589f0803fb27a8e87390c49524ce530df2c, 0xd61f56cc3d036e97e7d3ae90231d5c1d5c6e05120fd1834107cb5ce9702b482094a67a2580716,
    0x18ebb94cab4c7b67df00da186fd1ce1b22b05b375bc322c9879ad956754229071786f5bb46823, 0x24062249a44fcda20ecbaeb0c3b672e9a28717128d8f708c657328bdb783ec28b8aeb8e6337f3a),
  (0x309fae0f72594729885fb1e8d5066e06529da0df910eb1699d5e3be6f3155e696e9dd05437, 0x0, 0x179ff3c009c0c247eb2bf4abf35e8a5b10476490c9a779453762a72137925d974978d855e4,
    0xa6ae1b19ae4df460879ff53acb11425d4bca78aec5460ad28c311210980d9b341c69cd6ab, 0x2f20ff024fc38df4966d99317377b385be2df9693af8aae7c5c66865fc713a9dbe3e799ef4),
  (0x88b979ab6605c46aab7d6bb7389c33654312c54ad5c83df5ff8911c4117, 0x0, 0x2074a515ba000ed2a7e063165c222dfcd6ad50d25e9e92a7478fc69ae76,
    0x22b7f97ac1b4c0c2cf5b7bd18f708d2a4b916a6650bd980153d653348e3, 0xc1779dc3d1adaf8c1ad6a73343f79c7dae46652fad9bbc747ef24ccfff),
  (0x8ee5e6b58ff14eeded4ae51a2ca8341df37a0abe757cea81c12917, 0x0, 0xe02c01af41b73af8961866ca5a7b226b81999a7eaa700815e46cc,
    0x269d2089a846458cd1f0d54898dd2e72810e968d0ce0a234fb00c8, 0x2dfa1bdf4c4fe22b41b2f4959cd6dc7f741cef69103b0bfabeebd9),
  (0x11c84afdbd53b19a34babb41da2d0c1085ee38db85, 0x0, 0xdd4c66e5ca52a88dcdfabbd62c662b3f04dadb71c,
    0xf15e24603d6a5f016cabd845f538fcec3801fd99d, 0xe4b03aafd5001c905ea88b1937be418b089b2e715),
  (0x1afc53641958f3d35cd3fa9bc44f1cc2b554b, 0x0, 0x1169fd6a35d72c80d038b7fc2ac7904e9eb68,
    0xb8ccce71ef8e3a2c9dee0e8cca21d52191f7, 0x16eaa6cd26fc0285c2f250d4ba504efd6f347),
  (0xcfc4e9fce9a717ae1aac2933ca327257fb, 0x0, 0x342c5fc51a2c6e553ce16b7dcf44362d4,
    0x42cf87c006d3b615927f3ed5a9b6179106, 0xcecaf0837b965738a4e71e9189092f0dfa),
  (0x18e62d3f27f9e53e6b50276062d139, 0x0, 0x14606522a582c20e20e68f34c1620d,
    0x98973233010eb72c8706e89d7d20b, 0x91c714cfe8df4d71cbef46f658abd),
  (0x16615879eec9ceb361a16e17e6d, 0x0, 0x12b69696b8c30bf92217ce0d7c5,
    0x23bbe2f0923347e70187737af9, 0x9c051188b92e329edad85c128d),
  (0x6f1bb715ba02bf646c3b, 0x0, 0x11194377c9d8ee4a44b8,
    0x390be355b4095d562c24, 0x1b04605026fc8259f699),
  (0x5c1a6ecb2619f683, 0x0, 0x3466d090ef3eed73,
    0x5bf7c4e3873e6e13, 0x36c31f419003f00d),
  (0x27a636465, 0x0, 0x19b9569fa,
    0x152cdc770, 0x121da3129)]

theorem M383_p_prime : Nat.Prime M383.p.toNat :=
  prime_of_chain_eq 1522009 M383_p_chain (by decide +kernel) (by decide +kernel)

private def M383_n_chain : List (Nat × Nat × Nat × Nat × Nat) := [
  (0x10000000000000000000000000000000000000000000000006c79673ac36ba6e7a32576f7b1b249e46bbc225be9071d7, 0xacc9f4dfc747aaca1dcbf69ada4386a4a2bfa187f06b6e525f1fdf409cf1d6057d9429ab7d3a2d5ac18e55dba308104, 0x7f7338a4816ec9c32115c0c12c4a1c17fc2a8fefeeb05ad8b0505bf925a068447b654ad2478ca829a0dfd05acf69069,
    0x3164062bf5463431818547b1bd9674a9855a2121fcb577d84d856ce528816c369b6f419f4f88c47f49082d627b8781c, 0xc528c8f00af116a697b4d113e2c6c07258b06dc981d14ea04fa9f1049574f22515c14fa3a807ead6a1c7f447873916f),
  (0x5db8b908337dcaf8777a2e917e744ab1c37f9841a62e8bffa2f1c4bf876ef24419b0dbb2b6171e96276e233a8f, 0x7df49c6afdb09e71c9b2940b4e885347119674411bfbcb0270f69fbe059fd2c758de0d88e4b09defba5a87b78, 0x49e04011a7bc3bab35f474c3ec93aeed39e1ae15355fcbd35dd4ffff3fed04d183634006a4955698adcc393c90,
    0x2697afb8a2ebcef4bdaed29d79969003c0daf0692f13e785e7ccf7eddcbb612ac9113d9e6031205ba79bac2e79, 0xabb7045cc665643c584e7aecc38828e12bdb953ffea963c57286b33284f3d2c5f4f77d5551b999e208b608b92),
  (0x2660c7622f83679659cb33c9d95032101ea262b4a981dc8311778b14c68957814bb7f0d685da0eda2e7a43, 0x16ca6944f3d62c5200352dc8141bf05cc3ae3467659fbac9d070d2ab361db21000c916e6ed6451a8de4d88, 0x61840246a77bf20bed39d32e9bbd8ee9a1e7426cea3c55e94f06766955ac4d24862540e789e935a91f275,
    0x24e4072e0126c947747b7c04cc130d54cd64be319fa722e7b3a53b0b5d6c6da11f7f869792ccd07bb2ed24, 0xd65421bfaccd12616b37b9c0bcad52c985c88cf1df05f9bb60acbec78b09e956e3088425f29b324c170fe),
  (0x3af28b201cfff4226500998f539531f36740015912ed36ac85804f84e4d8ec4b191c29c5f3e2938cb, 0x14a120d5e09d66997f11735520a1b23c8648a555d0c7d2e3ba0995afc37ce02103dcc80a01928d413, 0x111a8870d4f2a9509bad2811e25c6379e2027c743ad1edb5b6c4cc7f9680aad8e52a3b6bc178d10e,
    0x194b461558a0d2f57bb4b6cb9d3f701cc614cc213343dd05f04c1c3a16a58344cb680f98ce9e93c23, 0x1be90c63a139a3ebca461c157c00dd6621799efd226a4c2b38944efe6551b2919914bfec57caa768a),
  (0x5e50de99c7ffed03d4cdc27eec21e98572000227d6cf21ca3b7a4f8168f121bfd906115c4ba70231, 0x3dc824342bd933c98f158a3518ab867739395d595604cf5c87170c6be661f3f9a4cdd0f61de4432, 0x0,
    0xe6dd65ff8b6057f4d1c7fd2157f791e7d4e9b3e02297b2680f1f9433ded713f2ec331dbb5f2cbc3, 0xa848a290de636fe6a50eea4344abe16e090666c609dee0efd0a7d952e634d9b388f508fd72d4049),
  (0x440f97eaaab9984b6a36db5df9e6f4a6f075641d591c7b21f044fc024a3d36b6891ada2d, 0xf93b7799aa9b6ed4a3badf0b78fefb38f88bc15d2ba86511487bb5a2bdc3662e798088f, 0xdd64889711d041a18e782cad99b86a88acaaea8271ee8218ffd24323b61a210d41b7af1,
    0x1070a95ec9249a8896877270892476c950397e4d9635893e69486f1657f5e275d6e348d9, 0x36f8aabe0bc0f719399aa245c964165bd587193ae5227cf1103ec6629a42b65c8f5b63d),
  (0x347a61b82ff8acea6ac748759bf29060e2641e55338214adfe3dc323ca323, 0x7cd41bc2b5b3020e531dae368ef0885fd703341aea3cc7537225c3ff899b, 0x18e7c02917d39434fb1aaf6f4b5654161ea4acec1a69081cdda11e7a9e49e,
    0x1a80f9437eb9a74b3183573c42b0f20f94e6291c5578f203a4897362504b4, 0x2b141298ab47c3db8e7804240cc3a772841b80e9a37a3d5e682d95bcbf727),
  (0x15d5405861f3e4e073b923258d6f052dcbe1fae2f433bb493617e2c5f, 0x0, 0x9640124d34598780d8e7cca8b7d90509c63415f7c628cca47e72fae5,
    0x838ab11dd54cc740ee88a6fd80563cb0d837a6a52f6529cd0d2330b1, 0x1046f350e8ad445ff408c76004d2a7cad7deaded6126df0cfedfe8a2c),
  (0x64be208f13972fa5834180cfe1fda976f48ed0bf087b047efb7eb, 0x0, 0x232d252767daf63f3acf0b37650ad6bbe3d9186eb2f2177ef804d,
    0x5dc6111ee67a3e5de8e1e8479ec03d33c0a265c114e67ae53e813, 0x5b3cd797fd0915b9cd7a96a019c14637f548dead734a21238528),
  (0x13478e922f4d00cb5f81b3897780cfa0859fd52cbd3b57c3, 0xa5ef7c73c6bbe264fc928624979f6826b93ad9965d40a63, 0x4c34cbc28be54f1c0b99483cad8940f4c0e542fdd8dab16,
    0x225aa8971b5102997fe5b0f08d67674b61412413365a40b, 0x28f16f3d9e9b788c570a24c4c6191b4c96fe8b75b1635ef),
  (0x945376f1466b66ee9866ad74e9cc2196bc4cd6fcc1, 0x0, 0x7b39e529efabb6934b7713bef2d038d95122ecbc76,
    0x130a89c4ef3c4306b4ca13db1e1ddad11db1e3ee14, 0x726673bfc115ec4df21e4045aaeaa1531e0887f79f),
  (0x114887f99f91778b5054abf1ff2bbf5d5afbc83, 0x0, 0xcc60655ab15608f18c4fe23b7f8c660ba7e49,
    0xaf4d861ab6f106cab46874a45aaf741d8fc79d, 0x2cb7aefeaa03a86080281fe2f0504f4c614749),
  (0x300edbcb3513516c432a6b8f80d2e79bd4d, 0x0, 0x1fc28daa2bb88fb456bb6aa63163b2bdebf,
    0xf44782620685a1e91210b81734f65ab433, 0x27bfec917b15b20f52f6056e4558299c52c),
  (0x13fa9ace85abebeecf7d5eb9, 0x0, 0xba611acf0978f44d846fc51,
    0x17e894431a4cf811076a1bf, 0x10fc251fd15ec788af873155),
  (0x54592acdf140f85a68d3, 0x0, 0x2e4146cce24d96b99189,
    0x466e984ed08c686b3506, 0x4effe6f95e803eab1ce3),
  (0xc4197d7ab7a81045, 0x0, 0xc342d63db22c26b4,
    0x2c3028f6778405b9, 0xab1e2fb84e171f92),
  (0xe8ba6dcb7b, 0x0, 0xa5f660f71c,
    0xda8b2eab96, 0xd2734a3d17),
  (0x3c561d9, 0x0, 0x1ea509e,
    0x32ce8d0, 0x3955d24)]

theorem M383_n_prime : Nat.Prime M383.n.toNat :=
  prime_of_chain_eq 54367 M383_n_chain (by decide +kernel) (by decide +kernel)

private def M511_p_chain : List (Nat × Nat × Nat × Nat × Nat) := [
  (0x7fffffffffffffffffffffffffffffffffffffffffffffffffffffffffffffffffffffffffffffffffffffffffffffffffffffffffffffffffffffffffffff45, 0x0, 0x6200c2e708cb99a519d7c5489fb35b3c8fda5e2046d1c8ade8c98e46af6c2c133e2b13020a6a9fbda6266f6b29f8ad6146866e8f710fd9b0e1cd8fc43effcc25,
    0x200c79de8e086ab0cb4bcdd009dad87c2c3774bfb324462b34bb87c11d84e4c70301d5e3be19e285dea1b8e2dfe8d22e9b1b0fc82a75f71eddc2facdf7e37d6f, 0x46f611ccb8b16d203304206dca33e8ee8776a658a5e2157990c461a353f1fcf96a8b292d88568a33c94f64e3b95d550b7cd98d4ec5aeab6516201ce4cfb1dee7),
  (0x348f694cd015c36199ce2902e669af5cfb3367c29c800348f694cd015c36199d4ccb117e47d07400ef7009c0c9e3f2bb06a8b89b4f2780d9e4ba899ca431, 0x10f4bb4b6134debe4baeca556a1771237da580196b8cb8c54bf89e05d93855c313ef6ae03025effe3d12897cb7563dea5e1acee9c5c246dfe279376a2181, 0x199409ee1def9723116e167079bf7d78e1bf3ee0a71da7070a45a00e47ae07822d22fbc011a2d562f5854180113795fcc3db9ff4681c3eae66641c651f0e,
    0x19288b28d67e48d7c1c39f252af585e7ecc0c5b1af9f7170e8fd9f72ad78745c77b6ccaa2ac70d1dbfba3fa1fabcbbbd45c009739c4dce7d344aca2f78c0, 0x27fe6d0ef492f567f72c8fc5b7e961fd28c5388d46cf17ec3d42c88f7512a166d15837153901fcf4b1310dfc3b02ccd0009a3a33bffde1a9eac3319c0d8c),
  (0x16859973365254a17ab5297d1ae0aa44d1ba61dcc012dbfe97747060233a2ef7f36a49516ce01c07a4425656d43d2f95e2641c4ee197e1299e8506811, 0x5d6886e927e9086d44a5dd708c7654da9ae69474d2bbeb98ba9e49507a667a987ea2b5b102a367b2c42a607a9d800ed15620f5e2f19395b90cbb9710, 0xf93a7105ae385ff29f759da1ed8ef13ef280260b1acfced82a7709eb754d31704b470b524f32bedb519467d18e925f93f54987d564a71ec968e459ea,
    0x137d36e43e9b1f6f050396f97d54aa0fb12af67e5283147c899aecc3b30421c5a2849bdc9737e1895988e8985058c0924bbd9f327cfebd468e2ba1a0c, 0xc3ca95010cd26f75163944ef1f70cb7b8568268e13444ea795f7d4c8d68a249327e06feeee1bc5d72fe8b64d0d7f53c9b91e78c6a307ce2648d758),
  (0x2327f5c6933bd546fdfb91eefe3f7a2cfc741be1f3a08f99e62c647d17c53076ad4aadbcf68b5b805026c2554578b9f73a8a6b0a05b93bb19de53d1, 0x2284e28cb4922e4c8fb24d26f5e35ee4618bd86b14e1817e131d0740830b7bae78b83dcb5287151252ee70febbc513ab8135be890d989b6aaa28802, 0x2241ac4ea776cc7538f08dc73a6b461ad6625d0e997c2f295983e756fa09bce078614d94d6f4c205043224b5688a23c8153299420f1744e20c56b5c,
    0x6f1305fc90689898821babda915b4ba516837a01a5991b60f6e744141e35ae49ad130ef39f582963d01632ad36b6954fcb5197a71cf0f6c153caa2, 0x424a56dd2d1f9fe5cf33f526dd21e1abad4c1702e4e4b164ee15f02479b5713974c38c7cea22be739a0fff423d6d59309b6afdcc0de1ac23ce1c74),
  (0x8c55410a6b55a8e4e3c6f7cbe52f6931192800b4ee585097434c5d2e18c1c7844d437e663d4e86ac6933b65ae515e528bfc89fff3cc031333, 0x4901ab79b15bbd1f3ab191e4d25711ed6dbbfa0e65a8b5d46e2ba8396240de6b9fdb7dabe7c0e70bc464060834f379c725f8391ab8852d7e6, 0x697fb7c1ee509213945849065175a5a3585d9a723e20391779ebaaaedb84e06798ae8d6fca843fb7734444f0ae192b6a431c4b2aa058d3ef2,
    0x5ba15c81abed7ca76a85082392d205b08b7bd99d2d7e2393f405fb7ff58967854f8cc4a8d35d55f9d42a9e324e1e0ba14b360069b86253f7f, 0x4293e2858550fabd13a6ae70aab178a3c5d1248c2944ad14c66c15a1c7107e8ae0a9e02872b9fd0039b4242256b6011b4baa4dd99e51f0775),
  (0xdb0e7203c6c426dbeceba84484f8d6272d8320529fc20d68fee797b1ec676d271007bc14edb4dd0280ab45cd6d34800a9eaaca85eb261fd, 0xa024cda1849aa2ad09120e5d40cb9e1d5a07e38845c73e440a8e61de503dda6bf2070d1bd6f6289e9f00f631d47340fc021ece43223029b, 0x0,
    0x98dead85fc78ed9ccacf24bf1254d2df777aa524bd969047f97c415fe0fdd856a88a163aca02fe17e48953e555d4f994fc6b131c0048892, 0xae22ef900bcb12b28df9117b1dd3163366e3befd7c8803f6f6ae33ee34d9330e8dd12388211d7ec5c0b7c883408919c4c792d69e6d4991f),
  (0x1f8136f102b2ef271bbef1a80e8595e1f7969912360aa67580214ec48f4823a56cb0ad08da0ceb0f6b8dddf2000aacf08a4f9f42e3e61, 0x11c6dacefc8d8235c3a5248b801561df4113f50bc22f8defd6bd84df70f1fbb16d9e3b69a49058bc5a18c0cfbe23bbb39a9848f5e7f5, 0xdf7b18787ecb9aa65a55cecafc678cd42f12388babbaefc6d5a935603c35ccddc419c73ab548aad6e3b8a073038803e01d7faa1b3d0e,
    0x66ada13e87162609d095e24f242272169c005d43d5c886aa2388d79ab15c7fb6f5ee7b1451436971653c4eb693036a5c2cd372221449, 0x16c86206403c42b5ec94c1aa083183d8c5a42af672f5ffe3b99a42f73ce7924af42d9da915672db76fc4917f8cb900eefe105a13cc5b),
  (0x1bf436df4166541c3f461b787da9afb41094f49ec5afe6ccb5a6d66cbc8a21f661c3fe875eddc130d9a6c840073ab9b35110543, 0x19a79f761f345537ddbc6dd08f50729e37802abadd34aa4a2a61c5dcdd4b063efd65b901c8ba62e6cb8fb4a3265582871612954, 0x1b8aacb7a38d885e86d80dc163d635ab93713d100d10beae8fdc77aef9576e82ffa63af5d7fd63fbfee833ec7e65a919f9f6334,
    0x77ad6399fad0ae87a54718857e325b056982f73245c681d3160a39ab6f6e91f63de9c792310c4b4da15c16ae2187a4f499138e, 0xe3a5f07ee1db55a48e410101f119da47b3657d88bcbe7d9e129f7e23f76190526c9c9eae2a642312d5508cffa6e844d46374e6),
  (0x25f99ada4713fc33a9377e4f4f72cd0bebf23a379f351ccc198b2d1631e79aec6e63cc0846a2817290b566aaac09d76da11, 0x17079e660cd4189acf0797668efb9204db56887cb6c369f40fdf8efeb9dd4f5afb05db98fcc0ad23c9f37be3f7d6c5dc926, 0xdbb313304f837fac0eabc246729db84910d6e3482d852d9e7e2f3a9aae3ad23cce882d65e44bc97661cb3cd2a0dab92c0a,
    0x57c1895ac596c5b0d9b8a828f8b43b58f0ec375149bd7a6f83c99df1b111e0b77af44f01d6bce2b4c3b663d0b8edf713c4, 0x382c93f22440dbcb005e98da088f82171ce2e9bd7ab62551d4a66614dd0b69332ad17c4b9298351fffbf486cc30bb17459),
  (0x1497ab2fa910f7abf137227ff9af67ca8cc5a60533079f536d1cad5167a19a658b52a106fedc93a92b998611928aad, 0xa6f82ba251f16cbe01153b6cf8bf518ad56d4786ab9047e0488c4326c5f61cb95910ae6fc6a449505a3336a7acba7, 0x1169b82d76149880359575783f1f36a5ab979deb90144936511280911f2d07a28b880f0cf93bcb114d7549410867f9,
    0xdbb843c0f07750701e9a796709e51efbd02c7eb2cc5808bfaf23dedf63622670d2c09449c94d78b029e388dd14b4f, 0x9bb26a0b45bbfd0b78fa0e078ad9128fc79a8e08ac2b1383d73a48d498038cb44158d5944779aff4c21972f6c8b42),
  (0x148b84a925e241f4f37ea145770f87edae600c64c09946e6c3389821628b3e69d59a9013820357c3, 0x10e73ba64c948b9bde13c564e43f6b7b7713f59a9658a3fd1b3919d196ae83014d78916e4b9b45cd, 0x14e1bd8f17d427d2917ed86f1a547d5a8a519186f7c7a0f10f97606b104b1f65bbf740e7e951760,
    0xaacc937dfabcf50988163428f27f40d76417f8032dec4d695f59d7135013d6aa2b845d76ea54354, 0x1421b607127fbcfa494a8cf8f8d99fa60f7288f5027b7cfb3018793b6f6025d48f11f32739dd3206),
  (0xcc64252fcdebffc5c92483d784c4ab37ee974bd205f80caebf7e5c253219ef3b5d2051ac9, 0xaac2b05077409c891668d91e19b792b6bff834cdf247bfda9146a6498559b3db1ce248247, 0xbb4c058b92d3eab191be2240a7dd60db644bff927e8b16d9cfa118f2c0703c5290fdd8916,
    0x4698ebb9e47fe1bf148cc5cb6491875f53481fae4e4c24e38da1bf6de7c151770944987fc, 0x57897847cdadd77927372d931e5e469a5eb35e94cc5c5f8b95bc2c0f266230695620edc76),
  (0x13c642f0c72c2e9ac2d7e2c132dccf83fc8e660caceeee5ed3422803a7126b6179d51, 0xfddecef3b2c3e3fa14deb8ff0407308120fe7753939528d977d96c2f2835a61a5964, 0x0,
    0xc6a0f73a8d2c995138d41d13463d7fb9ce8387be83db64f8101d547d26ca0a0f0d4, 0x4e98513c58a8039b19b93026e532411b978a649a4f1f9948ea93cb50ae98de12bf71),
  (0x4f190bc31cb0ba6b0b5f8b04cb733e0ff1c20acddc0d4705248b1b1170b97e4ede1, 0x1c9af49c6220790905f01796416c86b5b4c3663fdb4f28cfefd8ec03b78e9c25399, 0x3d35fdb330549e8e52b05e28a9d549eeae689a47ebf3668619cfef04c5c73faa97d,
    0x1a6ec34827d725c428dcaedd972e193d01e45a7c15529f281cb9b1c512af6ef7e5e, 0x27881d8c6676234906d4e499bf0754e2c71dd7bb62dc629768b4e0f61b41ff17ff4),
  (0x3c050dc7163334d1bce748aa60b7f7dfd50694b1dbbf60078475384c11, 0xfaec609f6928806c6e286c8c8e2685eeb3eb13f674a6523f1a2d200b3, 0xc7247b22a574822397cc414b804cf74fd98b147bd7ea634c1f73dff19,
    0x246836e0386e995df1622f49906ee738b8257d2324e78aa5c30273b649, 0x366fe375d1bfd3dadcc20ef77e426619910f345a170fe5cdbb745a24e8),
  (0x7466e46ad5b8a47f7ddf94af473622d228a4a81e6ef3546bc773de43, 0x1165c6211e25ee310001086eee240f1b7b72dd4e9d09b08c238a477a, 0x4cacdf9a6cad8e55396a4658bb6a717f4ec04fba7fef44889f3426d9,
    0x188b3f4ee56f06ffc80d7b41754abec4788b8e0963e3ba71831a28b3, 0x228cf8ebb70f46ef9e44698e7bd2f269e3377eacc3171ce4de9ce5bb),
  (0xa2f2601ff735eb5967966c65e124e418f5272660a1cc2d628038b, 0x2eeacfcdf378519a61ca6861ca0539e6753e60962cfe315726c40, 0x1e96e5116dcf7feeabf227356681a49d778c3ae16bd5617cfc45,
    0x49de61b3e9c904b5575f0315d77109d46241d6804e9bf6b7484b3, 0x5ef070ce5fd6e221472abcd318e6cb2b22f36da9ef54a41c33ee8),
  (0xd7154b99343db9b2e2235a2b4c543c4866869b527f2a8a05b, 0x0, 0x139e5feba80daa7c7fd1c4a8fcc1f0f4718bd3ae6d77aaa2a,
    0xcf12694fdc122fbb21a8cbb10b13da086b0574617a5cae225, 0x4094858bd5b659ff5cd67eb14c6a64193fd5a449859a6e5c1),
  (0x731ce3d2cdaa087ef57af4bbdc48ee6dbbeecd78d, 0x0, 0x363cafec70bdfb4de6b03b6efbbf7001ea17fc398,
    0x12aea183d5f925b0e4770cea019cdc51eb1c9acb1, 0x12414d8f43d5e5a9cc6770b7063c91f0c0fb5829c),
  (0x8b89fb16b7b1da91909b6af78e466dc0217737, 0x0, 0x3aad5f505bac2d549cf911e5f3661d32b6993f,
    0xa07c406213f156ca1834ed58c8b7a0cc9445e, 0x646fe091bfee4af533e99c7259e34a2512ba6b),
  (0x3555931ad480aeaac7dc243, 0x0, 0x1a14694a10f115aa5058077,
    0xf301623a45792c1a463c49, 0x25f7ef321bac85778bb43f9),
  (0x7b74bf715797, 0x0, 0x2747e9a35cc0,
    0xa09577f0f01, 0x52574b073d05),
  (0x1d714bc09, 0x0, 0x18c22d6ec,
    0x1289ba8d7, 0xd817822d),
  (0x11177d1, 0x0, 0x8bf3a8,
    0x748f99, 0x3c7be5)]

theorem M511_p_prime : Nat.Prime M511.p.toNat :=
  prime_of_chain_eq 459469 M511_p_chain (by decide +kernel) (by decide +kernel)

private def M511_n_chain : List (Nat × Nat × Nat × Nat × Nat) := [
  (0x100000000000000000000000000000000000000000000000000000000000000017b5feff30c7f5677ab2aeebd13779a2ac125042a6aa10bfa54c15bab76baf1b, 0x90befab104672857bb11a699de3808abe42c1d9b8c193a7164a4ddf9e78c0908d558486b77bfbb5829477c55bd0e5ad1421b15b51a93d950c311919ced0d28b, 0x506a33fa713476be04c4bf94374209e6b3d22d118bc61349d550295a01dbba9f416c8897cddd39f880df07c746578a14a08d72bc7e3166d0dd496625cb3b163,
    0xff33364ea5022364171c358525a4eb86429c9133591ab8095284533b00a9f2d4d3cdfb7bb6fea1774e2b796921586e6a8e2f1c717221587c013606a1438b926, 0x7ca978c9c54972f28c4d5e9eedd858a3a781a51739fbc4bcf0419fb6d14681522c0a715ad141e932a2c873212fde8ca7ce009f6092e74839965779c1a529b55),
  (0x189337019d88237f06b94314c61779d3e1bd43eb16dc1dc313775dccdbd437ad40948d931f531648ae255beb05d87c8498c3b7399a74191d192afa3, 0x5ddcf3d1e6ec221fafc6503786d9f66e66455e836ebe7d4ba1b44907d68322dd277cc80a97eaca10b14bffe7ed5a87c22018242b2b23359d262b0f, 0x144d5399411e98ca228be49a8f6d728ff3f6853c26ad30575075c93d44033ac3955bf7c44d8b2bfcc828621608a1fa8798733f232c1896adc8847,
    0x15cafb3f5d8ea0893721cdeaf7d42a8432dcc0c581a88a28022b74d1687b4909ed059a2189a5c329b0c249e5c82a161e415344692867a19c196860f, 0x306aadbdccebc4904fc3151c8ab5ac3a743770cc549f02988b03cc30ba5d26de2e8a0556d01068d850b93ff15a89b46d2dfb844dee1ad33433716f),
  (0x104764b04a01271a6db88b78aa723c2bb6a95afd35d2f72d3757f7fb154b1f65b08447b3720d29ca54228210602c7fd556f5ba33390f77bfc8b, 0x79193c49cc56b7a09975b2f453ceff644c8dbb915499dac73a57e326ad8a55b6a76b2286aeb5d69b78439c3b5b46858dabddcae2be30aaef5b, 0x60f04262fab59973cc2cbbf67ca53c41ec9ff6905b18c848213ad1fd3d19b51c3685bbcabdd2cac10a15811e08882542aebb15d28a31a05252,
    0x8f8dd4dab84a5e7b7991846a16122277d0b38a4cb1fa3c5a198155cc6917d4d864442816a0b3e4285ccabb62cbac635efbe407afe4f5064338, 0x8373eac41e3606e954b8b61da0da91f01bbd209f3448121534319755b4d3b08895bfe0538afc58e39949591c7f0968c96c4ebdfba0ed224579),
  (0xa160b4866f812d5d8674ff7be1b11f59ea44e54823b98700feafddc01a92c50ac4674268751903335fa0c5d4e28be890b1b6f1a3, 0x3b90a37d7fd4b24fd66af42e82303ef761a42c90256e59e7d455ef449924b75d2cda34d7c0ce52df54f9b9976f853012e8356b9c, 0x38d7db4744734d080eb78ee7885394d764ec7cdfde1244fd86da17c2688ab89df8b8f541f875d9d179548e84803e44d7fd2a5da7,
    0x8f521ef527d6485ecd2f9c077b60a62f16804a0692c0a3059dbc49729573d1e3aed5011be65795b16aad1c60c6b0b374fa7d45be, 0x85f53d40c8dcc2dbd74d345db2a4059edd2194a4a1a5908a56bb035c83922108e149e4f61cdded84741cb8e8b70fd55f7fc89474),
  (0xbfb9b3fd63b9b29ca4e97a5b7bbb6eed58f053af2567be5899f10426222b713b92a03eb33157924d13e2850b349572d49b5, 0x9ee9e2e69668656094d0143f4e818b026a94397e2d631a7a850f4a4673d4acda4cb811997f1d01e9bb76fdba22690f9cdc9, 0x0,
    0x78ece8f5293951a3066e1b7faa741095653a39237aa489bbf1fb29899c7d40d140dfdf24bfc754b7362387edd8a9c77b7d5, 0x73e5edce8adf73bdcdc6c55757155a88802a9645f9766db5c300893b57d5c2d4bdb52103ae81bb3a087f48c27a99df272a3),
  (0x44796889258e6d0a46f950601979ab1c360c3c17de7299950bdce815e547fd127474cba50d16d22573c089ac475c1, 0x181c0d7c6726c30b867dd69d6b70fd9f1fe6561db962397c0ccb9ec131fc1b873c0bb42e98e7ce5d95c614686430f, 0x43ebfe50cc462c7008b9b4bfcad1dc18f583f12f31a6afd42351e202b587c757343d31b8204a006e466d5ed2d6952,
    0x24dbf76f100a3e780db633479883d1a8e7336ea14c91cb6252406ecb8a1082f923b905d888bb9922578d961acb5d1, 0x303b8461cf9b550a3dfc471b20fddf26308c81720248a876492fc1bff997fcf1abb5a973a1b089b8368c6adea3102),
  (0xc12959aa6012208dd433a99c233122de0a0212995f0f17a0c1ad91f305f79c6b13a4f64af5dec6eea95d484991, 0xb2f27dcbf2004524d2efe6e3bb91cbf14329b3fd07bf554635c14d0b7671f1ad2bec6eb70d3996d4883ffeb0bb, 0x0,
    0x94cab1343d183a43aa8c58c860334fd079ad0d268ef6ebaa9cf6fc84fa8835071fc742f3eddb04a436cff53fb1, 0xa8c6a8146cd0f14c854abfeda8d87ec1c09d2c3d87b154851be978eec73333e2bdbaea5e1887eb9622a2250b4a),
  (0x1abab88cebce7a6734e37285f8239503e147f780e1b40e47ef0f036e37de30d697a3dd65b2ac8b8337d8025d, 0x59984af84158715cd9d45dc1c49d89f85251422b1b44136681404ba14094690fa7a77a8aaad641fd1fa6f2c, 0x0,
    0xf0fb113523bd9e889b2dcfbe37e673193b213f39735172d157333b5e7ad3dd6600e7033ad50117f680c0be8, 0x2e2bf3d47971c02e07a75cf15b863d10a5e1e129ba0f9e5109da33a8338c729d65a62196f9593b69ab44b5d),
  (0x3435c589afe0e1d0ab9c2fd72bf6b0b410265134eec68c32a946f02c23d5f5e779c360801ac2b5, 0x28a2d4cf6ed3e017e0cadf7820f0486b3bd98ed2c68e05ef878a5c29e116fdf4b13f69de04cd54, 0x0,
    0x1e9553c419ef6c86db207e4ad23cbecdf175ad7674a50b367a157382826de90246d2cd9ec129a8, 0xa0251f8a701afd574da521da62fea73982a565be931fe75c17e33878d59ab0c5db48eb3b3d0aa),
  (0x1cec5ca5f93413fa2f71dfcf42992e6173cb218e039f9ace48887501a18347b35533895, 0xd3b1128cae913983ab479f61da74ab3c63b5f0c5455961782a7d2e1a0e3ff28b27241c, 0x1a66b541613414dcd747851f140dbe98798b01802f09a39bcd9810f78ae93f4bd89a8ce,
    0xabd83bdeb9da2880c493601bb9d5356d3d811da2e98b13d64693382f68ddbdec7ee9ff, 0x19ba35456060288e38b4e8f1250c190086f25a207d4a16a3ed75897ce2dc1e5549fb501),
  (0x66d69ebfe7d59c5d1a787119d0598876f101ba756880a4037e9211b684c5907e93fdf, 0x493d1f300bed0244bccabc581ba1d712bd6a17efdd7cf6531d5422f9dda638fc6f978, 0x21f09d6a537c2ddb60ee2f37b3d655377a2a6c0f07644851df9540b0e8742e8d7becf,
    0x4506d1a9bc5cbf826966e89deb97de3f0e5b021aba1df9c245a6318038a767cb9d8e, 0x3918693e900b0ee0f819f8e0b75f8f10aa74dcbcbc501a3a031bb7e9e38b86260db64),
  (0x3de599604806369ffa3753e6e15500c8e8b3202f87a50e40e87a7f629d0115f, 0xbb319d6fcc21a8d5d22ed942c175bb47c305ce08d9092e4e2a8215c04ff598, 0xef2b9151e744941aabf2c295a525228f7f9ec17ecfe8a0b7d38a5b9af92329,
    0x1f6dd80e1fd4b6c52b3b7c49f0947ee48279e5518ed6f22a6d01d3c39ffad6f, 0x2b90cae062a6ed8153f05c59a20827bc67380123ec8d8d6279e7a4d68e13e55),
  (0x9fd4017d168a1b1a2e90bee26e82bcc579a51b073fdc26870e1, 0x4c69f7d12ef322dd7de162eff0cec93522bd09800b2b7ee2d6d, 0x758d11c137afee84128d40cee0e54313cf3dbfea180b62c1ec7,
    0x35d1e2be039f5257a316edb073871d657fa9c50a0816878a5dc, 0x55cbe6803a8c01c2aebc64030fb60caade821fdc216b933067d),
  (0x27f5005f45a286c68ba42fb89ac8d649a91561d8ed4c0776b71, 0x2001acd6acc99e0f105a855f431eaeb610efb29207107fca7, 0x0,
    0x16af24b99db7404cbf9e5dbec56b42ed610d9fe6f29f8420287, 0x242a167cd0ed6429de4058be0e486bf91a131d600a9e7086562),
  (0x6d36b21edb3cdfb3b48cb8c84f5dd952d8bc29e1, 0x55e2ccb21d92df555300eb6613a952d285efa45f, 0x0,
    0x5d0a2fd345e39a6d4860162700a4e9f4ad2eafb7, 0x69e2d3bd0c9e2447c58a07bf4ef58ff62113a2e8),
  (0x5ff7bfac4cb92a48962214ce516562529, 0x0, 0x169ba35589e231043707f211561f07d2c,
    0x46e9702dc5b7f99d07b08efb2e7dd7ccd, 0xa8825f80b0459b176a6e96ce20f15230),
  (0x149c58ce765dc195cf5fe7789c2cf, 0x0, 0xf016b82bb3dbb6acfb55f23c1c39,
    0xcea9d8af6e8af8ad0baaa6e63b59, 0x1366033719074080b272b4aa6c696),
  (0x823440b0dc5f1e9d6ba7, 0x0, 0x506234dad4bb1454721b,
    0x7a01541af547227bf7f0, 0x7119169bc0cea81a990c),
  (0xe22bab86f10ad, 0x0, 0x58832405fc4f1,
    0x499614d02ceeb, 0x9c8d4e2fac4e8),
  (0x13bc453d, 0x0, 0x1e714d6,
    0x7e3a3bc, 0x13b99830)]

theorem M511_n_prime : Nat.Prime M511.n.toNat :=
  prime_of_chain_eq 481939 M511_n_chain (by decide +kernel) (by decide +kernel)

end Cryptopy.Model
