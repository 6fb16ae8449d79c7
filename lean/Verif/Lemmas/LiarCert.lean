import Verif.Lemmas.CurveCheck
import Verif.Lemmas.Primality

/-!
Chains of primality certificates for the three factors of the composite number that `is_prime` accepts.
-/

namespace Cryptopy.Model
open Cryptopy.Ecpp

set_option maxRecDepth 20000

private def liarP_chain : List (Nat × Nat × Nat × Nat × Nat) := [
  (0x88fce802c9c2feef70ba9007fb66654703238b2d75f8c3f8ecaa8cd6b65e18fb3, 0x214985ad45d628b99694b4a7d3b1bba3c57e8f592cc61bd03572fff487e467b95, 0x3bad2f2cb9b09e30ce1cf415c64c4b31726bde94c3f7213a55502fdfa6905cdf8,
    0x67f6df0944d9fe343c59a21fbc0a0558ae2cf058b8e19577a7c7ea37f14b3dd64, 0x83a93e5770c8a5f0d7d85418d351480ae4d4107af9a83690ab99b1d6c6d2d3322),
  (0x4bc39b931ebf00c4b720bceec0487a57830be5309e166cb42e73a39, 0x379f49b72c428494d74206cbd9f2cf6835ded6777dba48f845a7907, 0x0,
    0x6075c4772c3ba44a96fa8db7d02365fbd8365a3318194a5bcb3114, 0x3586ecc2858f553c51e2c465bd92cee7d6c7cadac5863e1365785b1),
  (0x23a758453ba52d89bf96ef7f698c5cb441195615f50c944704b4c9, 0x155efe48468d96fe0cf2b78c3056e96e29d62aff80fdbf2e216f6e, 0x0,
    0x1ee354c252c03d659647a5824ff427f2ea1701d08a6c1a7dd964a5, 0x162eaa95e213b81b6c5cec63c66fbd9ed3dd76a4050d8f45f36eeb),
  (0x325696adec1ba671c364e99dd1546e35c280232533659877d, 0x1c42f2f415e65b7fc349af9d7244c29b8bfdfa48e13288163, 0x0,
    0x251ea23a9d8fd1d341ff375f3afbffe6f16bf52fee9cd229e, 0x240cfcf11c94529a4a7c9d19fa2db7ad405678d4e8a877e10),
  (0x3190555889f3d7156dae30da9b1b13c25d73c85057220fd, 0x0, 0x2dc1cebc31f4eb63cb669ebbb33432ec211911350cf9a3e,
    0x19ceb2b1d466b59fc1168377b0cb80a1b3d97a13f8546a6, 0x1cee34e46c00c422ebc3510771203f37a413837dfd28de3),
  (0x581d0980f53fb7428a193a62ca7296a12f7e7d153b7457, 0x4dd003e35a1fd217a8c8cf85b0eaf4fdc2274411fec84a, 0x51efd1b524a6d7eb92cf762ee6f05000e2ac8118e8ae5d,
    0xbda27f9c075d37b9d98d43cb92c5542c2dfd08d2e4c6, 0x7874e2b5c1a9ab004c34a6d41f4e8a3a36d3376104996),
  (0x160742603d4fedd0a2864e9d2bf476de58d25189a399e3, 0x40d12ad790fb1ddeb441533ed893b3e3801abd0f2be9c, 0x672cfb860a636959c592dfa124d499969a4bd78f41be,
    0x2f3d01fe595eeccfe4e9dc21c2dc2b788943933cca86e, 0x1107cfbd3530f75376c9f5d5a85abef44fc5d4d226490),
  (0x31f428afe2a341edbaf4c681ca04d7b85284d841, 0x20f4017fa18b8dc89a4f83ae17b6e17b7df29186, 0x0,
    0xec0e4ad2b523f17fe0ea43270fe13192197de10, 0x2629c56fb46b89c3d76c11daff1e45ec3b4edbb3),
  (0x1c46ccc6d16a9ca5411809da871b2e56fd, 0x1afae83a113590a5be74a5b356c849adf, 0x0,
    0x7d51bc812cb66b655a7bc7ee1fb6a9edc, 0x3edf56b383a9abe74cfcc97b9bb7fc535),
  (0x44af92160a1c23761e2d58cf65, 0x3f9c51f45cc7a388ce21de060, 0x0,
    0x3b861d39fa0c4231e56275b4c6, 0x2be3f61b7f3575e3c4967c9e7f),
  (0x2b720ff9efd9e4c3546c69, 0x10163e795647f4a8d8b439, 0x0,
    0x85a547d633749077e1683, 0x11fa92901aee393bab2d4a),
  (0x14b1eca8a8ef217d, 0x9ccb05b2841f9e8, 0x0,
    0x146b908948c79cd1, 0x1d2dc6c0a794250),
  (0x6655f492955, 0x1ff8190f616, 0x22cc143d862,
    0x59c50e6d258, 0x49b1c235157),
  (0xb6536b77, 0x830131b3, 0x5e179a5d,
    0x32a1dfcb, 0x1eb6b53c),
  (0x2e4dc71, 0x729e31, 0x0,
    0x15b2491, 0x17e71de)]

theorem liarP_prime : Nat.Prime liarP :=
  prime_of_chain_eq 27277 liarP_chain (by decide +kernel) (by decide +kernel)

private def liarQ_chain : List (Nat × Nat × Nat × Nat × Nat) := [
  (0x60dad009f8a6de3f4ab3e7d5a4bf659b353821672468e28eff549593cef087a98db, 0x13c9cc4cd60b326206efdbc656f69260ec4d1c8845c546aedfe7f623b5ca2b48bdb, 0x1a0c3d4ee8fad4c3bb2d2b2a09b30643c5a01f9a44e0bf484f6652968af4216b644,
    0x29b997419b6964dde6c965142ca46e717f750a05a9ea98e42e2076d17f8e1329437, 0x1bbed6543a13b3d544f6e3dcabca0c216cf748583f72f0bade275233ba8891e7778),
  (0x294b0c9c9e632021dfd288d515a090216667c0d190855fcca3375ad83b, 0x24fd77cf94f4b4cade861e400b6338b0a10d83f719e12d4731a327dbf6, 0x2639dd123dc6118b9603697eac144989049db108279c5847b14bd2c637,
    0x282efbcc03088f52c4ac35889b74d16bf90324274876f46883e6d442d1, 0x2654ad6bf5efc91bf3d996e1efe17d607b7c7dbdc0b6cc44277ef3c61),
  (0x1e721533a0ad160f895b35b03a648e4a1dda358193f0db01, 0xf5f484cad0f0d2c9297ba900fa4cc7868256b8e2bb78c98, 0x0,
    0x6891fa6493fa2520fb1846fa216ee038078b4594f34b40e, 0x35890ed1f6406ee864c3f65d484c0c050bbae969401732b),
  (0x2b76df7a082db4bd17beaf71307fd86e774f36dcc05, 0x0, 0x287c787ec5619f8e3d62a6581acc63e74fb89a46fa0,
    0x1365ada576745c7342c125223b43c9c4117cfc73384, 0x17bed2cac5b032ca35a2a28adde4cb68270af0a4342),
  (0x348fd69e56e7feeacf2fea0ea8ea5585db, 0x0, 0x200dbc6e5c829ae71ccb21a264390ce963,
    0x5377ca04be709136f73b94662d459a6a2, 0x31c66c3ceeb538171f4ac382e2f0306b8d),
  (0x46151e2873dffe8e5754fc4025da842ab, 0x0, 0x3a6ac200dbe72a030fb8414d805421ac9,
    0xaef26f51bd04d039159b27bc2ead022e, 0x3162453c128ab777317fb2b562a7ce16e),
  (0x5cc31bc35438955f36cf2587aa71, 0x0, 0x2a3280017f266c79998ab6ba0aee,
    0x19e53880c20b39779c1062fd25a1, 0x173243270d71d5769ba12c95c32),
  (0x1119d4a70955381457199, 0x0, 0xe7c75e573004f1cb3797,
    0x7f85df1d72c30cc816aa, 0xd335dbc2d679ea363031),
  (0x11e691ca8596e22c9, 0x0, 0xf0454b3fc8c76fc,
    0x933900db65789db, 0x68b66d7c309c0fb1),
  (0x5c740b881b, 0x0, 0x115a5f67f0,
    0x106eb517fc, 0x3fa5b8f39b),
  (0x20b0d49d, 0x0, 0xb87edf7,
    0xa437028, 0x74cc851)]

theorem liarQ_prime : Nat.Prime liarQ :=
  prime_of_chain_eq 1269691 liarQ_chain (by decide +kernel) (by decide +kernel)

private def liarR_chain : List (Nat × Nat × Nat × Nat × Nat) := [
  (0x6746aaea1a1c023283fca6960488325a895dcbed45f08bbeaa6c942ddf7cf0d5533, 0x0, 0x357582d0408d677f3e0217b222209c975dc8f8abc50942b48af630db7e34e84f45f,
    0x518940458b9175a481e9995cad89dcf39dbdff9a05ee3188650ac5634788e2c562b, 0x1b71c2a1e19238e554325da0372d591b3d052762b9c7f11f1a91b98d2363507fd91),
  (0x1359eed69edd522c30510618af61c91cb4c59f6e2b91118c08130bec4733, 0x0, 0xdeeb99cca3f2252ed29dbda88b0603102779a786eed9776d6058c1fbdf3,
    0x1009c17ccc1583e008c34079af07e1b715f110e3820a63ec718892fa3c54, 0xd6e6ec06d522d94c2c27ed6b852a5b7426c7c4bb3ff317a9bc6fb08ee8d),
  (0xbf1c31a271c6fd3acde388973325360732691aa32b5396de9d3ecdd3, 0x0, 0x6404e7300a57215dac0bd77d1e4c40150a1fdf3e40b963c61a30da32,
    0x8104216c60c4573708c88a4c012c1751c2e8c278a93740f6b0993924, 0x218184068fc40b9e6028d95bba2a81d9e8191f0239673c5d3eda0692),
  (0x9f596783f79364f5f78698cfc4bc1024597498852e84af115, 0x9a6a614a5c20d153f2e4a695b371ce27892c2c96c20d2536f, 0x0,
    0x8705a31ec8bde991c24859ee14016d16a0292c3fc7fd5483, 0x98c1dabf630a16668fb21ff5bc956d7065e92c9b32f53b25c),
  (0x93ab1e5d1a3fd81d9fa5bca397e76d59d35537e4b87ca9, 0x46f7d81fe5aa26957ba728ed62ce9c8622e5dadaf84030, 0x0,
    0x82e9e27241fbb585cb59e78450f87105f731222e659112, 0x7e5c001e8c87a1f900934c9e4b0f38f39079a379aafcb2),
  (0x7f149a0acee7026453b6401663fee8f291, 0x70a350ef46d636850820135774d1a6a96d, 0x0,
    0x1c08bc2bdb04a97f814db9dcc048acc944, 0x2f77f302547667c581b9e12a8e12b39c64),
  (0x7f149a0acee702644a47852985169bdf1, 0x56c276ba50e945833ffc48873d3cbee64, 0x0,
    0x72a0288b2756b7644e99fbdf994df3d94, 0x5ed832b1abf9418deb060c32603c3e775),
  (0x139fff13d8f82cdb8f97736a5805, 0x6f66ebc00f69b8568f987ef8460, 0x0,
    0xd1f68407f6a6be66d7b3fc59912, 0x211e8e7d500bdea73ae2b0b8273),
  (0x52fcacc90cc4f5af9cef0b1, 0x1280071e7589a7d1cc16c7a, 0x0,
    0x52965f07f62a9860d32f995, 0x4ce9b8edfeda7a73c17a9f9),
  (0x1890257ada161, 0x0, 0x6282ef6dd4d5,
    0x11f2b501c1f35, 0x7cd1076a1585),
  (0x2ac6c8f4fc7, 0x0, 0xa648a8759c,
    0x33a0712048, 0x269f30d0115),
  (0x12291827b, 0x0, 0xcd0e5d65,
    0xdf4ddb78, 0x4b61a1a5)]

theorem liarR_prime : Nat.Prime liarR :=
  prime_of_chain_eq 415273 liarR_chain (by decide +kernel) (by decide +kernel)

end Cryptopy.Model
