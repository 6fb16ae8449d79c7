import Verif.Model.ChaChaBox

/-!
Encryption with a new `ChaCha` object that draws its own nonce, as the tests of `/repo` do it.
-/

namespace Cryptopy.Model

/-- `pack( '<III', chacha.state[13], chacha.state[14], chacha.state[15])`, `cipher/test/test_chacha_poly.py` lines 886 and 906:
the nonce, which has to be sent with the ciphertext. -/
def ChaCha.nonce (o : ChaCha) : Bytes :=
  packLE32 (o.state.getD 13 0) ++ packLE32 (o.state.getD 14 0) ++ packLE32 (o.state.getD 15 0)

/-- `chacha = ChaCha(key)`, then the nonce, then `chacha.encrypt(plain_text)`; as in `test_random_nonce`, each message has a new
object.  `rand` is what `urandom(12)` returns; `block` is in place of `chacha20_block`.
`cipher/test/test_chacha_poly.py` lines 880-906. -/
def drawAndEncrypt (block : ChaCha → Bytes) (key rand plainText : Bytes) : Py (Bytes × Bytes) :=
  match ChaCha.new rand key with
  | .error e => .error e
  | .ok o => .ok (o.nonce, (o.encryptWith block plainText).2)

/-- The loop of `test_random_nonce`, `cipher/test/test_chacha_poly.py` lines 903-910, with the draws that are left; `seen` has the
keys of `n_dict`. -/
def testNonceLoop (key : Bytes) : List Bytes → List Bytes → Py Unit
  | _, [] => .ok ()
  | seen, rand :: draws =>
    match ChaCha.new rand key with
    | .error e => .error e
    | .ok o => if o.nonce ∈ seen then .error .value else testNonceLoop key (o.nonce :: seen) draws

/-- `test_random_nonce`, `cipher/test/test_chacha_poly.py` lines 895-910, with the results of `urandom(12)`. -/
def testRandomNonce (draws : List Bytes) : Py Unit :=
  testNonceLoop
    [0x00, 0x01, 0x00, 0x00, 0x00, 0x00, 0x00, 0x00, 0x00, 0xff, 0x00, 0x00, 0x00, 0x00, 0x00, 0x01,
      0x01, 0x00, 0x00, 0x00, 0x00, 0x00, 0x00, 0x00, 0x00, 0x00, 0x00, 0x00, 0x01, 0x00, 0x00, 0x00] [] draws

end Cryptopy.Model
