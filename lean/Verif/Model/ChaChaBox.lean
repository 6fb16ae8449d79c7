import Verif.Model.ChaCha

/-!
Model of the AEAD of `/repo/cipher/chacha_poly.py` with another function in place of `ChaCha.chacha20_block`: what the
code of the other functions does after `ChaCha.chacha20_block = block`, with `block` a function of the object that
returns an octet string.  Every function here is the function of the same name in `Verif/Model/ChaCha.lean` with `block`
for `ChaCha.block`; that the two agree for `block := ChaCha.block` is theorem `C167_model`.
`ChaCha.blockWith` is the block function with another function in place of its rounds; that it is `ChaCha.block` for the
rounds of the model is theorem `C185_rounds`.
-/

namespace Cryptopy.Model

/-- `ChaCha.chacha20_block`, `cipher/chacha_poly.py` lines 187-199, with another function in place of the loop of lines
194-195 over the rounds. -/
def ChaCha.blockWith (rounds : List Nat → List Nat) (o : ChaCha) : Bytes :=
  let workingState := rounds o.state
  let outState := List.zipWith (fun s ws => (s + ws) &&& 0xFFFFFFFF) o.state workingState
  (outState.map packLE32).flatten

variable (block : ChaCha → Bytes)

/-- The loop of `ChaCha.encrypt`, `cipher/chacha_poly.py` lines 212-220, from block `j` with `k` blocks left. -/
def ChaCha.encryptLoopWith (plainText : Bytes) : Nat → Nat → ChaCha → Bytes → ChaCha × Bytes
  | _, 0, o, out => (o, out)
  | j, k + 1, o, out =>
    let keyStream := block o
    let o := o.bump
    let textBlock := plainText.drop (j * 64)
    let encryptedBlock := List.zipWith (fun b k => b ^^^ k) textBlock keyStream
    ChaCha.encryptLoopWith plainText (j + 1) k o (out ++ encryptedBlock)

/-- `ChaCha.encrypt`, `cipher/chacha_poly.py` lines 201-222: the new object state and the result. -/
def ChaCha.encryptWith (o : ChaCha) (plainText : Bytes) : ChaCha × Bytes :=
  let blocks := plainText.length / 64
  let remainder := plainText.length % 64
  let blocks := if remainder > 0 then blocks + 1 else blocks
  ChaCha.encryptLoopWith block plainText 0 blocks o []

/-- `poly1305_key_gen`, `cipher/chacha_poly.py` lines 367-371. -/
def poly1305KeyGenWith (rand key nonce : Bytes) : Py Bytes :=
  match ChaCha.new rand key 0 (some nonce) with
  | .error e => .error e
  | .ok o => .ok ((block o).take 32)

/-- `ChaCha20_AEAD.encrypt`, `cipher/chacha_poly.py` lines 543-553.  `rand1` and `rand2` are the results of the first and
the second call of `urandom`, used only when `constant + iv` is empty. -/
def Aead.encryptWith (rand1 rand2 : Bytes) (o : Aead) (aad iv plainText : Bytes) : Py (Bytes × Bytes) :=
  let nonce := o.constant ++ iv
  match poly1305KeyGenWith block rand1 o.key nonce with
  | .error e => .error e
  | .ok otk =>
    match ChaCha.new rand2 o.key 1 (some nonce) with
    | .error e => .error e
    | .ok chacha20 =>
      let cipherText := (ChaCha.encryptWith block chacha20 plainText).2
      match poly1305Mac (macData aad cipherText) otk with
      | .error e => .error e
      | .ok tag => .ok (cipherText, tag)

/-- `ChaCha20_AEAD.decrypt`, `cipher/chacha_poly.py` lines 555-557. -/
def Aead.decryptWith (rand1 rand2 : Bytes) (o : Aead) (aad iv cipherText : Bytes) :
    Py (Bytes × Bytes) :=
  o.encryptWith block rand1 rand2 aad iv cipherText

/-- A recipient that uses the class: it decrypts, encrypts the plaintext again with the same arguments, accepts if the
ciphertext and the tag are those received and then returns the plaintext.  The repository has no function that checks a
tag (`cipher/chacha_poly.py` lines 555-569), and `decrypt` does not return the tag of the ciphertext it is given. -/
def Aead.openWith (rand1 rand2 : Bytes) (o : Aead) (aad iv cipherText tag : Bytes) : Py (Option Bytes) :=
  match o.decryptWith block rand1 rand2 aad iv cipherText with
  | .error e => .error e
  | .ok (plainText, _) =>
    match o.encryptWith block rand1 rand2 aad iv plainText with
    | .error e => .error e
    | .ok r => .ok (if r = (cipherText, tag) then some plainText else none)

end Cryptopy.Model
