import Verif.Model.Calls
import Verif.Model.ChaCha

/-!
The functions of `/repo/cipher/chacha_poly.py` that use `ChaCha.chacha20_block`, once more, each with the list of the states with
which they call it, in order.
-/

namespace Cryptopy.Model

/-- The loop of `ChaCha.encrypt`, `cipher/chacha_poly.py` lines 212-220, from block `j` with `k` blocks left.  A call is the state
of the object at the call. -/
def ChaCha.encryptLoopCalls (plainText : Bytes) : Nat → Nat → ChaCha → Bytes → Calls (List Nat) (ChaCha × Bytes)
  | _, 0, o, out => return (o, out)
  | j, k + 1, o, out => do
    let keyStream ← Calls.call o.state o.block
    let o := o.bump
    let textBlock := plainText.drop (j * 64)
    let encryptedBlock := List.zipWith (fun b k => b ^^^ k) textBlock keyStream
    ChaCha.encryptLoopCalls plainText (j + 1) k o (out ++ encryptedBlock)

/-- `ChaCha.encrypt`, `cipher/chacha_poly.py` lines 201-222. -/
def ChaCha.encryptCalls (o : ChaCha) (plainText : Bytes) : Calls (List Nat) (ChaCha × Bytes) :=
  let blocks := plainText.length / 64
  let remainder := plainText.length % 64
  let blocks := if remainder > 0 then blocks + 1 else blocks
  ChaCha.encryptLoopCalls plainText 0 blocks o []

/-- `poly1305_key_gen`, `cipher/chacha_poly.py` lines 367-371. -/
def poly1305KeyGenCalls (rand key nonce : Bytes) : Calls (List Nat) Bytes := do
  let o ← Calls.none (ChaCha.new rand key 0 (some nonce))
  let b ← Calls.call o.state o.block
  return b.take 32

/-- `ChaCha20_AEAD.encrypt`, `cipher/chacha_poly.py` lines 543-553. -/
def Aead.encryptCalls (rand1 rand2 : Bytes) (o : Aead) (aad iv plainText : Bytes) : Calls (List Nat) (Bytes × Bytes) := do
  let nonce := o.constant ++ iv
  let otk ← poly1305KeyGenCalls rand1 o.key nonce
  let chacha20 ← Calls.none (ChaCha.new rand2 o.key 1 (some nonce))
  let (_, cipherText) ← chacha20.encryptCalls plainText
  let tag ← Calls.none (poly1305Mac (macData aad cipherText) otk)
  return (cipherText, tag)

/-- `ChaCha20_AEAD.decrypt`, `cipher/chacha_poly.py` lines 555-557. -/
def Aead.decryptCalls (rand1 rand2 : Bytes) (o : Aead) (aad iv cipherText : Bytes) : Calls (List Nat) (Bytes × Bytes) :=
  o.encryptCalls rand1 rand2 aad iv cipherText

end Cryptopy.Model
