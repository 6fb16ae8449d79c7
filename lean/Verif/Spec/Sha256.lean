import Verif.Spec.Sha1

/-!
SHA-256 (FIPS 180-4) on natural numbers.
-/

namespace Cryptopy.Spec

/-- Rotation of a 32-bit word to the right, FIPS 180-4 section 2.2.2. -/
def rotr32 (n x : Nat) : Nat := rotl32 (32 - n) x

/-- The constants `K_t`, FIPS 180-4 section 4.2.2. -/
def sha256K : List Nat :=
  [0x428a2f98, 0x71374491, 0xb5c0fbcf, 0xe9b5dba5, 0x3956c25b, 0x59f111f1, 0x923f82a4, 0xab1c5ed5,
   0xd807aa98, 0x12835b01, 0x243185be, 0x550c7dc3, 0x72be5d74, 0x80deb1fe, 0x9bdc06a7, 0xc19bf174,
   0xe49b69c1, 0xefbe4786, 0x0fc19dc6, 0x240ca1cc, 0x2de92c6f, 0x4a7484aa, 0x5cb0a9dc, 0x76f988da,
   0x983e5152, 0xa831c66d, 0xb00327c8, 0xbf597fc7, 0xc6e00bf3, 0xd5a79147, 0x06ca6351, 0x14292967,
   0x27b70a85, 0x2e1b2138, 0x4d2c6dfc, 0x53380d13, 0x650a7354, 0x766a0abb, 0x81c2c92e, 0x92722c85,
   0xa2bfe8a1, 0xa81a664b, 0xc24b8b70, 0xc76c51a3, 0xd192e819, 0xd6990624, 0xf40e3585, 0x106aa070,
   0x19a4c116, 0x1e376c08, 0x2748774c, 0x34b0bcb5, 0x391c0cb3, 0x4ed8aa4a, 0x5b9cca4f, 0x682e6ff3,
   0x748f82ee, 0x78a5636f, 0x84c87814, 0x8cc70208, 0x90befffa, 0xa4506ceb, 0xbef9a3f7, 0xc67178f2]

/-- One more word of the message schedule, FIPS 180-4 section 6.2.2 step 1; the newest word comes first. -/
def sha256Extend (w : List Nat) : List Nat :=
  let a := w.getD 1 0
  let b := w.getD 14 0
  ((rotr32 17 a ^^^ rotr32 19 a ^^^ a >>> 10) + w.getD 6 0 + (rotr32 7 b ^^^ rotr32 18 b ^^^ b >>> 3) + w.getD 15 0)
    % 2 ^ 32 :: w

/-- The 64 words of the message schedule for the 16 words of a block. -/
def sha256Schedule (block : List Nat) : List Nat := (sha256Extend^[48] block.reverse).reverse

/-- Step 3 of FIPS 180-4 section 6.2.2 on the variables `a` to `h`. -/
def sha256Step (s : List Nat) (kw : Nat × Nat) : List Nat :=
  match s with
  | [a, b, c, d, e, f, g, h] =>
    let t1 := h + (rotr32 6 e ^^^ rotr32 11 e ^^^ rotr32 25 e) + (e &&& f ^^^ (2 ^ 32 - 1 - e) &&& g) + kw.1 + kw.2
    let t2 := (rotr32 2 a ^^^ rotr32 13 a ^^^ rotr32 22 a) + (a &&& b ^^^ a &&& c ^^^ b &&& c)
    [(t1 + t2) % 2 ^ 32, a, b, c, (d + t1) % 2 ^ 32, e, f, g]
  | _ => s

/-- The hash value after one more block. -/
def sha256Block (h : List Nat) (block : List Nat) : List Nat :=
  h.zipWith (fun x y => (x + y) % 2 ^ 32) ((sha256K.zip (sha256Schedule block)).foldl sha256Step h)

/-- The digest of the message of `n` bits with the big-endian value `m`, as a number of 256 bits; the padding is that of
SHA-1. -/
def sha256 (m n : Nat) : Nat :=
  let k := sha1Blocks n
  let word := fun j => sha1Pad m n / 2 ^ (32 * (16 * k - 1 - j)) % 2 ^ 32
  ((List.range k).foldl (fun h i => sha256Block h ((List.range 16).map fun j => word (16 * i + j)))
    [0x6a09e667, 0xbb67ae85, 0x3c6ef372, 0xa54ff53a, 0x510e527f, 0x9b05688c, 0x1f83d9ab, 0x5be0cd19]).foldl
    (fun x y => x * 2 ^ 32 + y) 0

/-- The examples of FIPS 180-2 appendix B: one block and two blocks. -/
example : sha256 0x616263 24 = 0xba7816bf8f01cfea414140de5dae2223b00361a396177a9cb410ff61f20015ad := by decide +kernel
example : sha256 0x6162636462636465636465666465666765666768666768696768696a68696a6b696a6b6c6a6b6c6d6b6c6d6e6c6d6e6f6d6e6f706e6f7071
    448 = 0x248d6a61d20638b8e5c026930c3e6039a33ce45964ff2167f6ecedd419db06c1 := by decide +kernel

end Cryptopy.Spec
