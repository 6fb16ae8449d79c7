import Mathlib.Logic.Function.Iterate
import Verif.Py

/-!
SHA-1 (FIPS 180-4) on natural numbers, and the two ways in which standards expand a seed to a number with it
(ANSI X9.62 and the Brainpool curve generation, RFC 5639).
-/

namespace Cryptopy.Spec

/-- Rotation of a 32-bit word to the left, FIPS 180-4 section 2.2.2. -/
def rotl32 (n x : Nat) : Nat := x <<< n % 2 ^ 32 ||| x >>> (32 - n)

/-- The function `f_t`, FIPS 180-4 section 4.1.1. -/
def sha1F (t b c d : Nat) : Nat :=
  if t < 20 then b &&& c ^^^ (2 ^ 32 - 1 - b) &&& d
  else if t < 40 then b ^^^ c ^^^ d
  else if t < 60 then b &&& c ^^^ b &&& d ^^^ c &&& d
  else b ^^^ c ^^^ d

/-- The constant `K_t`, FIPS 180-4 section 4.2.1. -/
def sha1K (t : Nat) : Nat :=
  if t < 20 then 0x5a827999 else if t < 40 then 0x6ed9eba1 else if t < 60 then 0x8f1bbcdc else 0xca62c1d6

/-- One more word of the message schedule, FIPS 180-4 section 6.1.2 step 1; the newest word comes first. -/
def sha1Extend (w : List Nat) : List Nat :=
  rotl32 1 (w.getD 2 0 ^^^ w.getD 7 0 ^^^ w.getD 13 0 ^^^ w.getD 15 0) :: w

/-- The 80 words of the message schedule for the 16 words of a block. -/
def sha1Schedule (block : List Nat) : List Nat := (sha1Extend^[64] block.reverse).reverse

/-- Step 3 of FIPS 180-4 section 6.1.2. -/
def sha1Step (s : Nat × Nat × Nat × Nat × Nat) (tw : Nat × Nat) : Nat × Nat × Nat × Nat × Nat :=
  let (a, b, c, d, e) := s
  ((rotl32 5 a + sha1F tw.1 b c d + e + sha1K tw.1 + tw.2) % 2 ^ 32, a, rotl32 30 b, c, d)

/-- The hash value after one more block. -/
def sha1Block (h : Nat × Nat × Nat × Nat × Nat) (block : List Nat) : Nat × Nat × Nat × Nat × Nat :=
  let (a, b, c, d, e) := ((List.range 80).zip (sha1Schedule block)).foldl sha1Step h
  ((h.1 + a) % 2 ^ 32, (h.2.1 + b) % 2 ^ 32, (h.2.2.1 + c) % 2 ^ 32, (h.2.2.2.1 + d) % 2 ^ 32,
    (h.2.2.2.2 + e) % 2 ^ 32)

/-- The number of 512-bit blocks of a padded message of `n` bits, FIPS 180-4 section 5.1.1. -/
def sha1Blocks (n : Nat) : Nat := (n + 65 + 511) / 512

/-- The padded message as a number: the message of `n` bits, a one, zeros, the length in 64 bits. -/
def sha1Pad (m n : Nat) : Nat := (2 * m + 1) * 2 ^ (512 * sha1Blocks n - n - 1) + n

/-- The digest of the message of `n` bits with the big-endian value `m`, as a number of 160 bits. -/
def sha1 (m n : Nat) : Nat :=
  let k := sha1Blocks n
  let word := fun j => sha1Pad m n / 2 ^ (32 * (16 * k - 1 - j)) % 2 ^ 32
  let h := (List.range k).foldl (fun h i => sha1Block h ((List.range 16).map fun j => word (16 * i + j)))
    (0x67452301, 0xefcdab89, 0x98badcfe, 0x10325476, 0xc3d2e1f0)
  (((h.1 * 2 ^ 32 + h.2.1) * 2 ^ 32 + h.2.2.1) * 2 ^ 32 + h.2.2.2.1) * 2 ^ 32 + h.2.2.2.2

/-- The lowest `w` bits of the digest of the 160-bit seed, followed by the digests of the `v` next seeds. -/
def expandSeed (w v seed : Nat) : Nat :=
  (List.range v).foldl (fun x i => x * 2 ^ 160 + sha1 ((seed + (i + 1)) % 2 ^ 160) 160) (sha1 seed 160 % 2 ^ w)

/-- `find_integer_1` of the Brainpool generation, and steps 1-6 of ANSI X9.62 A.3.3.1: a number of `L - 1` bits. -/
def seedNumber1 (L seed : Nat) : Nat := expandSeed (L - 160 * ((L - 1) / 160) - 1) ((L - 1) / 160) seed

/-- `find_integer_2` of the Brainpool generation: a number of `L` bits. -/
def seedNumber2 (L seed : Nat) : Nat := expandSeed (L - 160 * ((L - 1) / 160)) ((L - 1) / 160) seed

end Cryptopy.Spec
