import Verif.Spec.Siv

/-!
The block cipher AES, written from FIPS 197.  The state is the list of its 16 octets column by column, as in
section 3.4 of the standard: octet `4c + r` is in row `r` and column `c`.
-/

namespace Cryptopy.Spec.Aes

/-- The substitution table, FIPS 197 figure 7. -/
def sboxTable : List UInt8 :=
  [0x63, 0x7c, 0x77, 0x7b, 0xf2, 0x6b, 0x6f, 0xc5, 0x30, 0x01, 0x67, 0x2b, 0xfe, 0xd7, 0xab, 0x76,
   0xca, 0x82, 0xc9, 0x7d, 0xfa, 0x59, 0x47, 0xf0, 0xad, 0xd4, 0xa2, 0xaf, 0x9c, 0xa4, 0x72, 0xc0,
   0xb7, 0xfd, 0x93, 0x26, 0x36, 0x3f, 0xf7, 0xcc, 0x34, 0xa5, 0xe5, 0xf1, 0x71, 0xd8, 0x31, 0x15,
   0x04, 0xc7, 0x23, 0xc3, 0x18, 0x96, 0x05, 0x9a, 0x07, 0x12, 0x80, 0xe2, 0xeb, 0x27, 0xb2, 0x75,
   0x09, 0x83, 0x2c, 0x1a, 0x1b, 0x6e, 0x5a, 0xa0, 0x52, 0x3b, 0xd6, 0xb3, 0x29, 0xe3, 0x2f, 0x84,
   0x53, 0xd1, 0x00, 0xed, 0x20, 0xfc, 0xb1, 0x5b, 0x6a, 0xcb, 0xbe, 0x39, 0x4a, 0x4c, 0x58, 0xcf,
   0xd0, 0xef, 0xaa, 0xfb, 0x43, 0x4d, 0x33, 0x85, 0x45, 0xf9, 0x02, 0x7f, 0x50, 0x3c, 0x9f, 0xa8,
   0x51, 0xa3, 0x40, 0x8f, 0x92, 0x9d, 0x38, 0xf5, 0xbc, 0xb6, 0xda, 0x21, 0x10, 0xff, 0xf3, 0xd2,
   0xcd, 0x0c, 0x13, 0xec, 0x5f, 0x97, 0x44, 0x17, 0xc4, 0xa7, 0x7e, 0x3d, 0x64, 0x5d, 0x19, 0x73,
   0x60, 0x81, 0x4f, 0xdc, 0x22, 0x2a, 0x90, 0x88, 0x46, 0xee, 0xb8, 0x14, 0xde, 0x5e, 0x0b, 0xdb,
   0xe0, 0x32, 0x3a, 0x0a, 0x49, 0x06, 0x24, 0x5c, 0xc2, 0xd3, 0xac, 0x62, 0x91, 0x95, 0xe4, 0x79,
   0xe7, 0xc8, 0x37, 0x6d, 0x8d, 0xd5, 0x4e, 0xa9, 0x6c, 0x56, 0xf4, 0xea, 0x65, 0x7a, 0xae, 0x08,
   0xba, 0x78, 0x25, 0x2e, 0x1c, 0xa6, 0xb4, 0xc6, 0xe8, 0xdd, 0x74, 0x1f, 0x4b, 0xbd, 0x8b, 0x8a,
   0x70, 0x3e, 0xb5, 0x66, 0x48, 0x03, 0xf6, 0x0e, 0x61, 0x35, 0x57, 0xb9, 0x86, 0xc1, 0x1d, 0x9e,
   0xe1, 0xf8, 0x98, 0x11, 0x69, 0xd9, 0x8e, 0x94, 0x9b, 0x1e, 0x87, 0xe9, 0xce, 0x55, 0x28, 0xdf,
   0x8c, 0xa1, 0x89, 0x0d, 0xbf, 0xe6, 0x42, 0x68, 0x41, 0x99, 0x2d, 0x0f, 0xb0, 0x54, 0xbb, 0x16]

/-- `SubBytes` on one octet, FIPS 197 section 5.1.1. -/
def sbox (b : UInt8) : UInt8 := sboxTable.getD b.toNat 0

/-- `xtime`, FIPS 197 section 4.2.1: multiplication by `x`. -/
def xtime (b : UInt8) : UInt8 := if b < 0x80 then b <<< 1 else (b <<< 1) ^^^ 0x1b

/-- `ShiftRows`, FIPS 197 section 5.1.2: row `r` moves by `r` columns. -/
def shiftRows (s : Bytes) : Bytes :=
  (List.range 16).map fun i => s.getD (4 * ((i / 4 + i % 4) % 4) + i % 4) 0

/-- `MixColumns`, FIPS 197 section 5.1.3: row `r` becomes `2 s_r + 3 s_(r+1) + s_(r+2) + s_(r+3)`. -/
def mixColumns (s : Bytes) : Bytes :=
  (List.range 16).map fun i =>
    let at' := fun k => s.getD (4 * (i / 4) + (i + k) % 4) 0
    xtime (at' 0) ^^^ (xtime (at' 1) ^^^ at' 1) ^^^ at' 2 ^^^ at' 3

/-- The round constant of number `i` from 1 on, FIPS 197 section 5.2. -/
def rcon : Nat → UInt8
  | 0 => 0
  | 1 => 1
  | i + 2 => xtime (rcon (i + 1))

/-- `RotWord`, FIPS 197 section 5.2. -/
def rotWord : Bytes → Bytes
  | [] => []
  | a :: rest => rest ++ [a]

/-- One more word of the key schedule, FIPS 197 section 5.2 figure 11, for a key of `nk` words; `w` are the words so far,
the newest first. -/
def nextWord (nk : Nat) (w : List Bytes) : List Bytes :=
  let i := w.length
  let temp := w.getD 0 []
  let temp :=
    if i % nk = 0 then
      match (rotWord temp).map sbox with
      | [] => []
      | a :: rest => (a ^^^ rcon (i / nk)) :: rest
    else if 6 < nk ∧ i % nk = 4 then temp.map sbox
    else temp
  xorBytes (w.getD (nk - 1) []) temp :: w

/-- `k` times `nextWord`. -/
def expand (nk : Nat) : Nat → List Bytes → List Bytes
  | 0, w => w
  | k + 1, w => expand nk k (nextWord nk w)

/-- The words of the key, the last one first. -/
def keyWords (key : Bytes) : List Bytes :=
  ((List.range (key.length / 4)).map fun i => (key.drop (4 * i)).take 4).reverse

/-- The key schedule, FIPS 197 section 5.2, as one string of octets: `nk + 7` round keys of 16 octets. -/
def schedule (key : Bytes) : Bytes :=
  let nk := key.length / 4
  (expand nk (4 * (nk + 7) - nk) (keyWords key)).reverse.flatten

/-- Round key number `r`; octets that are not there count as 0 (there are none for keys of 16, 24 or 32 octets). -/
def roundKey (w : Bytes) (r : Nat) : Bytes := (List.range 16).map fun i => w.getD (16 * r + i) 0

/-- Round number `r` of all but the last, FIPS 197 figure 5. -/
def round (w : Bytes) (s : Bytes) (r : Nat) : Bytes :=
  xorBytes (mixColumns (shiftRows (s.map sbox))) (roundKey w r)

/-- `Cipher`, FIPS 197 figure 5, with `nr` rounds. -/
def cipher (nr : Nat) (w block : Bytes) : Bytes :=
  let s := (List.range' 1 (nr - 1)).foldl (round w) (xorBytes block (roundKey w 0))
  xorBytes (shiftRows (s.map sbox)) (roundKey w nr)

/-- AES under a key of 16, 24 or 32 octets: 10, 12 or 14 rounds. -/
def encrypt (key block : Bytes) : Bytes := cipher (key.length / 4 + 6) (schedule key) block

end Cryptopy.Spec.Aes
