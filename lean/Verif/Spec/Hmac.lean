import Verif.Spec.Siv

/-!
Specifications written from RFC 2104, RFC 2898 and IEEE 802.11i.
-/

namespace Cryptopy.Spec

/-- RFC 2104: the key brought to the block length `B`. -/
def hmacKey (H : Bytes → Bytes) (B : Nat) (key : Bytes) : Bytes :=
  let k := if key.length ≤ B then key else H key
  k ++ List.replicate (B - k.length) 0

/-- RFC 2104: what the inner hash is applied to, `K0 xor ipad || text`. -/
def hmacInner (k0 text : Bytes) : Bytes :=
  xorBytes k0 (List.replicate k0.length 0x36) ++ text

/-- RFC 2104: what the outer hash is applied to, `K0 xor opad || H(K0 xor ipad || text)`. -/
def hmacOuter (H : Bytes → Bytes) (k0 text : Bytes) : Bytes :=
  xorBytes k0 (List.replicate k0.length 0x5c) ++ H (hmacInner k0 text)

/-- RFC 2104: `H(K0 xor opad || H(K0 xor ipad || text))`. -/
def hmacWith (H : Bytes → Bytes) (k0 text : Bytes) : Bytes :=
  H (hmacOuter H k0 text)

/-- The two given octet strings are a collision of `H`. -/
def Collision (H : Bytes → Bytes) (x y : Bytes) : Prop := x ≠ y ∧ H x = H y

/-- RFC 2104 HMAC. -/
def hmac (H : Bytes → Bytes) (B : Nat) (key text : Bytes) : Bytes :=
  hmacWith H (hmacKey H B key) text

/-- RFC 2898: `U_1 = PRF(P, S || INT(i))`, `U_{j+1} = PRF(P, U_j)`; `pbU j` is `U_{j+1}`. -/
def pbU (F : Bytes → Bytes) (salt : Bytes) (i : Nat) : Nat → Bytes
  | 0 => F (salt ++ beBytes 4 i)
  | j + 1 => F (pbU F salt i j)

/-- RFC 2898: `T_i = U_1 xor ... xor U_c`, for `c = n + 1`. -/
def pbT (F : Bytes → Bytes) (salt : Bytes) (i : Nat) : Nat → Bytes
  | 0 => pbU F salt i 0
  | n + 1 => xorBytes (pbT F salt i n) (pbU F salt i (n + 1))

/-- RFC 2898 section 5.2 for `c ≥ 1` iterations: `T_1 || T_2 || ...` truncated to `dkLen`. -/
def pbkdf2 (F : Bytes → Bytes) (hLen : Nat) (salt : Bytes) (c dkLen : Nat) : Bytes :=
  ((List.range ((dkLen + hLen - 1) / hLen)).flatMap fun j => pbT F salt (j + 1) (c - 1)).take dkLen

/-- IEEE 802.11i PRF: concatenation of `mac key (A || 0 || B || i)` for `i = 0, 1, ...`, truncated. -/
def prf80211 (mac : Bytes → Bytes → Bytes) (key A B : Bytes) (octets : Nat) : Bytes :=
  ((List.range (octets / 20 + 1)).flatMap fun i => mac key (A ++ [0] ++ B ++ [UInt8.ofNat i])).take
    octets

end Cryptopy.Spec
