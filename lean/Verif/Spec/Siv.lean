import Verif.Spec.Encoding

/-!
Specifications written from RFC 4493 (AES-CMAC) and RFC 5297 (SIV).

Blocks are octet strings; 128-bit strings are `BitVec 128` where bit operations matter.
-/

namespace Cryptopy.Spec

/-- `k` octets of `n`, big-endian. -/
def beBytes : Nat → Nat → Bytes
  | 0, _ => []
  | k + 1, n => UInt8.ofNat (n / 256 ^ k % 256) :: beBytes k n

/-- A 16 octet block as a bit string. -/
def toBits (s : Bytes) : BitVec 128 := BitVec.ofNat 128 (beValue s)

/-- A bit string as a 16 octet block. -/
def ofBits (b : BitVec 128) : Bytes := beBytes 16 b.toNat

/-- RFC 4493 section 2.3 and RFC 5297 section 2.3: shift left by one bit, and xor the constant
`0x87` when the bit shifted out was one. -/
def dblBits (b : BitVec 128) : BitVec 128 :=
  if b.msb then (b <<< 1) ^^^ 0x87#128 else b <<< 1

/-- The subkey `K1` of a block cipher `E`. -/
def cmacK1 (E : Bytes → Bytes) : BitVec 128 := dblBits (toBits (E (List.replicate 16 0)))
/-- The subkey `K2` of a block cipher `E`. -/
def cmacK2 (E : Bytes → Bytes) : BitVec 128 := dblBits (cmacK1 E)

/-- RFC 4493 padding of an incomplete block: a one bit and then zero bits up to 128 bits. -/
def pad10 (s : Bytes) : Bytes := s ++ 0x80 :: List.replicate (15 - s.length) 0

/-- RFC 4493 section 2.4 with explicit subkeys: chain all blocks before the last, then the last
block, which is masked with `K1` if complete and padded and masked with `K2` otherwise. -/
def cmacFrom (E : Bytes → Bytes) (K1 K2 : BitVec 128) (X M : Bytes) : Bytes :=
  if M.length < 16 then E (xorBytes X (xorBytes (pad10 M) (ofBits K2)))
  else if M.length = 16 then E (xorBytes X (xorBytes M (ofBits K1)))
  else cmacFrom E K1 K2 (E (xorBytes X (M.take 16))) (M.drop 16)
termination_by M.length
decreasing_by simp; omega

/-- AES-CMAC of RFC 4493 for the block cipher `E` under its key. -/
def cmac (E : Bytes → Bytes) (M : Bytes) : Bytes :=
  cmacFrom E (cmacK1 E) (cmacK2 E) (List.replicate 16 0) M

/-- RFC 5297 section 2.4, the part before the last component. -/
def s2vChain (F : Bytes → Bytes) : Bytes → List Bytes → Bytes
  | D, [] => D
  | D, S :: rest => s2vChain F (xorBytes (ofBits (dblBits (toBits D))) (F S)) rest

/-- `A xorend B`: `B` is xored onto the end of `A`. -/
def xorend (A B : Bytes) : Bytes :=
  A.take (A.length - B.length) ++ xorBytes (A.drop (A.length - B.length)) B

/-- RFC 5297 section 2.4, S2V with the MAC `F` in place of AES-CMAC. -/
def s2v (F : Bytes → Bytes) : List Bytes → Bytes
  | [] => F (List.replicate 15 0 ++ [1])
  | S :: rest =>
    let all := S :: rest
    let D := s2vChain F (F (List.replicate 16 0)) all.dropLast
    let last := all.getLast (by simp [all])
    F (if last.length ≥ 16 then xorend last D
       else xorBytes (ofBits (dblBits (toBits D))) (pad10 last))

/-- RFC 5297 section 2.5: the initial counter, `V` with bits 31 and 63 (from the right) cleared. -/
def sivQ (V : Bytes) : BitVec 128 :=
  toBits V &&& ~~~ (BitVec.twoPow 128 31) &&& ~~~ (BitVec.twoPow 128 63)

/-- RFC 5297 section 2.5: `m` key stream blocks in counter mode. -/
def ctrStream (E : Bytes → Bytes) (Q : BitVec 128) (m : Nat) : Bytes :=
  (List.range m).flatMap fun i => E (ofBits (Q + BitVec.ofNat 128 i))

/-- RFC 5297 section 2.6, SIV encryption with CMAC cipher `E1` and CTR cipher `E2`. -/
def sivEncrypt (E1 E2 : Bytes → Bytes) (ads : List Bytes) (P : Bytes) : Bytes :=
  let V := s2v (cmac E1) (ads ++ [P])
  V ++ xorBytes P (ctrStream E2 (sivQ V) ((P.length + 15) / 16))

end Cryptopy.Spec
