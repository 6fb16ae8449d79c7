import Verif.Spec.ChaCha

/-!
Specifications written from IEEE 802.11i: Michael and the TKIP mixing function, on 32-bit and 16-bit
machine words.
-/

namespace Cryptopy.Spec

/-- XSWAP: exchange the two octets in each half of the word. -/
def xswap (w : Word) : Word :=
  (w.extractLsb' 16 8) ++ (w.extractLsb' 24 8) ++ (w.extractLsb' 0 8) ++ (w.extractLsb' 8 8)

/-- The Michael block function. -/
def michaelBlock (l r : Word) : Word × Word :=
  let r := r ^^^ l.rotateLeft 17; let l := l + r
  let r := r ^^^ xswap l; let l := l + r
  let r := r ^^^ l.rotateLeft 3; let l := l + r
  let r := r ^^^ l.rotateRight 2; let l := l + r
  (l, r)

/-- Michael padding: one octet `0x5a` and then at least four zero octets up to a multiple of four. -/
def michaelPad (m : Bytes) : Bytes :=
  m ++ 0x5a :: List.replicate (4 + (4 - (m.length + 1) % 4) % 4) 0

/-- Absorb the words of the padded message. -/
def michaelAbsorb : List Word → Word × Word → Word × Word
  | [], s => s
  | m :: ms, (l, r) => michaelAbsorb ms (michaelBlock (l ^^^ m) r)

/-- The little-endian words of an octet string. -/
def leWords (s : Bytes) : List Word := (List.range (s.length / 4)).map (leWord s)

/-- Michael. -/
def michael (key m : Bytes) : Bytes :=
  let s := michaelAbsorb (leWords (michaelPad m)) (leWord key 0, leWord key 1)
  leBytes 4 s.1.toNat ++ leBytes 4 s.2.toNat

/-- The Michael block function undone: the four steps in reverse order. -/
def michaelUnblock (l r : Word) : Word × Word :=
  let l := l - r; let r := r ^^^ l.rotateRight 2
  let l := l - r; let r := r ^^^ l.rotateLeft 3
  let l := l - r; let r := r ^^^ xswap l
  let l := l - r; let r := r ^^^ l.rotateLeft 17
  (l, r)

/-- Undo the words of the padded message, the last one first. -/
def michaelUnabsorb : List Word → Word × Word → Word × Word
  | [], s => s
  | m :: ms, s =>
    let t := michaelUnabsorb ms s
    let u := michaelUnblock t.1 t.2
    (u.1 ^^^ m, u.2)

/-- The key computed from a message and its MIC. -/
def michaelKey (m mic : Bytes) : Bytes :=
  let s := michaelUnabsorb (leWords (michaelPad m)) (leWord mic 0, leWord mic 1)
  leBytes 4 s.1.toNat ++ leBytes 4 s.2.toNat

/-! ### TKIP mixing -/

/-- A 16-bit word. -/
abbrev Half := BitVec 16

/-- `Mk16(hi, lo)` of two octets of a string. -/
def mk16 (s : Bytes) (i : Nat) : Half := BitVec.ofNat 16 (leValue ((s.drop i).take 2))

/-- TTAK: five words. -/
abbrev TTAK := Half × Half × Half × Half × Half

/-- One round of phase 1; `k n` is the key word at octet `n`. -/
def ttakRound (S : Half → Half) (k : Nat → Half) (i : Nat) : TTAK → TTAK
  | (a, b, c, d, e) =>
    let j := 2 * (i % 2)
    let a := a + S (e ^^^ k j)
    let b := b + S (a ^^^ k (j + 4))
    let c := c + S (b ^^^ k (j + 8))
    let d := d + S (c ^^^ k (j + 12))
    let e := e + S (d ^^^ k j) + BitVec.ofNat 16 i
    (a, b, c, d, e)

/-- Phase 1 of the mixing: rounds 0 to 7. -/
def ttakRounds (S : Half → Half) (k : Nat → Half) (n : Nat) (s : TTAK) : TTAK :=
  (List.range n).foldl (fun s i => ttakRound S k i s) s

/-- Phase 1: temporal key, transmitter address, and the four upper octets of the counter. -/
def phase1 (S : Half → Half) (tk ta hi : Bytes) : TTAK :=
  ttakRounds S (mk16 tk) 8 (mk16 hi 0, mk16 hi 2, mk16 ta 0, mk16 ta 2, mk16 ta 4)

/-- The six words of phase 2. -/
abbrev Words6 := Half × Half × Half × Half × Half × Half

/-- Step 2 of phase 2, the bijective mixing of 96 bits. -/
def mix96 (S : Half → Half) (k : Nat → Half) : Words6 → Words6
  | (a, b, c, d, e, f) =>
    let a := a + S (f ^^^ k 0)
    let b := b + S (a ^^^ k 2)
    let c := c + S (b ^^^ k 4)
    let d := d + S (c ^^^ k 6)
    let e := e + S (d ^^^ k 8)
    let f := f + S (e ^^^ k 10)
    let a := a + (f ^^^ k 12).rotateRight 1
    let b := b + (a ^^^ k 14).rotateRight 1
    let c := c + b.rotateRight 1
    let d := d + c.rotateRight 1
    let e := e + d.rotateRight 1
    let f := f + e.rotateRight 1
    (a, b, c, d, e, f)

/-- The six words of phase 2 for a TTAK and the low counter word. -/
def ppk (S : Half → Half) (tk : Bytes) (t : TTAK) (iv16 : Half) : Words6 :=
  mix96 S (mk16 tk) (t.1, t.2.1, t.2.2.1, t.2.2.2.1, t.2.2.2.2, t.2.2.2.2 + iv16)

/-- Step 3 of phase 2, seed octets 3 to 15: the octet derived from the last word and the key, then
the six words in little-endian order. -/
def seedTail (tk : Bytes) (w : Words6) : Bytes :=
  UInt8.ofNat (((w.2.2.2.2.2 ^^^ mk16 tk 0) >>> 1).toNat % 256) ::
    ([w.1, w.2.1, w.2.2.1, w.2.2.2.1, w.2.2.2.2.1, w.2.2.2.2.2].flatMap fun h => leBytes 2 h.toNat)

/-- The WEP seed of IEEE 802.11i for the counter octets `tsc` (TSC0 first). -/
def wepSeed (S : Half → Half) (tk ta tsc : Bytes) : Bytes :=
  let t0 := tsc.getD 0 0
  let t1 := tsc.getD 1 0
  [t1, (t1 ||| 0x20) &&& 0x7f, t0] ++
    seedTail tk (ppk S tk (phase1 S tk ta (tsc.drop 2)) (mk16 tsc 0))

/-- Multiplication by `x` in GF(2^8) modulo `x^8 + x^4 + x^3 + x + 1`. -/
def xtime (b : BitVec 8) : BitVec 8 := if b.msb then (b <<< 1) ^^^ 0x1b#8 else b <<< 1

/-- The 16-bit TKIP S-box of 802.11i for the octet S-box `s` of AES: the low octet `b` contributes
`2 s(b)` in the high and `3 s(b)` in the low octet, the high octet the same with octets exchanged. -/
def tkipSub (s : BitVec 8 → BitVec 8) (v : Half) : Half :=
  let lo := s (v.extractLsb' 0 8)
  let hi := s (v.extractLsb' 8 8)
  (xtime lo ++ (xtime lo ^^^ lo)) ^^^ ((xtime hi ^^^ hi) ++ xtime hi)

end Cryptopy.Spec
