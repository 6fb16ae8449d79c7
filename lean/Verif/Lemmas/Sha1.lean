import Verif.Spec.Sha1
import Verif.Lemmas.Ecpp

/-!
SHA-1 in a form that the kernel can evaluate: every word is brought to a literal before it is used.
-/

namespace Cryptopy.Sha1
open Spec Ecpp

/-- `n` more words of the schedule, then `k`. -/
def schedule {α : Type} (k : List Nat → α) : Nat → List Nat → α
  | 0, w => k w
  | n + 1, w => force (rotl32 1 (w.getD 2 0 ^^^ w.getD 7 0 ^^^ w.getD 13 0 ^^^ w.getD 15 0)) fun x => schedule k n (x :: w)

theorem schedule_eq {α : Type} (k : List Nat → α) (n : Nat) (w : List Nat) : schedule k n w = k (sha1Extend^[n] w) := by
  induction n generalizing w with
  | zero => rfl
  | succ n ih => rw [schedule, force_eq, ih]; rfl

/-- The rounds, then `k`. -/
def rounds {α : Type} (k : Nat → Nat → Nat → Nat → Nat → α) : List (Nat × Nat) → Nat → Nat → Nat → Nat → Nat → α
  | [], a, b, c, d, e => k a b c d e
  | tw :: l, a, b, c, d, e => force tw.1 fun t =>
    force ((rotl32 5 a + sha1F t b c d + e + sha1K t + tw.2) % 2 ^ 32) fun x =>
    force (rotl32 30 b) fun y => rounds k l x a y c d

theorem rounds_eq {α : Type} (k : Nat → Nat → Nat → Nat → Nat → α) (l : List (Nat × Nat)) (a b c d e : Nat) :
    rounds k l a b c d e =
      (fun s : Nat × Nat × Nat × Nat × Nat => k s.1 s.2.1 s.2.2.1 s.2.2.2.1 s.2.2.2.2) (l.foldl sha1Step (a, b, c, d, e)) := by
  induction l generalizing a b c d e with
  | nil => rfl
  | cons tw l ih => simp only [rounds, force_eq]; rw [ih]; rfl

/-- The words of a list as literals, then `k`. -/
def forceList {α : Type} : List Nat → (List Nat → α) → α
  | [], k => k []
  | x :: l, k => force x fun x => forceList l fun l => k (x :: l)

theorem forceList_eq {α : Type} (l : List Nat) (k : List Nat → α) : forceList l k = k l := by
  induction l generalizing k with
  | nil => rfl
  | cons x l ih => rw [forceList, force_eq, ih]

/-- One block, then `k`. -/
def block {α : Type} (k : Nat → Nat → Nat → Nat → Nat → α) (w : List Nat) (a b c d e : Nat) : α :=
  forceList w.reverse fun w => schedule (fun w => rounds (fun a' b' c' d' e' =>
    force ((a + a') % 2 ^ 32) fun x => force ((b + b') % 2 ^ 32) fun y => force ((c + c') % 2 ^ 32) fun z =>
    force ((d + d') % 2 ^ 32) fun u => force ((e + e') % 2 ^ 32) fun v => k x y z u v)
    ((List.range 80).zip w.reverse) a b c d e) 64 w

theorem block_eq {α : Type} (k : Nat → Nat → Nat → Nat → Nat → α) (w : List Nat) (a b c d e : Nat) :
    block k w a b c d e = (fun s : Nat × Nat × Nat × Nat × Nat => k s.1 s.2.1 s.2.2.1 s.2.2.2.1 s.2.2.2.2)
      (sha1Block (a, b, c, d, e) w) := by
  simp only [block, forceList_eq, schedule_eq, rounds_eq, force_eq]
  rfl

/-- The digest of a message that fits in one block, then `k`. -/
def short {α : Type} (m n : Nat) (k : Nat → α) : α :=
  force (sha1Pad m n) fun x =>
    block (fun a b c d e => force ((((a * 2 ^ 32 + b) * 2 ^ 32 + c) * 2 ^ 32 + d) * 2 ^ 32 + e) k)
      ((List.range 16).map fun j => x / 2 ^ (32 * (15 - j)) % 2 ^ 32)
      0x67452301 0xefcdab89 0x98badcfe 0x10325476 0xc3d2e1f0

theorem short_eq {α : Type} (m n : Nat) (hn : sha1Blocks n = 1) (k : Nat → α) : short m n k = k (sha1 m n) := by
  simp only [short, block_eq, force_eq, sha1, hn, List.range_one, List.foldl_cons, List.foldl_nil, Nat.mul_zero,
    Nat.zero_add, Nat.mul_one, Nat.reduceSub]

/-- The digests of the next `v` seeds after `i`, then `k`. -/
def expand {α : Type} (seed : Nat) (k : Nat → α) : Nat → Nat → Nat → α
  | 0, _, x => k x
  | v + 1, i, x => short ((seed + (i + 1)) % 2 ^ 160) 160 fun h => force (x * 2 ^ 160 + h) fun x => expand seed k v (i + 1) x

theorem expand_eq {α : Type} (seed : Nat) (k : Nat → α) (v i x : Nat) : expand seed k v i x =
    k ((List.range' i v).foldl (fun x i => x * 2 ^ 160 + sha1 ((seed + (i + 1)) % 2 ^ 160) 160) x) := by
  induction v generalizing i x with
  | zero => rfl
  | succ v ih => rw [expand, short_eq _ _ (by decide), force_eq, ih, List.range'_succ, List.foldl_cons]

/-- `expandSeed`, then `k`. -/
def expandFast {α : Type} (w v seed : Nat) (k : Nat → α) : α :=
  short seed 160 fun h => force (h % 2 ^ w) fun x => expand seed k v 0 x

theorem expandFast_eq {α : Type} (w v seed : Nat) (k : Nat → α) : expandFast w v seed k = k (expandSeed w v seed) := by
  rw [expandFast, short_eq _ _ (by decide), force_eq, expand_eq, expandSeed, List.range_eq_range']

/-- A test vector of FIPS 180-2 appendix A and the empty message. -/
example : sha1 0x616263 24 = 0xa9993e364706816aba3e25717850c26c9cd0d89d ∧
    sha1 0 0 = 0xda39a3ee5e6b4b0d3255bfef95601890afd80709 := by
  rw [← short_eq 0x616263 24 (by decide) (fun x => x), ← short_eq 0 0 (by decide) (fun x => x)]
  decide +kernel

end Cryptopy.Sha1
