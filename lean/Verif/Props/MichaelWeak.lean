import Verif.Props.Michael
import Verif.Lemmas.Encoding

/-!
Property C137: which keys and messages Michael cannot tell apart.
-/

namespace Cryptopy
open Model Spec

private theorem once (key data : Bytes) (hk : key.length = 8) :
    michaelOnce key data = .ok (michael key data) := (C45_michael_value key data hk).1

private theorem words2 (l r : Word) :
    leWord (leBytes 4 l.toNat ++ leBytes 4 r.toNat) 0 = l ∧
    leWord (leBytes 4 l.toNat ++ leBytes 4 r.toNat) 1 = r := by
  have hl : (leBytes 4 l.toNat).length = 4 := by simp
  have e1 : leWord (leBytes 4 l.toNat ++ leBytes 4 r.toNat) 0 = leWord (leBytes 4 l.toNat) 0 := by
    simp only [leWord, Nat.mul_zero, List.drop_zero]
    rw [List.take_left' hl, List.take_of_length_le (by omega)]
  have e2 : leWord (leBytes 4 l.toNat ++ leBytes 4 r.toNat) 1 = leWord (leBytes 4 r.toNat) 0 := by
    simp only [leWord, Nat.mul_zero, Nat.mul_one, List.drop_zero]
    rw [List.drop_left' hl]
  rw [e1, e2]
  exact ⟨leWord_leBytes4 l, leWord_leBytes4 r⟩

private theorem absorb_append (u v : List Word) (s : Word × Word) :
    michaelAbsorb (u ++ v) s = michaelAbsorb v (michaelAbsorb u s) := by
  induction u generalizing s with
  | nil => rfl
  | cons a u ih => obtain ⟨l, r⟩ := s; exact ih _

private theorem leWord_append_left (p q : Bytes) (i : Nat) (h : 4 * i + 4 ≤ p.length) :
    leWord (p ++ q) i = leWord p i := by
  unfold leWord
  rw [List.drop_append_of_le_length (by omega), List.take_append_of_le_length (by simp; omega)]

private theorem leWord_append_right (p q : Bytes) (n i : Nat) (h : p.length = 4 * n) :
    leWord (p ++ q) (n + i) = leWord q i := by
  unfold leWord
  rw [show 4 * (n + i) = p.length + 4 * i by omega, ← List.drop_drop, List.drop_left]

private theorem leWords_append (p q : Bytes) (n : Nat) (h : p.length = 4 * n) :
    leWords (p ++ q) = leWords p ++ leWords q := by
  unfold leWords
  rw [List.length_append, h, show (4 * n + q.length) / 4 = n + q.length / 4 by omega,
    show 4 * n / 4 = n by omega, List.range_add, List.map_append, List.map_map]
  congr 1
  · apply List.map_congr_left
    intro i hi
    exact leWord_append_left p q i (by have := List.mem_range.1 hi; omega)
  · apply List.map_congr_left
    intro i _
    exact leWord_append_right p q n i h

private theorem pad_append (p m : Bytes) (n : Nat) (h : p.length = 4 * n) :
    michaelPad (p ++ m) = p ++ michaelPad m := by
  unfold michaelPad
  rw [List.length_append, h, List.append_assoc,
    show (4 * n + m.length + 1) % 4 = (m.length + 1) % 4 by omega]

/-- The key that stands for key `key` once the prefix `p` has been read. -/
private def rekey (key p : Bytes) : Bytes :=
  let s := michaelAbsorb (leWords p) (leWord key 0, leWord key 1)
  leBytes 4 s.1.toNat ++ leBytes 4 s.2.toNat

private theorem michael_prefix (key p m : Bytes) (n : Nat) (h : p.length = 4 * n) :
    michael key (p ++ m) = michael (rekey key p) m := by
  unfold michael rekey
  rw [pad_append p m n h, leWords_append p _ n h, absorb_append]
  simp only [words2]

/-- C137: reading a prefix of whole words amounts to changing the key.  For every key and prefix
there is exactly one key that treats every message as the first key treats the prefixed message. -/
theorem C137_prefix (key p : Bytes) (hk : key.length = 8) (hp : 4 ∣ p.length) :
    ∃! key' : Bytes, key'.length = 8 ∧
      ∀ m, michaelOnce key (p ++ m) = michaelOnce key' m := by
  obtain ⟨n, hn⟩ := hp
  have h8 : (rekey key p).length = 8 := by simp [rekey]
  refine ⟨rekey key p, ⟨h8, fun m => ?_⟩, ?_⟩
  · rw [once _ _ hk, once _ _ h8, michael_prefix key p m n hn]
  · rintro k ⟨hk', h⟩
    have h1 := h []
    rw [once _ _ hk, michael_prefix key p [] n hn] at h1
    exact (C46_michael_key_recovery [] (michael (rekey key p) []) (by simp [michael])).unique
      ⟨hk', h1.symm⟩ ⟨h8, once _ _ h8⟩
example := C137_prefix [1, 2, 3, 4, 5, 6, 7, 8] [9, 9, 9, 9, 1, 2, 3, 4] rfl (by decide)

/-- C137: two prefixes of whole words that are confused once are always confused. If the MICs agree
for one continuation they agree for every continuation. -/
theorem C137_extend (key p q m : Bytes) (hk : key.length = 8) (hp : 4 ∣ p.length)
    (hq : 4 ∣ q.length) (h : michaelOnce key (p ++ m) = michaelOnce key (q ++ m)) (m' : Bytes) :
    michaelOnce key (p ++ m') = michaelOnce key (q ++ m') := by
  obtain ⟨k1, ⟨l1, e1⟩, -⟩ := C137_prefix key p hk hp
  obtain ⟨k2, ⟨l2, e2⟩, -⟩ := C137_prefix key q hk hq
  rw [e1, e2] at h ⊢
  have : k1 = k2 := (C46_michael_key_recovery m (michael k2 m) (by simp [michael])).unique
      ⟨l1, h.trans (once _ _ l2)⟩ ⟨l2, once _ _ l2⟩
  rw [this]
example := C137_extend (List.replicate 8 0) [0, 0, 0, 0] [] [7] rfl (by decide) (by decide) (by decide +kernel)

/-- C137: one message with its MIC settles the MIC of every message: the key is computed by one pass
over the message in reverse (`michaelKey`), then the new MIC from it. -/
theorem C137_forge (key m mic m' : Bytes) (hk : key.length = 8) (hm : michaelOnce key m = .ok mic) :
    michaelOnce (michaelKey m mic) m' = michaelOnce key m' := by
  rw [C46_michael_key_computed m mic key hk hm]
example (m' : Bytes) := C137_forge [1, 2, 3, 4, 5, 6, 7, 8] [9, 10] _ m' rfl (C45_michael_value _ _ rfl).1

/-! ### The left half of the key and the first word -/

private theorem digit_xor (a b x y : Nat) (ha : a < 256) (hb : b < 256) :
    (a + 256 * x) ^^^ (b + 256 * y) = (a ^^^ b) + 256 * (x ^^^ y) := by
  have hab : a ^^^ b < 2 ^ 8 := Nat.xor_lt_two_pow (n := 8) ha hb
  apply Nat.eq_of_testBit_eq
  intro i
  have e : ∀ u v : Nat, u < 2 ^ 8 → (u + 256 * v).testBit i =
      if i < 8 then u.testBit i else v.testBit (i - 8) := by
    intro u v hu
    rw [Nat.add_comm, show (256 : Nat) = 2 ^ 8 by rfl, Nat.testBit_two_pow_mul_add _ hu]
  rw [Nat.testBit_xor, e a x ha, e b y hb, e _ _ hab, Nat.testBit_xor, Nat.testBit_xor]
  split <;> rfl

private theorem leValue_xor (a b : Bytes) (h : a.length = b.length) :
    leValue (xorBytes a b) = leValue a ^^^ leValue b := by
  induction a generalizing b with
  | nil => cases b with
    | nil => rfl
    | cons _ _ => simp at h
  | cons x a ih => cases b with
    | nil => simp at h
    | cons y b =>
      have hh : a.length = b.length := by simpa using h
      have e : xorBytes (x :: a) (y :: b) = (x ^^^ y) :: xorBytes a b := rfl
      rw [e]
      simp only [leValue]
      rw [ih b hh, digit_xor _ _ _ _ x.toNat_lt y.toNat_lt, UInt8.toNat_xor]

private theorem leWord_xor (a b : Bytes) (ha : a.length = 4) (hb : b.length = 4) :
    leWord (xorBytes a b) 0 = leWord a 0 ^^^ leWord b 0 := by
  have hx : (xorBytes a b).length = 4 := by rw [length_xorBytes]; omega
  unfold leWord
  simp only [Nat.mul_zero, List.drop_zero]
  rw [List.take_of_length_le (by omega), List.take_of_length_le (by omega),
    List.take_of_length_le (by omega), leValue_xor a b (by omega)]
  apply BitVec.eq_of_getElem_eq
  intro i hi
  simp [← BitVec.getLsbD_eq_getElem, BitVec.getLsbD_ofNat, hi]

private theorem michael_first (a k l m : Bytes) (ha : a.length = 4) (hk : k.length = 4) :
    michael (k ++ l) (a ++ m) =
      (let s := michaelAbsorb (leWords (michaelPad m))
        (michaelBlock (leWord k 0 ^^^ leWord a 0) (leWord l 0))
      leBytes 4 s.1.toNat ++ leBytes 4 s.2.toNat) := by
  have e0 : leWord (k ++ l) 0 = leWord k 0 := leWord_append_left k l 0 (by omega)
  have e1 : leWord (k ++ l) 1 = leWord l 0 := leWord_append_right k l 1 0 (by omega)
  have ea : leWords a = [leWord a 0] := by simp [leWords, ha]
  unfold michael
  rw [pad_append a m 1 (by omega), leWords_append a _ 1 (by omega), e0, e1, ea]
  rfl

/-- C137: the left half of the key is only ever combined with the first word of the message by
exclusive or.  Changing one of them by `w` is the same as changing the other by `w`. -/
theorem C137_related (w k l a m : Bytes) (hw : w.length = 4) (hk : k.length = 4)
    (hl : l.length = 4) (ha : a.length = 4) :
    michaelOnce (xorBytes k w ++ l) (a ++ m) = michaelOnce (k ++ l) (xorBytes a w ++ m) := by
  have h1 : (xorBytes k w).length = 4 := by rw [length_xorBytes]; omega
  have h2 : (xorBytes a w).length = 4 := by rw [length_xorBytes]; omega
  rw [once _ _ (by simp [h1, hl]), once _ _ (by simp [hk, hl]), michael_first _ _ _ _ ha h1,
    michael_first _ _ _ _ h2 hk, leWord_xor k w hk hw, leWord_xor a w ha hw]
  have : leWord k 0 ^^^ leWord w 0 ^^^ leWord a 0 = leWord k 0 ^^^ (leWord a 0 ^^^ leWord w 0) := by
    rw [BitVec.xor_assoc, BitVec.xor_comm (leWord w 0)]
  rw [this]

/-! ### The zero key -/

private theorem block_zero : michaelBlock 0 0 = (0, 0) := by decide

private theorem absorb_zero (n : Nat) :
    michaelAbsorb (List.replicate n 0) (0, 0) = (0, 0) := by
  induction n with
  | zero => rfl
  | succ n ih =>
    rw [List.replicate_succ, michaelAbsorb, show (0 : Word) ^^^ 0 = 0 by decide]
    exact (congrArg _ block_zero).trans ih

private theorem leWords_zero (n : Nat) : leWords (List.replicate (4 * n) 0) = List.replicate n 0 := by
  induction n with
  | zero => rfl
  | succ n ih =>
    rw [show 4 * (n + 1) = 4 + 4 * n by omega, List.replicate_add, leWords_append _ _ 1 (by simp), ih]
    rfl

/-- C137: with the zero key, putting any number of zero words before a message leaves its MIC as it
is. -/
theorem C137_zero_key (n : Nat) (m : Bytes) :
    michaelOnce (List.replicate 8 0) (List.replicate (4 * n) 0 ++ m) =
      michaelOnce (List.replicate 8 0) m := by
  have h0 : leWord (List.replicate 8 0) 0 = 0 := by decide
  have h1 : leWord (List.replicate 8 0) 1 = 0 := by decide
  have h2 : rekey (List.replicate 8 0) (List.replicate (4 * n) 0) = List.replicate 8 0 := by
    unfold rekey
    rw [h0, h1, leWords_zero, absorb_zero]
    rfl
  rw [once _ _ (by simp), once _ _ (by simp), michael_prefix _ _ m n (by simp), h2]

/-- C137: whenever a prefix `p` has the MIC of the empty message under the zero key, zero words
after `p` go unnoticed, however many they are. -/
theorem C137_zero_state (key p : Bytes) (hk : key.length = 8) (hp : 4 ∣ p.length)
    (h : michaelOnce key p = michaelOnce (List.replicate 8 0) []) (n : Nat) (m : Bytes) :
    michaelOnce key (p ++ (List.replicate (4 * n) 0 ++ m)) = michaelOnce key (p ++ m) := by
  obtain ⟨k1, ⟨l1, e1⟩, -⟩ := C137_prefix key p hk hp
  have h' : michaelOnce k1 [] = michaelOnce (List.replicate 8 0) [] := by
    rw [← e1, List.append_nil, h]
  have l8 : (List.replicate 8 (0 : UInt8)).length = 8 := by simp
  have : k1 = List.replicate 8 0 :=
    (C46_michael_key_recovery [] (michael (List.replicate 8 0) []) (by simp [michael])).unique
      ⟨l1, h'.trans (once _ _ l8)⟩ ⟨l8, once _ _ l8⟩
  rw [e1, e1, this, C137_zero_key]
example := C137_zero_state (List.replicate 8 0) [0, 0, 0, 0] rfl (by decide) (by decide +kernel)

/-- C137: every prefix is of this kind for exactly one key. -/
theorem C137_zero_state_key (p : Bytes) : ∃! key : Bytes, key.length = 8 ∧
    michaelOnce key p = michaelOnce (List.replicate 8 0) [] := by
  rw [once _ _ (show (List.replicate 8 (0 : UInt8)).length = 8 by simp)]
  exact C46_michael_key_recovery p _ (by simp [michael])

/-- The hypotheses are met by concrete values: two different messages with one MIC. -/
example : michaelOnce (List.replicate 8 0) [0, 0, 0, 0, 7] = michaelOnce (List.replicate 8 0) [7] :=
  C137_zero_key 1 [7]

example : michaelOnce [1, 2, 3, 4, 5, 6, 7, 8] [9, 9, 9, 9, 1] =
    michaelOnce [0, 0, 0, 0, 5, 6, 7, 8] [8, 11, 10, 13, 1] :=
  C137_related [1, 2, 3, 4] [0, 0, 0, 0] [5, 6, 7, 8] [9, 9, 9, 9] [1] rfl rfl rfl rfl

end Cryptopy
