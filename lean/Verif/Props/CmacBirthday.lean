import Verif.Lemmas.Birthday
import Verif.Props.AesCmac
import Verif.Props.Permutations

/-!
C191: how a tag of `aes_cmac` is forged after about `2^64` messages, and how often this is achieved with fewer.
-/

namespace Cryptopy
open Model (CipherLib aesCmac)
open Spec Prf S2vTags

/-- Ask about all messages of a list, then go on with the messages and their answers. -/
def askAll {M T R : Type} : List M → (List (M × T) → Asker M T R) → Asker M T R
  | [], k => k []
  | m :: ms, k => .ask m fun t => askAll ms fun l => k ((m, t) :: l)

/-- `q` messages of two blocks: the first block is the number 1, the second block runs through the numbers below `q`. -/
def lowMessages (q : Nat) : List Bytes :=
  (List.range q).map fun i => ofBits 1#128 ++ ofBits (0#64 ++ BitVec.ofNat 64 i)

/-- `q` messages of two blocks: the first block is the number 2, the second block runs through the multiples of `2^64` with
factors below `q`. -/
def highMessages (q : Nat) : List Bytes :=
  (List.range q).map fun j => ofBits 2#128 ++ ofBits (BitVec.ofNat 64 j ++ 0#64)

/-- Ask for the tags of all these messages.  If one of the first and one of the second kind have the same tag, ask for the
tag of the first with a zero octet appended, and claim it for the second with a zero octet appended. -/
def birthday (q : Nat) : Asker Bytes (Py Bytes) (Bytes × Bytes) :=
  askAll (lowMessages q) fun l => askAll (highMessages q) fun h =>
    match (l.product h).find? fun p => p.1.2.toOption = p.2.2.toOption with
    | some p => .ask (p.1.1 ++ [0]) fun t => .done (p.2.1 ++ [0], t.toOption.getD [])
    | none => .done ([], [])

section
variable {M T R : Type}

theorem askAll_run (g : M → T) (ms : List M) (k : List (M × T) → Asker M T R) :
    (askAll ms k).run g = (k (ms.map fun m => (m, g m))).run g := by
  induction ms generalizing k with
  | nil => rfl
  | cons m ms ih => rw [askAll, Asker.run, ih, List.map_cons]

theorem askAll_asked (g : M → T) (ms : List M) (k : List (M × T) → Asker M T R) :
    (askAll ms k).asked g = ms ++ (k (ms.map fun m => (m, g m))).asked g := by
  induction ms generalizing k with
  | nil => rfl
  | cons m ms ih => rw [askAll, Asker.asked, ih, List.map_cons, List.cons_append]

theorem askAll_cost (cost : M → Nat) (last : R → Nat) (b : Nat) (ms : List M) (hm : ∀ m ∈ ms, cost m = b)
    (k : List (M × T) → Asker M T R) (c : Nat)
    (hk : ∀ l : List (M × T), l.map Prod.fst = ms → (k l).CostLe cost last c) :
    (askAll ms k).CostLe cost last (b * ms.length + c) := by
  induction ms generalizing k with
  | nil =>
    rw [List.length_nil, Nat.mul_zero, Nat.zero_add]
    exact hk [] rfl
  | cons m ms ih =>
    have h2 := hm m List.mem_cons_self
    have h3 : b * (m :: ms).length + c = b + (b * ms.length + c) := by rw [List.length_cons]; ring
    refine ⟨by rw [h2, h3]; omega, fun t => ?_⟩
    rw [h2, h3, Nat.add_sub_cancel_left]
    exact ih (fun m h => hm m (List.mem_cons_of_mem _ h)) _ fun l hl => hk _ (by rw [List.map_cons, hl])

end

theorem low_length {q : Nat} {m : Bytes} (h : m ∈ lowMessages q) : m.length = 32 := by
  obtain ⟨i, -, rfl⟩ := List.mem_map.mp h
  rw [List.length_append, length_ofBits, length_ofBits]

theorem high_length {q : Nat} {m : Bytes} (h : m ∈ highMessages q) : m.length = 32 := by
  obtain ⟨i, -, rfl⟩ := List.mem_map.mp h
  rw [List.length_append, length_ofBits, length_ofBits]

private theorem ofBits_inj' {a b : BitVec 128} (h : ofBits a = ofBits b) : a = b := by
  rw [← toBits_ofBits a, h, toBits_ofBits]

theorem low_ne_high {q : Nat} {m m' : Bytes} (h : m ∈ lowMessages q) (h' : m' ∈ highMessages q) : m ≠ m' := by
  obtain ⟨i, -, rfl⟩ := List.mem_map.mp h
  obtain ⟨j, -, rfl⟩ := List.mem_map.mp h'
  intro e
  have := (List.append_inj e (by rw [length_ofBits, length_ofBits])).1
  exact absurd (ofBits_inj' this) (by decide)

/-- C191: this takes `2 * q + 1` tags, and `4 * q + 6` blocks with the claimed message. -/
theorem C191_cost (q : Nat) : (birthday q).CostLe cmacBlocks (fun r => cmacBlocks r.1) (4 * q + 6) ∧
    ∀ g, ((birthday q).asked g).length ≤ 2 * q + 1 := by
  have b2 {m : Bytes} (h : m.length = 32) : cmacBlocks m = 2 := by rw [cmacBlocks, h]; decide
  have b3 {m : Bytes} (h : m.length = 32) : cmacBlocks (m ++ [0]) = 3 := by
    rw [cmacBlocks, List.length_append, h]; decide
  constructor
  · have e : 4 * q + 6 = 2 * (lowMessages q).length + (2 * (highMessages q).length + 6) := by
      rw [lowMessages, highMessages, List.length_map, List.length_map, List.length_range]; omega
    rw [e]
    refine askAll_cost _ _ 2 _ (fun m h => b2 (low_length h)) _ _ fun l hl =>
      askAll_cost _ _ 2 _ (fun m h => b2 (high_length h)) _ _ fun h hh => ?_
    split
    · rename_i p hp
      have hm := List.mem_product.mp (List.mem_of_find?_eq_some hp)
      have h1 : p.1.1 ∈ lowMessages q := hl ▸ List.mem_map_of_mem hm.1
      have h2 : p.2.1 ∈ highMessages q := hh ▸ List.mem_map_of_mem hm.2
      refine ⟨?_, fun t => ?_⟩
      · change cmacBlocks (p.1.1 ++ [0]) ≤ 6
        rw [b3 (low_length h1)]
        decide
      · change cmacBlocks (p.2.1 ++ [0]) ≤ 6 - cmacBlocks (p.1.1 ++ [0])
        rw [b3 (low_length h1), b3 (high_length h2)]
    · change cmacBlocks [] ≤ 6
      decide
  · intro g
    rw [birthday, askAll_asked, askAll_asked, List.length_append, List.length_append, lowMessages, highMessages,
      List.length_map, List.length_map, List.length_range]
    split
    · rw [Asker.asked, Asker.asked, List.length_singleton]; omega
    · rw [Asker.asked, List.length_nil]; omega

/-- With `2^64` messages of each kind all differences occur. -/
theorem all_differences (d : BitVec 128) : ∃ i < 2 ^ 64, ∃ j < 2 ^ 64, d = BitVec.ofNat 64 j ++ BitVec.ofNat 64 i := by
  refine ⟨(d.extractLsb' 0 64).toNat, BitVec.isLt _, (d.extractLsb' 64 64).toNat, BitVec.isLt _, ?_⟩
  rw [BitVec.ofNat_toNat, BitVec.ofNat_toNat, BitVec.setWidth_eq, BitVec.setWidth_eq]
  ext i hi
  rw [BitVec.getElem_append]
  split
  · rw [BitVec.getElem_extractLsb', Nat.zero_add, BitVec.getLsbD_eq_getElem]
  · rw [BitVec.getElem_extractLsb', BitVec.getLsbD_eq_getElem (by omega)]
    congr 1
    omega

section
variable {aes : CipherLib} (ha : LawfulCipher aes) {key : Bytes} (hinj : InjectiveOn16 (aes.enc key))
include ha

private theorem two_blocks {a b t : Bytes} (la : a.length = 16) (lb : b.length = 16)
    (h : aesCmac aes aes key (a ++ b) = .ok t) :
    t = aes.enc key (xorBytes (aes.enc key a) (xorBytes b (ofBits (cmacK1 (aes.enc key))))) := by
  rw [cmacTag_of_ok ha ha h, cmacFrom, if_neg (by simp; omega), if_neg (by simp; omega),
    List.take_left' la, List.drop_left' la, cmacFrom, if_neg (by omega), if_pos lb, xorBytes_zeros a 16 la]

include hinj

theorem collide_iff {a a' t t' : Bytes} (la : a.length = 16) (la' : a'.length = 16) (c c' : BitVec 128)
    (h : aesCmac aes aes key (a ++ ofBits c) = .ok t) (h' : aesCmac aes aes key (a' ++ ofBits c') = .ok t') :
    t = t' ↔ toBits (aes.enc key a) ^^^ toBits (aes.enc key a') = c ^^^ c' := by
  have e1 := ha.length key a la
  have e2 := ha.length key a' la'
  have lk := length_ofBits (cmacK1 (aes.enc key))
  have lc := length_ofBits c
  have lc' := length_ofBits c'
  have l1 : (xorBytes (ofBits c) (ofBits (cmacK1 (aes.enc key)))).length = 16 := by rw [length_xorBytes]; omega
  have l1' : (xorBytes (ofBits c') (ofBits (cmacK1 (aes.enc key)))).length = 16 := by rw [length_xorBytes]; omega
  have l2 : (xorBytes (aes.enc key a) (xorBytes (ofBits c) (ofBits (cmacK1 (aes.enc key))))).length = 16 := by
    rw [length_xorBytes]; omega
  have l2' : (xorBytes (aes.enc key a') (xorBytes (ofBits c') (ofBits (cmacK1 (aes.enc key))))).length = 16 := by
    rw [length_xorBytes]; omega
  rw [two_blocks ha la lc h, two_blocks ha la' lc' h']
  have e : ∀ x y z w k : BitVec 128, x ^^^ (z ^^^ k) = y ^^^ (w ^^^ k) ↔ x ^^^ y = z ^^^ w := by
    intro x y z w k
    constructor
    · intro h
      have : x ^^^ y = (x ^^^ (z ^^^ k)) ^^^ (y ^^^ (z ^^^ k)) := by
        rw [BitVec.xor_comm y, ← BitVec.xor_assoc, BitVec.xor_assoc x, BitVec.xor_self, BitVec.xor_zero]
      rw [this, h]
      have : ∀ y z w k : BitVec 128, y ^^^ (w ^^^ k) ^^^ (y ^^^ (z ^^^ k)) = z ^^^ w := by
        intro y z w k
        ext i hi
        simp only [BitVec.getElem_xor]
        cases y[i] <;> cases z[i] <;> cases w[i] <;> cases k[i] <;> rfl
      exact this y z w k
    · intro h
      have : x = (z ^^^ w) ^^^ y := by rw [← h, BitVec.xor_assoc, BitVec.xor_self, BitVec.xor_zero]
      rw [this]
      ext i hi
      simp only [BitVec.getElem_xor]
      cases y[i] <;> cases z[i] <;> cases w[i] <;> cases k[i] <;> rfl
  rw [← e _ _ _ _ (cmacK1 (aes.enc key))]
  have hb : ∀ {x : Bytes} (c : BitVec 128), x.length = 16 →
      toBits (xorBytes x (xorBytes (ofBits c) (ofBits (cmacK1 (aes.enc key))))) =
        toBits x ^^^ (c ^^^ cmacK1 (aes.enc key)) := by
    intro x c hx
    have l : (xorBytes (ofBits c) (ofBits (cmacK1 (aes.enc key)))).length = 16 := by
      rw [length_xorBytes, length_ofBits, length_ofBits]; rfl
    rw [toBits_xor hx l, toBits_xor (length_ofBits _) (length_ofBits _), toBits_ofBits, toBits_ofBits]
  rw [← hb c e1, ← hb c' e2]
  constructor
  · intro h
    rw [hinj _ _ l2 l2' h]
  · intro h
    rw [toBits_inj l2 l2' h]

/-- C191: as long as there are no exceptions, the strategy succeeds with a cipher that maps different blocks to different
blocks exactly if the difference of two values of the cipher is one of the `q^2` differences of second blocks. -/
theorem C191_when (hq : Quiet aes key) (q : Nat) :
    Forges (aesCmac aes aes key) (birthday q) ↔ ∃ i < q, ∃ j < q,
      toBits (aes.enc key (ofBits 1#128)) ^^^ toBits (aes.enc key (ofBits 2#128)) =
        BitVec.ofNat 64 j ++ BitVec.ofNat 64 i := by
  have hg : ∀ M, ∃ t, aesCmac aes aes key M = .ok t := hq
  generalize hG : aesCmac aes aes key = g at hg
  have tagLen : ∀ {M t}, g M = .ok t → t.length = 16 := by
    intro M t h
    rw [← hG] at h
    rw [cmacTag_of_ok ha ha h]
    exact length_cmacFrom aes ha key _ _ _ _ (by simp)
  have hit {i j : Nat} : (g (ofBits 1#128 ++ ofBits (0#64 ++ BitVec.ofNat 64 i))).toOption =
      (g (ofBits 2#128 ++ ofBits (BitVec.ofNat 64 j ++ 0#64))).toOption ↔
      toBits (aes.enc key (ofBits 1#128)) ^^^ toBits (aes.enc key (ofBits 2#128)) =
        BitVec.ofNat 64 j ++ BitVec.ofNat 64 i := by
    obtain ⟨t, ht⟩ := hg (ofBits 1#128 ++ ofBits (0#64 ++ BitVec.ofNat 64 i))
    obtain ⟨t', ht'⟩ := hg (ofBits 2#128 ++ ofBits (BitVec.ofNat 64 j ++ 0#64))
    rw [ht, ht']
    rw [← hG] at ht ht'
    have := collide_iff ha hinj (length_ofBits _) (length_ofBits _) _ _ ht ht'
    rw [BitVec.xor_append, BitVec.zero_xor, BitVec.xor_zero] at this
    rw [← this]
    exact Option.some_inj
  rw [Forges, birthday, askAll_run, askAll_run, askAll_asked, askAll_asked]
  split
  · rename_i p hp
    have hm := List.mem_product.mp (List.mem_of_find?_eq_some hp)
    have hc : p.1.2.toOption = p.2.2.toOption := of_decide_eq_true (by simpa using List.find?_some hp)
    obtain ⟨m, h1, e1⟩ := List.mem_map.mp hm.1
    obtain ⟨m', h2, e2⟩ := List.mem_map.mp hm.2
    rw [← e1, ← e2] at hc ⊢
    refine iff_of_true ⟨?_, ?_⟩ ?_
    · simp only [Asker.run, Asker.asked, List.mem_append, List.mem_singleton, not_or]
      refine ⟨fun h => ?_, fun h => ?_, fun h => ?_⟩
      · have := low_length h
        rw [List.length_append, high_length h2] at this
        cases this
      · have := high_length h
        rw [List.length_append, high_length h2] at this
        cases this
      · exact low_ne_high h1 h2 (List.append_cancel_right h).symm
    · simp only [Asker.run]
      obtain ⟨t, ht⟩ := hg m
      obtain ⟨t', ht'⟩ := hg m'
      obtain ⟨u, hu⟩ := hg (m ++ [0])
      obtain ⟨u', hu'⟩ := hg (m' ++ [0])
      simp only [ht, ht'] at hc
      have l1 := low_length h1
      have l2 := high_length h2
      have n1 : m ≠ [] := fun e => by rw [e] at l1; cases l1
      have n2 : m' ≠ [] := fun e => by rw [e] at l2; cases l2
      rw [hu, hu']
      rw [← hG] at ht ht' hu hu'
      rw [(C117_collision_extends aes aes ha ha key hinj m m' [0] t t' u u' (by rw [l1]) (by rw [l2]) n1 n2 ht ht' hu
        hu').mpr (Option.some_inj.mp hc)]
      rfl
    · obtain ⟨i, hi, rfl⟩ := List.mem_map.mp h1
      obtain ⟨j, hj, rfl⟩ := List.mem_map.mp h2
      exact ⟨i, List.mem_range.mp hi, j, List.mem_range.mp hj, hit.mp hc⟩
  · rename_i hn
    refine iff_of_false (fun h => ?_) ?_
    · have := tagLen h.2
      cases this
    · rintro ⟨i, hi, j, hj, e⟩
      have := List.find?_eq_none.mp hn ((_, g _), (_, g _)) (List.mem_product.mpr
        ⟨List.mem_map_of_mem (List.mem_map_of_mem (List.mem_range.mpr hi)),
          List.mem_map_of_mem (List.mem_map_of_mem (List.mem_range.mpr hj))⟩)
      exact this (decide_eq_true (hit.mpr e))

/-- C191: with `2^65 + 1` tags the strategy always succeeds, for every cipher and key without exceptions. -/
theorem C191_certain (hq : Quiet aes key) : Forges (aesCmac aes aes key) (birthday (2 ^ 64)) := by
  rw [C191_when ha hinj hq]
  exact all_differences _

end

theorem quiet_iff (aes : CipherLib) (ha : LawfulCipher aes) (key : Bytes) (hk : aes.keyOk key = true) :
    Quiet aes key ↔ 2 ^ 120 ≤ (cmacK1 (aes.enc key)).toNat ∧ 2 ^ 120 ≤ (cmacK2 (aes.enc key)).toNat := by
  constructor
  · intro h
    obtain ⟨t, ht⟩ := h (List.replicate 16 0)
    obtain ⟨u, hu⟩ := h []
    rw [aesCmac_eq aes aes ha ha key _ hk hk] at ht hu
    constructor
    · by_contra hc
      rw [if_pos (by rw [if_pos (by simp)]; omega)] at ht
      cases ht
    · by_contra hc
      rw [if_pos (by rw [if_neg (by simp)]; omega)] at hu
      cases hu
  · intro h M
    rw [aesCmac_eq aes aes ha ha key _ hk hk, if_neg]
    · exact ⟨_, rfl⟩
    · split
      · omega
      · omega

/-- AES under the key of the examples of RFC 4493 raises no exception. -/
example : Quiet aesLib [0x2b, 0x7e, 0x15, 0x16, 0x28, 0xae, 0xd2, 0xa6, 0xab, 0xf7, 0x15, 0x88, 0x09, 0xcf, 0x4f, 0x3c] :=
  (quiet_iff aesLib C147_lawful _ (by decide +kernel)).mpr (by decide +kernel)

/-- C191: with AES itself, `2^65 + 1` tags are enough to forge a tag, for every key for which there are no exceptions. -/
theorem C191_aes (key : Bytes) (hq : Quiet aesLib key) : Forges (aesCmac aesLib aesLib key) (birthday (2 ^ 64)) :=
  C191_certain C147_lawful (fun _ _ ha hb h => Spec.Aes.encrypt_injective key ha hb h) hq

/-- The difference of two second blocks. -/
private def pairBlk (p : ℕ × ℕ) : Blk := (BitVec.ofNat 64 p.2 ++ BitVec.ofNat 64 p.1 : BitVec 128)

/-- The differences of second blocks. -/
private noncomputable def differences (q : Nat) : Finset Blk := (Finset.range q ×ˢ Finset.range q).image pairBlk

private theorem card_differences (q : Nat) (hq : q ≤ 2 ^ 64) : ((differences q).erase 0).card = q ^ 2 - 1 := by
  have hc : (differences q).card = q ^ 2 := by
    rw [differences, Finset.card_image_of_injOn, Finset.card_product, Finset.card_range, sq]
    rintro ⟨i, j⟩ h ⟨i', j'⟩ h' e
    simp only [Finset.coe_product, Finset.coe_range, Set.mem_prod, Set.mem_Iio] at h h'
    have e' : (BitVec.ofNat 64 j ++ BitVec.ofNat 64 i : BitVec 128) = BitVec.ofNat 64 j' ++ BitVec.ofNat 64 i' := e
    have h1 := congrArg (BitVec.extractLsb' 0 64) e'
    have h2 := congrArg (BitVec.extractLsb' 64 64) e'
    rw [BitVec.extractLsb'_append_eq_right, BitVec.extractLsb'_append_eq_right] at h1
    rw [BitVec.extractLsb'_append_eq_left, BitVec.extractLsb'_append_eq_left] at h2
    have h3 := congrArg BitVec.toNat h1
    have h4 := congrArg BitVec.toNat h2
    rw [BitVec.toNat_ofNat, BitVec.toNat_ofNat, Nat.mod_eq_of_lt (by omega), Nat.mod_eq_of_lt (by omega)] at h3 h4
    rw [h3, h4]
  rcases Nat.eq_zero_or_pos q with rfl | hp
  · rfl
  · rw [Finset.card_erase_of_mem, hc]
    refine Finset.mem_image.mpr ⟨(0, 0), ?_, ?_⟩
    · rw [Finset.mem_product, Finset.mem_range]
      exact ⟨hp, hp⟩
    · change (BitVec.ofNat 64 0 ++ BitVec.ofNat 64 0 : BitVec 128) = 0#128
      decide

/-- How often the difference of the values at 1 and 2 is one of these, among the permutations whose value at 0 has a
property. -/
theorem share_of_differences (Q F : (BitVec 128 → BitVec 128) → Prop) (hQ : ∀ f, Q f ↔ Q fun _ => f 0#128) (q : Nat)
    (hq : q ≤ 2 ^ 64) (hF : ∀ π : Equiv.Perm (BitVec 128), Q π → (F π ↔ ∃ i < q, ∃ j < q,
      π 1#128 ^^^ π 2#128 = BitVec.ofNat 64 j ++ BitVec.ofNat 64 i)) :
    (2 ^ 128 - 1) * Nat.card {π : Equiv.Perm (BitVec 128) // Q π ∧ F π} =
      (q ^ 2 - 1) * Nat.card {π : Equiv.Perm (BitVec 128) // Q π} := by
  have h12 : (1#128 : BitVec 128) ≠ 2#128 := by decide
  have h := perms_count (B := Blk) (fun c => Q fun _ => c) (differences q) (0#128 : BitVec 128)
    (1#128 : BitVec 128) (2#128 : BitVec 128) h12
  rw [card_blk, card_differences q hq] at h
  have e1 : cnt (fun π : Equiv.Perm Blk => Q fun _ => π (0#128 : BitVec 128)) =
      Nat.card {π : Equiv.Perm (BitVec 128) // Q π} := cnt_congr fun π : Equiv.Perm (BitVec 128) => (hQ π).symm
  have e2 : cnt (fun π : Equiv.Perm Blk => (Q fun _ => π (0#128 : BitVec 128)) ∧
      π (1#128 : BitVec 128) - π (2#128 : BitVec 128) ∈ differences q) =
      Nat.card {π : Equiv.Perm (BitVec 128) // Q π ∧ F π} := by
    refine cnt_congr fun π : Equiv.Perm (BitVec 128) => ?_
    refine and_congr_left_iff.mpr ?_ |>.trans (and_congr_right fun h => ?_)
    · exact fun _ => (hQ π).symm
    · rw [hF π h]
      change (π 1#128 ^^^ π 2#128 : BitVec 128) ∈ differences q ↔ _
      constructor
      · intro h
        obtain ⟨⟨i, j⟩, h1, h2⟩ := Finset.mem_image.mp h
        rw [Finset.mem_product, Finset.mem_range, Finset.mem_range] at h1
        exact ⟨i, h1.1, j, h1.2, h2.symm⟩
      · rintro ⟨i, hi, j, hj, e⟩
        exact Finset.mem_image.mpr ⟨(i, j), by
          rw [Finset.mem_product, Finset.mem_range, Finset.mem_range]
          exact ⟨hi, hj⟩, e.symm⟩
  rw [← e1, ← e2]
  exact h

/-- C191: with `q` messages of each kind, and `4 * q + 6` blocks in all, the strategy forges a tag for exactly `q^2 - 1` in
`2^128 - 1` of the permutations in place of AES for which there are no exceptions. -/
theorem C191_share (keyOk : Bytes → Bool) (key : Bytes) (hk : keyOk key = true) (q : Nat) (hq : q ≤ 2 ^ 64) :
    (2 ^ 128 - 1) * Nat.card {π : Equiv.Perm (BitVec 128) // Quiet (tableLib keyOk π) key ∧
        Forges (aesCmac (tableLib keyOk π) (tableLib keyOk π) key) (birthday q)} =
      (q ^ 2 - 1) * Nat.card {π : Equiv.Perm (BitVec 128) // Quiet (tableLib keyOk π) key} := by
  refine share_of_differences (fun f => Quiet (tableLib keyOk f) key)
    (fun f => Forges (aesCmac (tableLib keyOk f) (tableLib keyOk f) key) (birthday q)) (fun f => ?_) q hq fun π hQ => ?_
  · have hz : toBits (List.replicate 16 0) = 0#128 := toBlk_zero
    rw [quiet_iff _ (tableLib_lawful keyOk _) key hk, quiet_iff _ (tableLib_lawful keyOk _) key hk, cmacK2, cmacK2, cmacK1,
      cmacK1]
    change _ ≤ (dblBits (toBits (ofBits (f (toBits (List.replicate 16 0)))))).toNat ∧
      _ ≤ (dblBits (dblBits (toBits (ofBits (f (toBits (List.replicate 16 0))))))).toNat ↔ _
    rw [hz]
    exact Iff.rfl
  · rw [C191_when (tableLib_lawful keyOk π) (fun a b la lb h => toBits_inj la lb (π.injective (ofBits_inj' h))) hQ]
    change (∃ i < q, ∃ j < q, toBits (ofBits (π (toBits (ofBits 1#128)))) ^^^ toBits (ofBits (π (toBits (ofBits 2#128)))) =
      _) ↔ _
    rw [toBits_ofBits, toBits_ofBits, toBits_ofBits, toBits_ofBits]

/-- From the permutations with a property that at most one in 128 does not have to all permutations. -/
theorem share_of_all (Q F : (BitVec 128 → BitVec 128) → Prop) (q : Nat)
    (h1 : 128 * Nat.card {π : Equiv.Perm (BitVec 128) // ¬ Q π} ≤ Nat.card (Equiv.Perm (BitVec 128)))
    (h3 : (2 ^ 128 - 1) * Nat.card {π : Equiv.Perm (BitVec 128) // Q π ∧ F π} =
      (q ^ 2 - 1) * Nat.card {π : Equiv.Perm (BitVec 128) // Q π}) :
    127 * (q ^ 2 - 1) * Nat.card (Equiv.Perm (BitVec 128)) ≤
      128 * (2 ^ 128 - 1) * Nat.card {π : Equiv.Perm (BitVec 128) // F π} := by
  have h2 : cnt (fun π : Equiv.Perm Blk => Q π) + cnt (fun π : Equiv.Perm Blk => ¬ Q π) = Nat.card (Equiv.Perm Blk) := by
    classical
    rw [cnt_eq, cnt_eq, Finset.card_filter_add_card_filter_not, Finset.card_univ, Nat.card_eq_fintype_card]
  have h4 : cnt (fun π : Equiv.Perm Blk => Q π ∧ F π) ≤ cnt fun π : Equiv.Perm Blk => F π := cnt_mono fun _ h => h.2
  have h1' : 128 * cnt (fun π : Equiv.Perm Blk => ¬ Q π) ≤ Nat.card (Equiv.Perm Blk) := h1
  have h3' : (2 ^ 128 - 1) * cnt (fun π : Equiv.Perm Blk => Q π ∧ F π) =
      (q ^ 2 - 1) * cnt (fun π : Equiv.Perm Blk => Q π) := h3
  have h5 : 127 * Nat.card (Equiv.Perm Blk) ≤ 128 * cnt fun π : Equiv.Perm Blk => Q π := by omega
  have h6 := Nat.mul_le_mul_left (2 ^ 128 - 1) h4
  have h7 := Nat.mul_le_mul_left (q ^ 2 - 1) h5
  rw [h3'] at h6
  have h8 := Nat.mul_le_mul_left 128 h6
  calc 127 * (q ^ 2 - 1) * Nat.card (Equiv.Perm Blk) = (q ^ 2 - 1) * (127 * Nat.card (Equiv.Perm Blk)) := by ring
    _ ≤ (q ^ 2 - 1) * (128 * cnt fun π : Equiv.Perm Blk => Q π) := h7
    _ = 128 * ((q ^ 2 - 1) * cnt fun π : Equiv.Perm Blk => Q π) := by ring
    _ ≤ _ := h8
    _ = _ := (Nat.mul_assoc 128 _ _).symm

/-- C191: exceptions cost at most one in 128 of this share of all permutations. -/
theorem C191_share_of_all (keyOk : Bytes → Bool) (key : Bytes) (hk : keyOk key = true) (q : Nat) (hq : q ≤ 2 ^ 64) :
    127 * (q ^ 2 - 1) * Nat.card (Equiv.Perm (BitVec 128)) ≤
      128 * (2 ^ 128 - 1) * Nat.card {π : Equiv.Perm (BitVec 128) //
        Forges (aesCmac (tableLib keyOk π) (tableLib keyOk π) key) (birthday q)} := by
  have h1 : 128 * cnt (fun π : Equiv.Perm Blk => ¬ Quiet (splitLib keyOk key π fun _ s => s) key) ≤
      Nat.card (Equiv.Perm Blk) := C166_exceptions keyOk key hk (fun _ s => s) fun _ _ h => h
  have e1 : cnt (fun π : Equiv.Perm Blk => ¬ Quiet (splitLib keyOk key π fun _ s => s) key) =
      cnt fun π : Equiv.Perm Blk => ¬ Quiet (tableLib keyOk π) key := by
    refine cnt_congr fun π => not_congr ?_
    have law : LawfulCipher (splitLib keyOk key (π : Blk → Blk) fun _ s => s) := ⟨rfl, fun k b h => by
      change (if k = key then ofBits (π (toBits b)) else b).length = 16
      split
      · exact length_ofBits _
      · exact h⟩
    have e : (splitLib keyOk key (π : Blk → Blk) fun _ s => s).enc key = (tableLib keyOk (π : Blk → Blk)).enc key :=
      funext fun s => if_pos rfl
    refine (quiet_iff _ law key hk).trans (Iff.trans ?_ (quiet_iff _ (tableLib_lawful keyOk (π : Blk → Blk)) key hk).symm)
    rw [e]
  rw [e1] at h1
  exact share_of_all (fun f => Quiet (tableLib keyOk f) key)
    (fun f => Forges (aesCmac (tableLib keyOk f) (tableLib keyOk f) key) (birthday q)) q h1 (C191_share keyOk key hk q hq)
/-- With `2^33` tags this is more than one in `2^65` of all permutations. -/
example : Nat.card (Equiv.Perm (BitVec 128)) ≤ 2 ^ 65 * Nat.card {π : Equiv.Perm (BitVec 128) //
    Forges (aesCmac (tableLib (fun _ => true) π) (tableLib (fun _ => true) π) [1]) (birthday (2 ^ 32))} := by
  have h := C191_share_of_all (fun _ => true) [1] rfl (2 ^ 32) (by decide)
  omega

/-- C191: the numerator of the bound of `C166_cmac_forgery` for the `4 * q + 6` blocks of the strategy is at most 141 times
the `q^2 - 1` of `C191_share`. -/
theorem C191_bound (q : Nat) (hq : 2 ≤ q) :
    3 * ((4 * q + 6 + 1).choose 2 + 1) + (4 * q + 6 + 1).choose 2 ≤ 141 * (q ^ 2 - 1) := by
  have h : (4 * q + 6 + 1).choose 2 = (4 * q + 7) * (2 * q + 3) := by
    rw [Nat.choose_two_right, show (4 * q + 6 + 1) * (4 * q + 6 + 1 - 1) = 2 * ((4 * q + 7) * (2 * q + 3)) by
      rw [Nat.add_sub_cancel]; ring]
    omega
  obtain ⟨k, rfl⟩ := Nat.exists_eq_add_of_le hq
  rw [h, show (2 + k) ^ 2 - 1 = k ^ 2 + 4 * k + 3 by rw [show (2 + k) ^ 2 = k ^ 2 + 4 * k + 3 + 1 by ring]; omega]
  nlinarith

end Cryptopy
