import Verif.Model.ChaChaBox
import Verif.Spec.Chance
import Verif.Lemmas.SivPriv
import Verif.Lemmas.Hmac
import Verif.Props.PolyOnce

/-!
The AEAD of `chacha_poly.py` over all functions in place of the block function of ChaCha20.
-/

namespace Cryptopy.Cpoly
open Model (ChaCha Aead poly1305Mac macData)
open Spec (Str leValue xorBytes)
open Prf (cnt cnt_split cnt_mono cnt_congr cnt_exists cnt_true)

/-- The places of a table: a counter and a nonce. -/
abbrev Place : Type := BitVec 32 × BitVec 96

/-- Tables of blocks. -/
abbrev Table : Type := Place → Str 64

instance (n : ℕ) : Finite (BitVec n) :=
  Finite.of_injective (fun b => b.toFin) fun _ _ h => BitVec.eq_of_toFin_eq h

noncomputable instance : Fintype Table := Fintype.ofFinite _

/-- The counter and the nonce of an object. -/
def place (o : ChaCha) : Place :=
  (BitVec.ofNat 32 (o.state.getD 12 0),
    BitVec.ofNat 96 (o.state.getD 13 0 + 2 ^ 32 * o.state.getD 14 0 + 2 ^ 64 * o.state.getD 15 0))

/-- A table in place of `chacha20_block`. -/
def look (f : Table) (o : ChaCha) : Bytes := (f (place o)).1

/-- The number of a nonce. -/
def nonceBits (n : Bytes) : BitVec 96 := BitVec.ofNat 96 (leValue n)

theorem place_init (key nonce : Bytes) (c : ℕ) (hk : key.length = 32) (hn : nonce.length = 12) :
    place (initNat key c nonce) = (BitVec.ofNat 32 c, nonceBits nonce) := by
  have h8 := length_unpackLE32 key 8 (by omega)
  match nonce, hn with
  | [a0, a1, a2, a3, b0, b1, b2, b3, c0, c1, c2, c3], _ =>
    have e : (initNat key c [a0, a1, a2, a3, b0, b1, b2, b3, c0, c1, c2, c3]).state =
        ([0x61707865, 0x3320646e, 0x79622d32, 0x6b206574] ++ Model.unpackLE32 key) ++
          (c :: Model.unpackLE32 [a0, a1, a2, a3, b0, b1, b2, b3, c0, c1, c2, c3]) := by
      simp only [initNat, List.append_assoc, List.cons_append, List.nil_append]
    have hl : ([0x61707865, 0x3320646e, 0x79622d32, 0x6b206574] ++ Model.unpackLE32 key).length = 12 := by
      simp [h8]
    have g : ∀ (l r : List ℕ) (i : ℕ), l.length = 12 → (l ++ r).getD (12 + i) 0 = r.getD i 0 := by
      intro l r i h
      rw [List.getD_eq_getElem?_getD, List.getElem?_append_right (by omega), h,
        Nat.add_sub_cancel_left, ← List.getD_eq_getElem?_getD]
    rw [place, e]
    rw [g _ _ 0 hl, g _ _ 1 hl, g _ _ 2 hl, g _ _ 3 hl]
    simp only [Model.unpackLE32, List.getD_cons_zero, List.getD_cons_succ, nonceBits, leValue]
    rw [Prod.mk.injEq]
    refine ⟨rfl, congrArg (BitVec.ofNat 96) ?_⟩
    omega

theorem nonceBits_inj (a b : Bytes) (ha : a.length = 12) (hb : b.length = 12) (h : nonceBits a = nonceBits b) :
    a = b := by
  have := congrArg BitVec.toNat h
  simp only [nonceBits, BitVec.toNat_ofNat] at this
  have la := leValue_lt a
  have lb := leValue_lt b
  rw [ha, show 256 ^ 12 = 2 ^ 96 by norm_num] at la
  rw [hb, show 256 ^ 12 = 2 ^ 96 by norm_num] at lb
  rw [Nat.mod_eq_of_lt la, Nat.mod_eq_of_lt lb] at this
  rw [← leBytes_leValue a, ← leBytes_leValue b, ha, hb, this]

/-- `n` blocks of key stream, from counter 1. -/
def keystream (f : Table) (ν : BitVec 96) (n : ℕ) : Bytes :=
  (List.range n).flatMap fun j => (f (BitVec.ofNat 32 (1 + j), ν)).1

theorem length_keystream (f : Table) (ν : BitVec 96) (n : ℕ) : (keystream f ν n).length = 64 * n := by
  rw [keystream, length_flatMap_const _ _ 64 fun j => (f _).2, List.length_range]

theorem loop_eq (f : Table) (key nonce pt : Bytes) (hk : key.length = 32) (hn : nonce.length = 12)
    (k j c : ℕ) (out : Bytes) :
    ChaCha.encryptLoopWith (look f) pt j k (initNat key c nonce) out =
      (initNat key (c + k) nonce, out ++ xorBytes (pt.drop (j * 64))
        ((List.range k).flatMap fun i => (f (BitVec.ofNat 32 (c + i), nonceBits nonce)).1)) := by
  induction k generalizing j c out with
  | zero => simp [ChaCha.encryptLoopWith, xorBytes]
  | succ k ih =>
    rw [ChaCha.encryptLoopWith]
    rw [initNat_bump _ _ _ hk, ih, List.range_succ_eq_map, List.flatMap_cons, List.flatMap_map,
      xorBytes_append_right, look, place_init _ _ _ hk hn, (f _).2, List.drop_drop, ← List.append_assoc]
    have e1 : c + 1 + k = c + (k + 1) := by omega
    have e2 : (j + 1) * 64 = j * 64 + 64 := by omega
    have e3 : ∀ i, c + 1 + i = c + i.succ := fun i => by omega
    simp only [e1, e2, e3, Nat.add_zero]
    rfl

/-- The number of blocks of a text. -/
def blocks (pt : Bytes) : ℕ := (pt.length + 63) / 64

/-- The ciphertext. -/
def cipher (f : Table) (ν : BitVec 96) (pt : Bytes) : Bytes := xorBytes pt (keystream f ν (blocks pt))

theorem length_cipher (f : Table) (ν : BitVec 96) (pt : Bytes) : (cipher f ν pt).length = pt.length := by
  rw [cipher, length_xorBytes, length_keystream, blocks]
  omega

/-- The one-time key. -/
def otk (f : Table) (ν : BitVec 96) : Bytes := (f (0, ν)).1.take 32

theorem length_otk (f : Table) (ν : BitVec 96) : (otk f ν).length = 32 := by
  rw [otk, List.length_take, (f _).2]
  rfl

theorem new_eq (rand key nonce : Bytes) (c : ℕ) (hk : key.length = 32) (hn : nonce.length = 12) :
    ChaCha.new rand key c (some nonce) = .ok (initNat key c nonce) := by
  have h0 : nonce ≠ [] := by rintro rfl; simp at hn
  rw [ChaCha.new]
  simp only [if_neg h0]
  exact initialize_eq key nonce c hk hn

theorem encryptWith_eq (f : Table) (r1 r2 : Bytes) (o : Aead) (aad iv pt : Bytes) (hk : o.key.length = 32)
    (hn : (o.constant ++ iv).length = 12) :
    o.encryptWith (look f) r1 r2 aad iv pt =
      match poly1305Mac (macData aad (cipher f (nonceBits (o.constant ++ iv)) pt)) (otk f (nonceBits (o.constant ++ iv))) with
      | .error e => .error e
      | .ok tag => .ok (cipher f (nonceBits (o.constant ++ iv)) pt, tag) := by
  have hb : (if pt.length % 64 > 0 then pt.length / 64 + 1 else pt.length / 64) =
      (pt.length + 63) / 64 := by split <;> omega
  rw [Aead.encryptWith]
  simp only [Model.poly1305KeyGenWith, new_eq _ _ _ _ hk hn, ChaCha.encryptWith, hb, loop_eq f _ _ _ hk hn,
    look, place_init _ _ _ hk hn]
  simp only [Nat.zero_mul, List.drop_zero, List.nil_append]
  rfl

theorem mac_ok (m k : Bytes) (hk : k.length = 32) : ∃ t, t.length = 16 ∧ poly1305Mac m k = .ok t := by
  refine ⟨_, ?_, poly1305Mac_eq m k (by omega)⟩
  simp

theorem encryptWith_ok (f : Table) (r1 r2 : Bytes) (o : Aead) (aad iv pt ct tag : Bytes) (hk : o.key.length = 32)
    (hn : (o.constant ++ iv).length = 12) :
    o.encryptWith (look f) r1 r2 aad iv pt = .ok (ct, tag) ↔
      cipher f (nonceBits (o.constant ++ iv)) pt = ct ∧
        poly1305Mac (macData aad ct) (otk f (nonceBits (o.constant ++ iv))) = .ok tag := by
  obtain ⟨t, -, ht⟩ := mac_ok (macData aad (cipher f (nonceBits (o.constant ++ iv)) pt)) _ (length_otk f (nonceBits (o.constant ++ iv)))
  rw [encryptWith_eq f r1 r2 o aad iv pt hk hn, ht]
  simp only [Except.ok.injEq, Prod.mk.injEq]
  constructor
  · rintro ⟨rfl, rfl⟩
    exact ⟨rfl, ht⟩
  · rintro ⟨rfl, h⟩
    exact ⟨rfl, Except.ok.inj (ht.symm.trans h)⟩

/-! ### All answers are equally frequent -/

/-- Block `j` of a string followed by zeros. -/
def chunk (d : Bytes) (j : ℕ) : Str 64 := ⟨(List.range 64).map fun i => d.getD (64 * j + i) 0, by simp⟩

theorem chunks (d : Bytes) (n : ℕ) : ((List.range n).flatMap fun j => (chunk d j).1) =
    (List.range (64 * n)).map fun i => d.getD i 0 := by
  induction n with
  | zero => rfl
  | succ n ih =>
    rw [List.range_succ, List.flatMap_append, ih, Nat.mul_add, Nat.mul_one, List.range_add, List.map_append,
      List.flatMap_singleton, List.map_map]
    rfl

theorem chunks_eq (d : Bytes) (n : ℕ) (h : d.length ≤ 64 * n) :
    ∃ z, ((List.range n).flatMap fun j => (chunk d j).1) = d ++ z := by
  refine ⟨(((List.range n).flatMap fun j => (chunk d j).1)).drop d.length, ?_⟩
  conv_lhs => rw [← List.take_append_drop d.length ((List.range n).flatMap fun j => (chunk d j).1)]
  congr 1
  rw [chunks]
  refine List.ext_getElem (by simp [h]) fun i h1 h2 => ?_
  simp only [List.getElem_take, List.getElem_map, List.getElem_range]
  rw [List.getD_eq_getElem?_getD, List.getElem?_eq_getElem h2]
  rfl

theorem flat_xor (n : ℕ) (a b : ℕ → Str 64) :
    ((List.range n).flatMap fun j => xorBytes (a j).1 (b j).1) =
      xorBytes ((List.range n).flatMap fun j => (a j).1) ((List.range n).flatMap fun j => (b j).1) := by
  induction n with
  | zero => rfl
  | succ n ih =>
    rw [List.range_succ, List.flatMap_append, List.flatMap_append, List.flatMap_append, ih,
      Prf.xorBytes_append (by
        rw [length_flatMap_const _ _ 64 fun j => (a j).2, length_flatMap_const _ _ 64 fun j => (b j).2])]
    simp

/-- The sum of two blocks. -/
def xorBlock (a b : Str 64) : Str 64 := ⟨xorBytes a.1 b.1, by rw [length_xorBytes, a.2, b.2]; rfl⟩

theorem xorBlock_inj (a b d : Str 64) (h : xorBlock a d = xorBlock b d) : a = b := by
  have e : ∀ a : Str 64, xorBytes (xorBytes a.1 d.1) d.1 = a.1 := fun a =>
    xorBytes_self_right _ _ (by rw [a.2, d.2])
  have := congrArg (fun x => xorBytes x.1 d.1) h
  simp only [xorBlock, e] at this
  exact Subtype.ext this

/-- The second half of the one-time key that gives the tag. -/
noncomputable def half (m r : Bytes) (t : Str 16) (hr : r.length = 16) : Bytes :=
  (C139_second_half m r t.1 hr t.2).choose

theorem half_spec (m r : Bytes) (t : Str 16) (hr : r.length = 16) :
    (half m r t hr).length = 16 ∧ poly1305Mac m (r ++ half m r t hr) = .ok t.1 :=
  (C139_second_half m r t.1 hr t.2).choose_spec.1

/-- The block with another second half of the one-time key. -/
noncomputable def fix (m : Bytes) (t : Str 16) (b : Str 64) : Str 64 :=
  ⟨b.1.take 16 ++ half m (b.1.take 16) t (by simp [b.2]) ++ b.1.drop 32, by
    have h := (half_spec m (b.1.take 16) t (by simp [b.2])).1
    simp [h, b.2]⟩

theorem fix_take (m : Bytes) (t : Str 16) (b : Str 64) : poly1305Mac m ((fix m t b).1.take 32) = .ok t.1 := by
  have h := half_spec m (b.1.take 16) t (by simp [b.2])
  rw [fix, List.take_append_of_le_length (by simp [h.1, b.2]), List.take_of_length_le (by simp [h.1])]
  exact h.2

theorem fix_inj (m m' : Bytes) (t t' : Str 16) (a b : Str 64) (ha : poly1305Mac m (a.1.take 32) = .ok t.1)
    (hb : poly1305Mac m (b.1.take 32) = .ok t.1) (h : fix m' t' a = fix m' t' b) : a = b := by
  have e : ∀ x : Str 64, (fix m' t' x).1.take 16 = x.1.take 16 ∧ (fix m' t' x).1.drop 32 = x.1.drop 32 := by
    intro x
    have hs := (half_spec m' (x.1.take 16) t' (by simp [x.2])).1
    constructor
    · change (x.1.take 16 ++ half m' (x.1.take 16) t' (by simp [x.2]) ++ x.1.drop 32).take 16 = _
      rw [List.append_assoc, List.take_left' (by simp [x.2])]
    · rw [fix, List.drop_left' (by simp [hs, x.2])]
  have h1 : a.1.take 16 = b.1.take 16 := by rw [← (e a).1, ← (e b).1, h]
  have h2 : a.1.drop 32 = b.1.drop 32 := by rw [← (e a).2, ← (e b).2, h]
  have c : ∀ x : Str 64, x.1.take 32 = x.1.take 16 ++ (x.1.drop 16).take 16 := fun x =>
    List.take_add (i := 16) (j := 16)
  have l : ∀ x : Str 64, ((x.1.drop 16).take 16).length = 16 := fun x => by simp [x.2]
  rw [c] at ha hb
  rw [← h1] at hb
  have h3 := (C139_second_half m (a.1.take 16) t.1 (by simp [a.2]) t.2).unique ⟨l a, ha⟩ ⟨l b, hb⟩
  refine Subtype.ext ?_
  rw [← List.take_append_drop 32 a.1, ← List.take_append_drop 32 b.1, c, c, h1, h2, h3]

/-- The property does not depend on the blocks of the nonce. -/
def Off (ν : BitVec 96) (A : Table → Prop) : Prop := ∀ f g : Table, (∀ x, x.2 ≠ ν → f x = g x) → A f → A g

/-- What an answer says about the table. -/
def Says (ν : BitVec 96) (aad pt ct tag : Bytes) (f : Table) : Prop :=
  cipher f ν pt = ct ∧ poly1305Mac (macData aad ct) (otk f ν) = .ok tag

/-- The table with the blocks of a nonce changed so that another answer is given. -/
noncomputable def move (ν : BitVec 96) (aad ct ct' : Bytes) (tag' : Str 16) (f : Table) : Table := fun x =>
  if x.2 = ν then
    if x.1 = 0 then fix (macData aad ct') tag' (f x) else xorBlock (f x) (chunk (xorBytes ct ct') (x.1.toNat - 1))
  else f x

theorem ne_zero (j n : ℕ) (h : j < n) (hn : 1 + n ≤ 2 ^ 32) :
    BitVec.ofNat 32 (1 + j) ≠ 0 ∧ (BitVec.ofNat 32 (1 + j)).toNat - 1 = j := by
  have e : (BitVec.ofNat 32 (1 + j)).toNat = 1 + j := by rw [BitVec.toNat_ofNat, Nat.mod_eq_of_lt (by omega)]
  refine ⟨fun h0 => ?_, by omega⟩
  rw [h0] at e
  simp at e
  omega

theorem move_says (ν : BitVec 96) (aad pt : Bytes) (ct ct' : Str pt.length) (tag tag' : Str 16)
    (hpt : 1 + blocks pt ≤ 2 ^ 32) (f : Table) (h : Says ν aad pt ct.1 tag.1 f) :
    Says ν aad pt ct'.1 tag'.1 (move ν aad ct.1 ct'.1 tag' f) := by
  constructor
  · have e : keystream (move ν aad ct.1 ct'.1 tag' f) ν (blocks pt) =
        xorBytes (keystream f ν (blocks pt)) ((List.range (blocks pt)).flatMap fun j => (chunk (xorBytes ct.1 ct'.1) j).1) := by
      rw [keystream, keystream, ← flat_xor]
      refine List.flatMap_congr fun j hj => ?_
      have := ne_zero j (blocks pt) (List.mem_range.mp hj) hpt
      rw [move, if_pos rfl, if_neg this.1, this.2]
      rfl
    obtain ⟨z, hz⟩ := chunks_eq (xorBytes ct.1 ct'.1) (blocks pt) (by
      rw [length_xorBytes, ct.2, ct'.2, blocks]; omega)
    rw [cipher, e, hz, ← Prf.xorBytes_assoc]
    change xorBytes (cipher f ν pt) _ = _
    rw [h.1]
    have h4 : ∀ a b c : Bytes, a.length = b.length → xorBytes a (b ++ c) = xorBytes a b := fun a b c h => by
      have := Prf.xorBytes_append (b := []) (d := c) h
      simpa [xorBytes] using this
    rw [h4 _ _ _ (by rw [length_xorBytes, ct.2, ct'.2]; omega), ← Prf.xorBytes_assoc]
    have h3 : ∀ a b : Bytes, a.length = b.length → xorBytes (xorBytes a a) b = b := by
      intro a b hab
      induction a generalizing b with
      | nil =>
        rw [List.length_eq_zero_iff.mp hab.symm]
        rfl
      | cons x a ih =>
        cases b with
        | nil => simp at hab
        | cons z b =>
          have := ih b (by simpa using hab)
          simp only [xorBytes, List.zipWith_cons_cons] at this ⊢
          rw [this]
          simp
    exact h3 _ _ (by rw [ct.2, ct'.2])
  · rw [otk, move, if_pos rfl, if_pos rfl]
    exact fix_take _ _ _

theorem move_inj (ν : BitVec 96) (aad ct ct' : Bytes) (tag tag' : Str 16) (f g : Table)
    (hf : poly1305Mac (macData aad ct) (otk f ν) = .ok tag.1) (hg : poly1305Mac (macData aad ct) (otk g ν) = .ok tag.1)
    (h : move ν aad ct ct' tag' f = move ν aad ct ct' tag' g) : f = g := by
  funext x
  have hx := congrFun h x
  rw [move, move] at hx
  by_cases hν : x.2 = ν
  · rw [if_pos hν, if_pos hν] at hx
    by_cases h0 : x.1 = 0
    · rw [if_pos h0, if_pos h0] at hx
      have hx' : x = (0, ν) := Prod.ext h0 hν
      subst hx'
      exact fix_inj _ _ _ _ _ _ hf hg hx
    · rw [if_neg h0, if_neg h0] at hx
      exact xorBlock_inj _ _ _ hx
  · rwa [if_neg hν, if_neg hν] at hx

theorem says_le (ν : BitVec 96) (A : Table → Prop) (hA : Off ν A) (aad pt : Bytes) (hpt : 1 + blocks pt ≤ 2 ^ 32)
    (t t' : Str pt.length × Str 16) :
    cnt (fun f => A f ∧ Says ν aad pt t.1.1 t.2.1 f) ≤ cnt (fun f => A f ∧ Says ν aad pt t'.1.1 t'.2.1 f) := by
  rw [cnt, cnt]
  refine Nat.card_le_card_of_injective (fun f => ⟨move ν aad t.1.1 t'.1.1 t'.2 f.1, ?_, ?_⟩) ?_
  · refine hA f.1 _ (fun x hx => ?_) f.2.1
    rw [move, if_neg hx]
  · exact move_says ν aad pt t.1 t'.1 t.2 t'.2 hpt f.1 f.2.2
  · rintro ⟨f, hf⟩ ⟨g, hg⟩ h
    exact Subtype.ext (move_inj ν aad _ _ t.2 _ f g hf.2.2 hg.2.2 (Subtype.mk.inj h))

theorem says_exists (ν : BitVec 96) (aad pt : Bytes) (f : Table) :
    ∃ t : Str pt.length × Str 16, Says ν aad pt t.1.1 t.2.1 f := by
  obtain ⟨t, ht, e⟩ := mac_ok (macData aad (cipher f ν pt)) _ (length_otk f ν)
  exact ⟨(⟨_, length_cipher f ν pt⟩, ⟨t, ht⟩), rfl, e⟩

theorem says_unique (ν : BitVec 96) (aad pt : Bytes) (f : Table) (t t' : Str pt.length × Str 16)
    (h : Says ν aad pt t.1.1 t.2.1 f) (h' : Says ν aad pt t'.1.1 t'.2.1 f) : t = t' := by
  have e : t.1 = t'.1 := Subtype.ext (h.1.symm.trans h'.1)
  have e2 := h.2
  rw [e] at e2
  exact Prod.ext e (Subtype.ext (Except.ok.inj (e2.symm.trans h'.2)))

/-- Splitting by the answer. -/
theorem cnt_says (ν : BitVec 96) (P : Table → Prop) (aad pt : Bytes) :
    cnt P = ∑ t : Str pt.length × Str 16, cnt fun f => P f ∧ Says ν aad pt t.1.1 t.2.1 f := by
  rw [cnt_split P fun f => (says_exists ν aad pt f).choose]
  refine Finset.sum_congr rfl fun t _ => cnt_congr fun f => and_congr_right fun _ => ?_
  have h := (says_exists ν aad pt f).choose_spec
  exact ⟨fun e => e ▸ h, fun h' => says_unique ν aad pt f _ _ h h'⟩

/-- Every answer is equally frequent, whatever is known about the blocks of other nonces. -/
theorem says_card (ν : BitVec 96) (A : Table → Prop) (hA : Off ν A) (aad pt : Bytes) (hpt : 1 + blocks pt ≤ 2 ^ 32)
    (t : Str pt.length × Str 16) :
    Fintype.card (Str pt.length × Str 16) * cnt (fun f => A f ∧ Says ν aad pt t.1.1 t.2.1 f) = cnt A := by
  rw [cnt_says ν A aad pt, Finset.sum_congr rfl fun t' _ => le_antisymm (says_le ν A hA aad pt hpt t' t)
    (says_le ν A hA aad pt hpt t t'), Finset.sum_const, Finset.card_univ, smul_eq_mul]

end Cryptopy.Cpoly
