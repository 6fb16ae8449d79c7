import Verif.Model.ChaCha
import Verif.Spec.ChaCha
import Verif.Lemmas.Encoding

/-!
Lemmas that relate the integer model of ChaCha20 to machine words.
-/

namespace Cryptopy
open Model Spec

theorem mask32 (n : Nat) : n &&& 0xFFFFFFFF = n % 2 ^ 32 := by
  have := Nat.and_two_pow_sub_one_eq_mod n 32
  simpa using this

theorem rot_eq (d : Word) (k : Nat) (hk : k < 32) :
    ((d.toNat <<< k) &&& 0xFFFFFFFF) ||| (d.toNat >>> (32 - k)) = (d.rotateLeft k).toNat := by
  rw [mask32, BitVec.toNat_rotateLeft, Nat.mod_eq_of_lt hk]

theorem add_eq (a b : Word) : (a.toNat + b.toNat) &&& 0xFFFFFFFF = (a + b).toNat := by
  rw [mask32, BitVec.toNat_add]

theorem qRound_eq (a b c d : Word) :
    chachaQRound a.toNat b.toNat c.toNat d.toNat =
      ((quarter a b c d).1.toNat, (quarter a b c d).2.1.toNat, (quarter a b c d).2.2.1.toNat,
        (quarter a b c d).2.2.2.toNat) := by
  simp only [chachaQRound, quarter]
  simp only [add_eq, ← BitVec.toNat_xor]
  have h16 : ∀ d : Word, ((d.toNat <<< 16) &&& 0xFFFFFFFF) ||| (d.toNat >>> 16) =
      (d.rotateLeft 16).toNat := fun d => rot_eq d 16 (by omega)
  have h12 : ∀ d : Word, ((d.toNat <<< 12) &&& 0xFFFFFFFF) ||| (d.toNat >>> 20) =
      (d.rotateLeft 12).toNat := fun d => rot_eq d 12 (by omega)
  have h8 : ∀ d : Word, ((d.toNat <<< 8) &&& 0xFFFFFFFF) ||| (d.toNat >>> 24) =
      (d.rotateLeft 8).toNat := fun d => rot_eq d 8 (by omega)
  have h7 : ∀ d : Word, ((d.toNat <<< 7) &&& 0xFFFFFFFF) ||| (d.toNat >>> 25) =
      (d.rotateLeft 7).toNat := fun d => rot_eq d 7 (by omega)
  simp only [h16, add_eq, ← BitVec.toNat_xor, h12, h8, h7]

/-- The list of natural numbers that represents a state of machine words. -/
def natState (s : State) : List Nat := List.ofFn fun i => (s i).toNat

@[simp] theorem length_natState (s : State) : (natState s).length = 16 := by simp [natState]

theorem natState_getD (s : State) (i : Fin 16) : (natState s).getD i 0 = (s i).toNat := by
  rw [List.getD_eq_getElem?_getD, List.getElem?_eq_getElem (by simp)]
  simp only [natState, List.getElem_ofFn, Option.getD_some]

theorem quarterRound_eq (s : State) (x y z w : Fin 16) (h : x ≠ y ∧ x ≠ z ∧ x ≠ w ∧ y ≠ z ∧ y ≠ w ∧ z ≠ w) :
    quarterRound (natState s) x y z w = natState (quarterAt x y z w s) := by
  obtain ⟨h1, h2, h3, h4, h5, h6⟩ := h
  rw [quarterRound]
  simp only [natState_getD, qRound_eq]
  apply List.ext_getElem
  · simp
  · intro i hi hi'
    have hi16 : i < 16 := by simpa using hi'
    simp only [List.getElem_set, natState, List.getElem_ofFn, quarterAt, Fin.ext_iff]
    have e : ∀ v : Fin 16, ((v : Nat) = i) = (i = (v : Nat)) := fun v => propext eq_comm
    simp only [e]
    have n1 : (x : Nat) ≠ y := fun h => h1 (Fin.ext h)
    have n2 : (x : Nat) ≠ z := fun h => h2 (Fin.ext h)
    have n3 : (x : Nat) ≠ w := fun h => h3 (Fin.ext h)
    have n4 : (y : Nat) ≠ z := fun h => h4 (Fin.ext h)
    have n5 : (y : Nat) ≠ w := fun h => h5 (Fin.ext h)
    have n6 : (z : Nat) ≠ w := fun h => h6 (Fin.ext h)
    by_cases hw : i = w
    · have a1 : i ≠ x := by omega
      have a2 : i ≠ y := by omega
      have a3 : i ≠ z := by omega
      simp only [if_pos hw, if_neg a1, if_neg a2, if_neg a3]
    · by_cases hz : i = z
      · have a1 : i ≠ x := by omega
        have a2 : i ≠ y := by omega
        simp only [if_pos hz, if_neg a1, if_neg a2, if_neg hw]
      · by_cases hy : i = y
        · have a1 : i ≠ x := by omega
          simp only [if_pos hy, if_neg a1, if_neg hz, if_neg hw]
        · by_cases hx : i = x
          · simp only [if_pos hx, if_neg hy, if_neg hz, if_neg hw]
          · simp only [if_neg hx, if_neg hy, if_neg hz, if_neg hw]

theorem innerBlock_eq (s : State) : innerBlock (natState s) = natState (doubleRound s) := by
  have q := fun s x y z w h => quarterRound_eq s x y z w h
  simp only [innerBlock, doubleRound, Function.comp]
  rw [show quarterRound (natState s) 0 4 8 12 = _ from q s 0 4 8 12 (by decide)]
  rw [show quarterRound (natState _) 1 5 9 13 = _ from q _ 1 5 9 13 (by decide)]
  rw [show quarterRound (natState _) 2 6 10 14 = _ from q _ 2 6 10 14 (by decide)]
  rw [show quarterRound (natState _) 3 7 11 15 = _ from q _ 3 7 11 15 (by decide)]
  rw [show quarterRound (natState _) 0 5 10 15 = _ from q _ 0 5 10 15 (by decide)]
  rw [show quarterRound (natState _) 1 6 11 12 = _ from q _ 1 6 11 12 (by decide)]
  rw [show quarterRound (natState _) 2 7 8 13 = _ from q _ 2 7 8 13 (by decide)]
  rw [show quarterRound (natState _) 3 4 9 14 = _ from q _ 3 4 9 14 (by decide)]

theorem innerLoop_eq (k : Nat) (s : State) :
    innerLoop k (natState s) = natState (doubleRound^[k] s) := by
  induction k generalizing s with
  | zero => rfl
  | succ k ih => rw [innerLoop, innerBlock_eq, ih, Function.iterate_succ_apply]

theorem packLE32_eq (w : Nat) : packLE32 w = leBytes 4 w := by
  simp only [packLE32, leBytes, Nat.div_div_eq_div_mul]

theorem block_natState (s : State) :
    (ChaCha.mk (natState s)).block = serialize fun i => s i + doubleRound^[10] s i := by
  simp only [ChaCha.block, serialize, innerLoop_eq]
  congr 1
  apply List.ext_getElem
  · simp
  · intro i h1 h2
    simp only [List.getElem_map, List.getElem_zipWith, natState, List.getElem_ofFn, packLE32_eq]
    rw [add_eq]

theorem leValue_lt (s : Bytes) : leValue s < 256 ^ s.length := by
  induction s with
  | nil => simp [leValue]
  | cons c s ih =>
    have := c.toNat_lt
    simp only [leValue, List.length_cons, pow_succ]
    omega

theorem unpackLE32_eq (s : Bytes) (n : Nat) (h : s.length = 4 * n) :
    unpackLE32 s = List.ofFn fun i : Fin n => (leWord s i).toNat := by
  induction n generalizing s with
  | zero =>
    have : s = [] := List.length_eq_zero_iff.mp (by omega)
    subst this; simp [unpackLE32]
  | succ n ih =>
    match s, h with
    | a :: b :: c :: d :: rest, h =>
      rw [unpackLE32, ih rest (by simp at h; omega), List.ofFn_succ]
      congr 1
      · simp only [leWord, Fin.val_zero, Nat.mul_zero, List.drop_zero, List.take_succ_cons,
          List.take_zero, leValue, BitVec.toNat_ofNat]
        have := a.toNat_lt
        have := b.toNat_lt
        have := c.toNat_lt
        have := d.toNat_lt
        rw [Nat.mod_eq_of_lt (by omega)]
        omega

theorem init_eq (key nonce : Bytes) (c : Word) (hk : key.length = 32) (hn : nonce.length = 12) :
    ChaCha.initialize key c.toNat nonce = .ok ⟨natState (initState key c nonce)⟩ := by
  rw [ChaCha.initialize, if_pos hk, if_pos hn]
  congr 2
  rw [unpackLE32_eq key 8 (by omega), unpackLE32_eq nonce 3 (by omega)]
  have e0 : leWord sigma 0 = 0x61707865#32 := by decide
  have e1 : leWord sigma 1 = 0x3320646e#32 := by decide
  have e2 : leWord sigma 2 = 0x79622d32#32 := by decide
  have e3 : leWord sigma 3 = 0x6b206574#32 := by decide
  simp only [natState, initState, List.ofFn_succ, List.ofFn_zero, List.cons_append, List.nil_append]
  simp [Fin.succ, Fin.lt_def, Fin.ext_iff, e0, e1, e2, e3]

/-- The state that `initialize` builds, for any counter. -/
def initNat (key : Bytes) (counter : Nat) (nonce : Bytes) : ChaCha :=
  ⟨[0x61707865, 0x3320646e, 0x79622d32, 0x6b206574] ++ unpackLE32 key ++ [counter] ++
        unpackLE32 nonce⟩

theorem initialize_eq (key nonce : Bytes) (c : Nat) (hk : key.length = 32) (hn : nonce.length = 12) :
    ChaCha.initialize key c nonce = .ok (initNat key c nonce) := by
  rw [ChaCha.initialize, if_pos hk, if_pos hn]; rfl

theorem initNat_state (key nonce : Bytes) (c : Nat) (hk : key.length = 32)
    (hn : nonce.length = 12) (hc : c < 2 ^ 32) :
    initNat key c nonce = ⟨natState (initState key (BitVec.ofNat 32 c) nonce)⟩ := by
  have h := init_eq key nonce (BitVec.ofNat 32 c) hk hn
  rw [BitVec.toNat_ofNat, Nat.mod_eq_of_lt hc, initialize_eq key nonce c hk hn] at h
  exact Except.ok.inj h

theorem initNat_block (key nonce : Bytes) (c : Nat) (hk : key.length = 32)
    (hn : nonce.length = 12) (hc : c < 2 ^ 32) :
    (initNat key c nonce).block = chachaBlock key (BitVec.ofNat 32 c) nonce := by
  rw [initNat_state key nonce c hk hn hc, block_natState]; rfl

theorem length_unpackLE32 (s : Bytes) (n : Nat) (h : s.length = 4 * n) :
    (unpackLE32 s).length = n := by
  rw [unpackLE32_eq s n h]; simp

theorem initNat_getD (key nonce : Bytes) (c : Nat) (hk : key.length = 32) :
    (initNat key c nonce).state.getD 12 0 = c := by
  have h8 := length_unpackLE32 key 8 (by omega)
  simp only [initNat]
  rw [List.getD_eq_getElem?_getD, List.append_assoc, List.getElem?_append_right (by simp; omega)]
  simp [h8]

theorem initNat_bump (key nonce : Bytes) (c : Nat) (hk : key.length = 32) :
    (initNat key c nonce).bump = initNat key (c + 1) nonce := by
  rw [ChaCha.bump, initNat_getD key nonce c hk]
  have h8 := length_unpackLE32 key 8 (by omega)
  simp only [initNat, ChaCha.mk.injEq]
  rw [List.append_assoc, List.set_append_right _ _ (by simp; omega)]
  simp [h8]

@[simp] theorem length_leBytes (k n : Nat) : (leBytes k n).length = k := by
  induction k generalizing n with
  | zero => rfl
  | succ k ih => simp [leBytes, ih]

theorem length_packed (l : List Nat) : ((l.map packLE32).flatten).length = 4 * l.length := by
  induction l with
  | nil => rfl
  | cons a l ih =>
    rw [List.map_cons, List.flatten_cons, List.length_append, ih, packLE32_eq, length_leBytes,
      List.length_cons]
    omega

theorem length_innerLoop (k : Nat) (s : List Nat) : (innerLoop k s).length = s.length := by
  induction k generalizing s with
  | zero => rfl
  | succ k ih => rw [innerLoop, ih]; simp [innerBlock, quarterRound]

theorem length_block (o : ChaCha) (h : o.state.length = 16) : o.block.length = 64 := by
  rw [ChaCha.block, length_packed]
  simp [length_innerLoop, h]

theorem length_initNat (key nonce : Bytes) (c : Nat) (hk : key.length = 32)
    (hn : nonce.length = 12) : (initNat key c nonce).state.length = 16 := by
  have h8 := length_unpackLE32 key 8 (by omega)
  have h3 := length_unpackLE32 nonce 3 (by omega)
  simp [initNat, h8, h3]

theorem length_chachaBlock (key nonce : Bytes) (c : Word) : (chachaBlock key c nonce).length = 64 := by
  unfold chachaBlock
  simp only
  rw [← block_natState, length_block _ (by simp)]

/-! ### Encryption -/

/-- Key stream blocks of the model from counter `c`. -/
def modelStream (key : Bytes) (c : Nat) (nonce : Bytes) (n : Nat) : Bytes :=
  (List.range' c n).flatMap fun i => (initNat key i nonce).block

theorem length_modelStream (key nonce : Bytes) (c n : Nat) (hk : key.length = 32)
    (hn : nonce.length = 12) : (modelStream key c nonce n).length = 64 * n := by
  induction n generalizing c with
  | zero => rfl
  | succ n ih =>
    have := ih (c + 1)
    simp only [modelStream] at this
    rw [modelStream, List.range'_succ, List.flatMap_cons, List.length_append, this,
      length_block _ (length_initNat key nonce c hk hn)]
    omega

theorem xorBytes_append_right (a s t : Bytes) :
    xorBytes a (s ++ t) = xorBytes a s ++ xorBytes (a.drop s.length) t := by
  induction s generalizing a with
  | nil => simp [xorBytes]
  | cons c s ih =>
    cases a with
    | nil => simp [xorBytes]
    | cons d a =>
      have := ih a
      simp only [xorBytes, List.cons_append, List.zipWith_cons_cons, List.length_cons,
        List.drop_succ_cons] at this ⊢
      rw [this]

theorem encryptLoop_eq (key nonce pt : Bytes) (hk : key.length = 32) (hn : nonce.length = 12)
    (k j c : Nat) (out : Bytes) :
    ChaCha.encryptLoop pt j k (initNat key c nonce) out =
      (initNat key (c + k) nonce, out ++ xorBytes (pt.drop (j * 64)) (modelStream key c nonce k)) := by
  induction k generalizing j c out with
  | zero => simp [ChaCha.encryptLoop, modelStream, xorBytes]
  | succ k ih =>
    rw [ChaCha.encryptLoop]
    rw [initNat_bump _ _ _ hk, ih]
    have hs : modelStream key c nonce (k + 1) =
        (initNat key c nonce).block ++ modelStream key (c + 1) nonce k := by
      rw [modelStream, List.range'_succ, List.flatMap_cons]; rfl
    rw [hs, xorBytes_append_right, length_block _ (length_initNat key nonce c hk hn),
      List.drop_drop, ← List.append_assoc]
    have e1 : c + 1 + k = c + (k + 1) := by omega
    have e2 : (j + 1) * 64 = j * 64 + 64 := by omega
    rw [e1, e2]
    rfl

theorem encrypt_eq (key nonce pt : Bytes) (hk : key.length = 32) (hn : nonce.length = 12) (c : Nat) :
    (initNat key c nonce).encrypt pt =
      (initNat key (c + (pt.length + 63) / 64) nonce,
        xorBytes pt (modelStream key c nonce ((pt.length + 63) / 64))) := by
  rw [ChaCha.encrypt]
  have hb : (if pt.length % 64 > 0 then pt.length / 64 + 1 else pt.length / 64) =
      (pt.length + 63) / 64 := by split <;> omega
  simp only [hb]
  rw [encryptLoop_eq key nonce pt hk hn]
  simp

theorem modelStream_eq (key nonce : Bytes) (hk : key.length = 32) (hn : nonce.length = 12)
    (c n : Nat) (h : c + n ≤ 2 ^ 32) : modelStream key c nonce n = chachaStream key c nonce n := by
  induction n generalizing c with
  | zero => simp [modelStream, chachaStream]
  | succ n ih =>
    have hi := ih (c + 1) (by omega)
    rw [modelStream, List.range'_succ, List.flatMap_cons]
    rw [modelStream] at hi
    rw [hi, initNat_block key nonce c hk hn (by omega)]
    simp only [chachaStream]
    rw [List.range_succ_eq_map, List.flatMap_cons, List.flatMap_map]
    have : ∀ j, c + 1 + j = c + (j + 1) := fun j => by omega
    simp only [Nat.add_zero, this, Nat.succ_eq_add_one]

theorem modelStream_append (key nonce : Bytes) (c m n : Nat) :
    modelStream key c nonce (m + n) = modelStream key c nonce m ++ modelStream key (c + m) nonce n := by
  simp only [modelStream]
  rw [← List.flatMap_append, List.range'_append_1]

end Cryptopy
