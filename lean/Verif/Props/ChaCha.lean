import Verif.Lemmas.ChaChaWrap

/-!
Properties C18 to C24: the ChaCha20 stream cipher.
-/

namespace Cryptopy
open Model (ChaCha chachaQRound)
open Spec (Word quarter chachaBlock chachaStream chachaEncrypt xorBytes)

private theorem rotateLeft_injective (r : Nat) (hr : r < 32) :
    Function.Injective fun x : Word => x.rotateLeft r := by
  intro x y h
  have hg : ∀ i (hi : i < 32), (x.rotateLeft r)[i] = (y.rotateLeft r)[i] := by
    intro i hi
    have : x.rotateLeft r = y.rotateLeft r := h
    rw [this]
  apply BitVec.eq_of_getElem_eq
  intro j hj
  by_cases hlt : j + r < 32
  · have := hg (j + r) hlt
    rw [BitVec.getElem_rotateLeft, BitVec.getElem_rotateLeft] at this
    simpa [Nat.mod_eq_of_lt hr] using this
  · have := hg (j + r - 32) (by omega)
    rw [BitVec.getElem_rotateLeft, BitVec.getElem_rotateLeft] at this
    have e1 : j + r - 32 < r := by omega
    have e2 : 32 - r + (j + r - 32) = j := by omega
    simpa [Nat.mod_eq_of_lt hr, e1, e2] using this

/-- C18: on 32-bit words `chacha_q_round` is the RFC 7539 quarter round. -/
theorem C18_quarter_round_rfc (a b c d : Nat) (ha : a < 2 ^ 32) (hb : b < 2 ^ 32)
    (hc : c < 2 ^ 32) (hd : d < 2 ^ 32) :
    chachaQRound a b c d =
      (let r := quarter (BitVec.ofNat 32 a) (BitVec.ofNat 32 b) (BitVec.ofNat 32 c) (BitVec.ofNat 32 d)
       (r.1.toNat, r.2.1.toNat, r.2.2.1.toNat, r.2.2.2.toNat)) := by
  have h := qRound_eq (BitVec.ofNat 32 a) (BitVec.ofNat 32 b) (BitVec.ofNat 32 c) (BitVec.ofNat 32 d)
  simp only [BitVec.toNat_ofNat, Nat.mod_eq_of_lt ha, Nat.mod_eq_of_lt hb, Nat.mod_eq_of_lt hc,
    Nat.mod_eq_of_lt hd] at h
  exact h
example := C18_quarter_round_rfc 0xffffffff 1 0x80000000 7 (by decide) (by decide) (by decide) (by decide)

private theorem half_inj (r r' : Nat) (hr : r < 32) (hr' : r' < 32) :
    Function.Injective fun p : Word × Word × Word × Word =>
      let a := p.1 + p.2.1; let d := (p.2.2.2 ^^^ a).rotateLeft r
      let c := p.2.2.1 + d; let b := (p.2.1 ^^^ c).rotateLeft r'
      (a, b, c, d) := by
  rintro ⟨a, b, c, d⟩ ⟨a', b', c', d'⟩ h
  simp only [Prod.mk.injEq] at h
  obtain ⟨h1, h2, h3, h4⟩ := h
  have h5 := rotateLeft_injective r hr h4
  rw [h4] at h3
  have hc : c = c' := by simpa using h3
  subst hc
  rw [h4] at h2
  have h6 := rotateLeft_injective r' hr' h2
  have hb : b = b' := by simpa using h6
  subst hb
  have ha : a = a' := by simpa using h1
  subst ha
  have hd : d = d' := by simpa using h5
  subst hd
  rfl

/-- C18: the quarter round is a bijection of the 128-bit states. -/
theorem C18_quarter_round_bijective :
    Function.Bijective fun p : Fin (2 ^ 32) × Fin (2 ^ 32) × Fin (2 ^ 32) × Fin (2 ^ 32) =>
      let r := chachaQRound p.1 p.2.1 p.2.2.1 p.2.2.2
      ((Fin.ofNat (2 ^ 32) r.1, Fin.ofNat (2 ^ 32) r.2.1, Fin.ofNat (2 ^ 32) r.2.2.1,
        Fin.ofNat (2 ^ 32) r.2.2.2) : Fin (2 ^ 32) × Fin (2 ^ 32) × Fin (2 ^ 32) × Fin (2 ^ 32)) := by
  rw [← Finite.injective_iff_bijective]
  have hinj : Function.Injective fun p : Word × Word × Word × Word =>
      quarter p.1 p.2.1 p.2.2.1 p.2.2.2 := by
    have := (half_inj 8 7 (by omega) (by omega)).comp (half_inj 16 12 (by omega) (by omega))
    exact this
  rintro ⟨a, b, c, d⟩ ⟨a', b', c', d'⟩ h
  have key : ∀ x y : Word, Fin.ofNat (2 ^ 32) x.toNat = Fin.ofNat (2 ^ 32) y.toNat → x = y := by
    intro x y h
    have := congrArg Fin.val h
    simp only [Fin.ofNat, Nat.mod_eq_of_lt x.isLt, Nat.mod_eq_of_lt y.isLt] at this
    exact BitVec.eq_of_toNat_eq this
  simp only [Prod.mk.injEq] at h
  rw [C18_quarter_round_rfc _ _ _ _ a.isLt b.isLt c.isLt d.isLt,
    C18_quarter_round_rfc _ _ _ _ a'.isLt b'.isLt c'.isLt d'.isLt] at h
  obtain ⟨h1, h2, h3, h4⟩ := h
  have hq : quarter (BitVec.ofNat 32 a) (BitVec.ofNat 32 b) (BitVec.ofNat 32 c) (BitVec.ofNat 32 d) =
      quarter (BitVec.ofNat 32 a') (BitVec.ofNat 32 b') (BitVec.ofNat 32 c') (BitVec.ofNat 32 d') :=
    Prod.ext (key _ _ h1) (Prod.ext (key _ _ h2) (Prod.ext (key _ _ h3) (key _ _ h4)))
  have hp := @hinj (BitVec.ofNat 32 a, BitVec.ofNat 32 b, BitVec.ofNat 32 c, BitVec.ofNat 32 d)
    (BitVec.ofNat 32 a', BitVec.ofNat 32 b', BitVec.ofNat 32 c', BitVec.ofNat 32 d') hq
  have key2 : ∀ x y : Fin (2 ^ 32), BitVec.ofNat 32 x = BitVec.ofNat 32 y → x = y := by
    intro x y h
    have := congrArg BitVec.toNat h
    simp only [BitVec.toNat_ofNat, Nat.mod_eq_of_lt x.isLt, Nat.mod_eq_of_lt y.isLt] at this
    exact Fin.ext this
  simp only [Prod.mk.injEq] at hp
  rw [key2 _ _ hp.1, key2 _ _ hp.2.1, key2 _ _ hp.2.2.1, key2 _ _ hp.2.2.2]

/-- The test vector of RFC 7539 section 2.1.1. -/
example : chachaQRound 0x11111111 0x01020304 0x9b8d6f43 0x01234567 =
    (0xea2a92f4, 0xcb1cf8ce, 0x4581472e, 0x5881c4bb) := by decide +kernel

/-- C23: validation in the constructor. -/
theorem C23_constructor (rand key : Bytes) (counter : Nat) (hr : rand.length = 12) :
    (∀ n : Bytes, n ≠ [] → (ChaCha.new rand key counter (some n) = .error .assertion ↔
      key.length ≠ 32 ∨ n.length ≠ 12)) ∧
    (∀ n : Bytes, key.length = 32 → n.length = 12 → ∃ o, ChaCha.new rand key counter (some n) = .ok o) ∧
    (ChaCha.new rand key counter none = ChaCha.new [] key counter (some rand)) ∧
    (ChaCha.new rand key counter (some []) = ChaCha.new [] key counter (some rand)) ∧
    (ChaCha.new rand key counter none = .error .assertion ↔ key.length ≠ 32) := by
  have hr0 : rand ≠ [] := by rintro rfl; simp at hr
  refine ⟨?_, ?_, ?_, ?_, ?_⟩
  · intro n hn
    simp only [ChaCha.new, if_neg hn, ChaCha.initialize]
    by_cases h1 : key.length = 32 <;> by_cases h2 : n.length = 12 <;> simp [h1, h2]
  · intro n h1 h2
    have hn : n ≠ [] := by rintro rfl; simp at h2
    simp only [ChaCha.new, if_neg hn, ChaCha.initialize, if_pos h1, if_pos h2]
    exact ⟨_, rfl⟩
  · simp [ChaCha.new, hr0]
  · simp [ChaCha.new, hr0]
  · simp only [ChaCha.new, ChaCha.initialize, if_pos hr]
    by_cases h1 : key.length = 32 <;> simp [h1]

example : (List.replicate 12 (7 : UInt8)).length = 12 ∧ (List.replicate 32 (7 : UInt8)).length = 32 := by
  decide

/-- Every object that the constructor returns. -/
private theorem new_ok {rand key : Bytes} {c : Nat} {n : Option Bytes} {o : ChaCha}
    (h : ChaCha.new rand key c n = .ok o) :
    ∃ nonce : Bytes, key.length = 32 ∧ nonce.length = 12 ∧ o = initNat key c nonce ∧
      (∀ c', ChaCha.new rand key c' n = .ok (initNat key c' nonce)) := by
  have ini : ∀ m : Bytes, ChaCha.initialize key c m = .ok o → key.length = 32 ∧ m.length = 12 ∧
      o = initNat key c m := by
    intro m hm
    rw [ChaCha.initialize] at hm
    split at hm
    · next h1 =>
      split at hm
      · next h2 => exact ⟨h1, h2, (Except.ok.inj hm).symm⟩
      · simp at hm
    · simp at hm
  cases n with
  | none =>
    obtain ⟨h1, h2, h3⟩ := ini rand h
    exact ⟨rand, h1, h2, h3, fun c' => initialize_eq key rand c' h1 h2⟩
  | some m =>
    simp only [ChaCha.new] at h ⊢
    by_cases hm : m = []
    · rw [if_pos hm] at h
      obtain ⟨h1, h2, h3⟩ := ini rand h
      refine ⟨rand, h1, h2, h3, fun c' => ?_⟩
      rw [if_pos hm]
      exact initialize_eq key rand c' h1 h2
    · rw [if_neg hm] at h
      obtain ⟨h1, h2, h3⟩ := ini m h
      refine ⟨m, h1, h2, h3, fun c' => ?_⟩
      rw [if_neg hm]
      exact initialize_eq key m c' h1 h2

private theorem new_some (rand key nonce : Bytes) (c : Nat) (hk : key.length = 32)
    (hn : nonce.length = 12) : ChaCha.new rand key c (some nonce) = .ok (initNat key c nonce) := by
  have h0 : nonce ≠ [] := by rintro rfl; simp at hn
  simp only [ChaCha.new, if_neg h0]
  exact initialize_eq key nonce c hk hn

/-- C19: `chacha20_block` is the RFC 7539 block function.  (It returns only the block; the model
function does not change the object.) -/
theorem C19_block_rfc (rand key nonce : Bytes) (c : Nat) (hk : key.length = 32)
    (hn : nonce.length = 12) (hc : c < 2 ^ 32) :
    ∃ o, ChaCha.new rand key c (some nonce) = .ok o ∧
      o.block = chachaBlock key (BitVec.ofNat 32 c) nonce ∧ o.block.length = 64 :=
  ⟨_, new_some rand key nonce c hk hn, initNat_block key nonce c hk hn hc,
    length_block _ (length_initNat key nonce c hk hn)⟩
example := C19_block_rfc [] (List.replicate 32 1) (List.replicate 12 2) (2 ^ 32 - 1) rfl rfl (by decide)

/-- C20: encryption is xor with the RFC 7539 key stream, as long as the counter stays in 32 bits. -/
theorem C20_encrypt_rfc (rand key nonce pt : Bytes) (c : Nat) (hk : key.length = 32)
    (hn : nonce.length = 12) (hc : c + (pt.length + 63) / 64 ≤ 2 ^ 32) :
    ∃ o, ChaCha.new rand key c (some nonce) = .ok o ∧
      (o.encrypt pt).2 = chachaEncrypt key c nonce pt := by
  refine ⟨_, new_some rand key nonce c hk hn, ?_⟩
  rw [encrypt_eq key nonce pt hk hn, modelStream_eq key nonce hk hn _ _ hc]
  rfl

private theorem xorBytes_block (p S : Bytes) (_h : p.length ≤ S.length) (j : Nat) :
    ((xorBytes p S).drop j).take 64 = xorBytes ((p.drop j).take 64) ((S.drop j).take 64) := by
  simp only [xorBytes, List.drop_zipWith, List.take_zipWith]

/-- C20: for every counter, each 64 octet block of the result is the plaintext block xor the block
that a fresh object with that counter value gives. -/
theorem C20_encrypt_blocks (rand key pt : Bytes) (nonce : Option Bytes) (c j : Nat) (o oj : ChaCha)
    (h : ChaCha.new rand key c nonce = .ok o) (hj : ChaCha.new rand key (c + j) nonce = .ok oj) :
    (((o.encrypt pt).2).drop (64 * j)).take 64 = xorBytes ((pt.drop (64 * j)).take 64) oj.block := by
  obtain ⟨n, hk, hn, rfl, hc⟩ := new_ok h
  rw [hc] at hj
  obtain rfl := (Except.ok.inj hj).symm
  rw [encrypt_eq key n pt hk hn]
  simp only
  by_cases hlt : j < (pt.length + 63) / 64
  · rw [xorBytes_block _ _ (by rw [length_modelStream key n _ _ hk hn]; omega)]
    refine congrArg (xorBytes _) ?_
    obtain ⟨k, hk'⟩ : ∃ k, (pt.length + 63) / 64 = j + (1 + k) :=
      ⟨(pt.length + 63) / 64 - j - 1, by omega⟩
    rw [hk', modelStream_append, modelStream_append]
    have l1 := length_modelStream key n c j hk hn
    have l2 := length_modelStream key n (c + j) 1 hk hn
    rw [← l1, List.drop_left, List.take_append_of_le_length (by omega),
      List.take_of_length_le (by omega)]
    simp [modelStream]
  · have e : pt.drop (64 * j) = [] := List.drop_of_length_le (by omega)
    rw [e]
    rw [List.drop_of_length_le (by rw [length_xorBytes]; omega)]
    simp [xorBytes]
/-- Objects as in the hypotheses of this and the following theorems exist for every key of 32 and nonce of 12 octets. -/
example := C20_encrypt_blocks [] (List.replicate 32 1) (List.replicate 200 5) (some (List.replicate 12 2)) 7 2 _ _ (by rfl) (by rfl)

/-- C20: same length, and a fresh object with the same parameters decrypts. -/
theorem C20_self_inverse (rand key pt : Bytes) (nonce : Option Bytes) (c : Nat) (o : ChaCha)
    (h : ChaCha.new rand key c nonce = .ok o) :
    ((o.encrypt pt).2).length = pt.length ∧ (o.decrypt (o.encrypt pt).2).2 = pt := by
  obtain ⟨n, hk, hn, rfl, _⟩ := new_ok h
  have hl := length_modelStream key n c ((pt.length + 63) / 64) hk hn
  have hx : (xorBytes pt (modelStream key c n ((pt.length + 63) / 64))).length = pt.length := by
    rw [length_xorBytes]; omega
  rw [ChaCha.decrypt, encrypt_eq key n pt hk hn]
  refine ⟨hx, ?_⟩
  simp only
  rw [encrypt_eq key n _ hk hn]
  simp only
  rw [hx, xorBytes_self_right _ _ (by omega)]

example : ∃ o, ChaCha.new [] (List.replicate 32 1) 1 (some (List.replicate 12 2)) = .ok o ∧
    (o.encrypt (List.replicate 100 3)).2.length = 100 := by
  obtain ⟨o, ho, _⟩ := C20_encrypt_rfc [] (List.replicate 32 1) (List.replicate 12 2)
    (List.replicate 100 3) 1 rfl rfl (by decide)
  exact ⟨o, ho, (C20_self_inverse _ _ _ _ _ _ ho).1.trans rfl⟩

/-! ### Histories of calls -/

/-- One object used for a list of plaintext chunks in turn. -/
def encryptAll (o : ChaCha) : List Bytes → ChaCha × List Bytes
  | [] => (o, [])
  | p :: ps =>
    let r := o.encrypt p
    let rest := encryptAll r.1 ps
    (rest.1, r.2 :: rest.2)

/-- C21: chunking at a multiple of 64 octets is invisible, both in the output and in the object. -/
theorem C21_chunk_law (rand key a b : Bytes) (nonce : Option Bytes) (c : Nat) (o : ChaCha)
    (h : ChaCha.new rand key c nonce = .ok o) (ha : 64 ∣ a.length) :
    o.encrypt (a ++ b) =
      (((o.encrypt a).1.encrypt b).1, (o.encrypt a).2 ++ ((o.encrypt a).1.encrypt b).2) := by
  obtain ⟨n, hk, hn, rfl, _⟩ := new_ok h
  obtain ⟨k, hk'⟩ := ha
  have e1 : ((a ++ b).length + 63) / 64 = k + (b.length + 63) / 64 := by
    rw [List.length_append, hk']; omega
  have e2 : (a.length + 63) / 64 = k := by omega
  rw [encrypt_eq key n _ hk hn, encrypt_eq key n a hk hn, e1, e2]
  simp only
  rw [encrypt_eq key n b hk hn, modelStream_append, Nat.add_assoc]
  have hl := length_modelStream key n c k hk hn
  congr 1
  simp only [xorBytes]
  rw [List.zipWith_append (by omega)]
example := C21_chunk_law [] (List.replicate 32 1) (List.replicate 128 5) [6, 7] (some (List.replicate 12 2)) 7 _ rfl ⟨2, rfl⟩

/-- C21: in general a call uses whole key stream blocks: the second call continues as if the first
chunk had been filled up to a multiple of 64 octets. -/
theorem C21_partial_block_skipped (rand key a b fill : Bytes) (nonce : Option Bytes) (c : Nat)
    (o : ChaCha) (h : ChaCha.new rand key c nonce = .ok o) (hf : fill.length < 64)
    (ha : 64 ∣ a.length + fill.length) :
    (o.encrypt a).1.encrypt b = (o.encrypt (a ++ fill)).1.encrypt b ∧
    ((o.encrypt a).1.encrypt b).2 = ((o.encrypt (a ++ fill ++ b)).2).drop (a.length + fill.length) := by
  have h1 : (o.encrypt a).1 = (o.encrypt (a ++ fill)).1 := by
    obtain ⟨n, hk, hn, rfl, _⟩ := new_ok h
    rw [encrypt_eq key n _ hk hn, encrypt_eq key n _ hk hn]
    simp only [List.length_append]
    congr 1
    omega
  refine ⟨by rw [h1], ?_⟩
  rw [h1, C21_chunk_law rand key (a ++ fill) b nonce c o h (by simpa using ha)]
  have hl := (C20_self_inverse rand key (a ++ fill) nonce c o h).1
  simp only
  rw [← List.length_append, ← hl, List.drop_left]
example := C21_partial_block_skipped [] (List.replicate 32 1) (List.replicate 100 5) [6, 7] (List.replicate 28 0)
  (some (List.replicate 12 2)) 7 _ rfl (by decide) ⟨2, rfl⟩

/-- C21: after any sequence of calls the object is the one constructed with the counter advanced by
the total number of (started) blocks. -/
theorem C21_state_after_calls (rand key : Bytes) (nonce : Option Bytes) (c : Nat) (o : ChaCha)
    (h : ChaCha.new rand key c nonce = .ok o) (ps : List Bytes) :
    ChaCha.new rand key (c + (ps.map fun p => (p.length + 63) / 64).sum) nonce =
      .ok (encryptAll o ps).1 := by
  induction ps generalizing c o with
  | nil => simpa [encryptAll] using h
  | cons p ps ih =>
    obtain ⟨n, hk, hn, rfl, hc⟩ := new_ok h
    have := ih (c + (p.length + 63) / 64) _ (hc _)
    rw [List.map_cons, List.sum_cons, ← Nat.add_assoc, this, encryptAll, encrypt_eq key n p hk hn]

example : ∃ o, ChaCha.new [] (List.replicate 32 1) 1 (some (List.replicate 12 2)) = .ok o :=
  ⟨_, rfl⟩

/-! ### Counter overflow -/

/-- C22: word 12 of the state simply counts, without reduction. -/
theorem C22_counter_unbounded (rand key : Bytes) (nonce : Option Bytes) (c : Nat) (o : ChaCha)
    (h : ChaCha.new rand key c nonce = .ok o) (ps : List Bytes) :
    (encryptAll o ps).1.state.getD 12 0 = c + (ps.map fun p => (p.length + 63) / 64).sum := by
  have h2 := C21_state_after_calls rand key nonce c o h ps
  obtain ⟨n, hk, hn, he, _⟩ := new_ok h2
  rw [he, initNat_getD key n _ hk]
example := C22_counter_unbounded [] (List.replicate 32 1) (some (List.replicate 12 2)) 7 _ rfl [[1, 2, 3], List.replicate 65 4]

private theorem head_unpack (key : Bytes) (hk : key.length = 32) :
    (Model.unpackLE32 key).getD 0 0 % 2 = (key.getD 0 0).toNat % 2 := by
  match key, hk with
  | a :: b :: c :: d :: rest, _ =>
    simp only [Model.unpackLE32, List.getD_cons_zero]
    omega

private theorem initNat_set (key nonce : Bytes) (c d : Nat) (hk : key.length = 32) :
    initNat key d nonce = ⟨(initNat key c nonce).state.set 12 d⟩ := by
  have h8 := length_unpackLE32 key 8 (by omega)
  simp only [initNat, ChaCha.mk.injEq]
  rw [List.append_assoc, List.append_assoc _ [c], List.set_append_right _ _ (by simp; omega)]
  simp [h8]

/-- C22: past `2^32` blocks the key stream repeats: block `2^32 + c` equals the RFC 7539 block `c`
whenever `c` has the same parity as the first key octet. -/
theorem C22_keystream_repeats (rand key nonce : Bytes) (c : Nat) (hk : key.length = 32)
    (hn : nonce.length = 12) (hc : c < 2 ^ 32) (hpar : (key.getD 0 0).toNat % 2 = c % 2) :
    ∃ o, ChaCha.new rand key (2 ^ 32 + c) (some nonce) = .ok o ∧
      o.block = chachaBlock key (BitVec.ofNat 32 c) nonce := by
  refine ⟨_, new_some rand key nonce _ hk hn, ?_⟩
  rw [← initNat_block key nonce c hk hn hc, initNat_set key nonce c (2 ^ 32 + c) hk]
  have hself : initNat key c nonce = ⟨(initNat key c nonce).state.set 12 c⟩ :=
    initNat_set key nonce c c hk
  have hl := length_initNat key nonce c hk hn
  have h8 := length_unpackLE32 key 8 (by omega)
  have hw := block_wrap (initNat key c nonce).state c hl hc (by
    have e0 : (initNat key c nonce).state.getD 0 0 = 0x61707865 := rfl
    have e4 : (initNat key c nonce).state.getD 4 0 = (Model.unpackLE32 key).getD 0 0 := by
      match hu : Model.unpackLE32 key, h8 with
      | x :: xs, _ => simp [initNat, hu]
    have hh := head_unpack key hk
    rw [e0, e4, Nat.testBit_xor]
    simp only [Nat.testBit_zero]
    have h2 : (0x61707865 + (Model.unpackLE32 key).getD 0 0) % 2 ^ 32 % 2 = (1 + c) % 2 := by omega
    rw [h2]
    rcases Nat.mod_two_eq_zero_or_one c with h0 | h0
    · have : (1 + c) % 2 = 1 := by omega
      simp [h0, this]
    · have : (1 + c) % 2 = 0 := by omega
      simp [h0, this])
  rw [hw, ← hself]
example := C22_keystream_repeats [] (List.replicate 32 1) (List.replicate 12 2) 7 rfl rfl (by decide) (by decide)

/-- C22: for the other parity there are keys whose block `2^32` is not the RFC 7539 block with
counter zero, so the object does not implement counter arithmetic modulo `2^32` either. -/
theorem C22_not_rfc_wrap :
    ∃ (key nonce : Bytes) (o o0 : ChaCha), ChaCha.new [] key (2 ^ 32) (some nonce) = .ok o ∧
      ChaCha.new [] key 0 (some nonce) = .ok o0 ∧ o0.block = chachaBlock key 0 nonce ∧
      o.block ≠ o0.block := by
  refine ⟨1 :: List.replicate 31 0, List.replicate 12 0, _, _, new_some _ _ _ _ rfl rfl,
    new_some _ _ _ _ rfl rfl, initNat_block _ _ 0 rfl rfl (by norm_num), ?_⟩
  decide +kernel

example : ((List.replicate 32 (2 : UInt8)).getD 0 0).toNat % 2 = 0 % 2 := by decide

/-! ### Key stream reuse -/

private theorem xor_stream (key n p : Bytes) (hk : key.length = 32) (hn : n.length = 12) (c N : Nat)
    (hN : (p.length + 63) / 64 ≤ N) :
    xorBytes p (modelStream key c n ((p.length + 63) / 64)) = xorBytes p (modelStream key c n N) := by
  obtain ⟨k, rfl⟩ := Nat.exists_eq_add_of_le hN
  have hl := length_modelStream key n c ((p.length + 63) / 64) hk hn
  rw [modelStream_append, xorBytes_append_right, List.drop_of_length_le (by omega)]
  simp [xorBytes]

private theorem xor_cancel (a b S : Bytes) (ha : a.length ≤ S.length) (hb : b.length ≤ S.length) :
    xorBytes (xorBytes a S) (xorBytes b S) = xorBytes a b := by
  induction S generalizing a b with
  | nil =>
    have h1 : a = [] := List.length_eq_zero_iff.mp (by simpa using ha)
    subst h1; rfl
  | cons s S ih =>
    cases a with
    | nil => rfl
    | cons x a =>
      cases b with
      | nil => simp [xorBytes]
      | cons y b =>
        have := ih a b (by simpa using ha) (by simpa using hb)
        simp only [xorBytes, List.zipWith_cons_cons] at this ⊢
        rw [this]
        congr 1
        rw [UInt8.xor_comm y s, UInt8.xor_assoc, ← UInt8.xor_assoc s s y, UInt8.xor_self,
          UInt8.zero_xor]

/-- C24: two plaintexts under the same key, counter and nonce reveal their xor (on the common
prefix, because `xorBytes` stops at the shorter string). -/
theorem C24_keystream_reuse (rand key p1 p2 : Bytes) (nonce : Option Bytes) (c : Nat) (o : ChaCha)
    (h : ChaCha.new rand key c nonce = .ok o) :
    xorBytes (o.encrypt p1).2 (o.encrypt p2).2 = xorBytes p1 p2 := by
  obtain ⟨n, hk, hn, rfl, _⟩ := new_ok h
  rw [encrypt_eq key n _ hk hn, encrypt_eq key n _ hk hn]
  simp only
  set N := max ((p1.length + 63) / 64) ((p2.length + 63) / 64) with hN
  have hl := length_modelStream key n c N hk hn
  rw [xor_stream key n p1 hk hn c N (le_max_left _ _), xor_stream key n p2 hk hn c N (le_max_right _ _)]
  apply xor_cancel <;> omega
example := C24_keystream_reuse [] (List.replicate 32 1) [1, 2, 3] [4, 5] (some (List.replicate 12 2)) 7 _ rfl

/-- C24: flipping ciphertext bits flips exactly those plaintext bits. -/
theorem C24_malleable (rand key ct mask : Bytes) (nonce : Option Bytes) (c : Nat) (o : ChaCha)
    (h : ChaCha.new rand key c nonce = .ok o) (hm : mask.length = ct.length) :
    (o.decrypt (xorBytes ct mask)).2 = xorBytes (o.decrypt ct).2 mask := by
  obtain ⟨n, hk, hn, rfl, _⟩ := new_ok h
  have hx : (xorBytes ct mask).length = ct.length := by rw [length_xorBytes]; omega
  rw [ChaCha.decrypt, ChaCha.decrypt, encrypt_eq key n _ hk hn, encrypt_eq key n _ hk hn, hx]
  simp only
  generalize modelStream key c n ((ct.length + 63) / 64) = S
  clear hx
  induction ct generalizing mask S with
  | nil =>
    have h1 : mask = [] := List.length_eq_zero_iff.mp (by simpa using hm)
    subst h1; rfl
  | cons x ct ih =>
    cases mask with
    | nil => simp at hm
    | cons y mask =>
      cases S with
      | nil => simp [xorBytes]
      | cons s S =>
        have := ih mask (by simpa using hm) S
        simp only [xorBytes, List.zipWith_cons_cons] at this ⊢
        rw [this, UInt8.xor_assoc, UInt8.xor_comm y s, ← UInt8.xor_assoc]
example := C24_malleable [] (List.replicate 32 1) [1, 2, 3] [0, 0x80, 0] (some (List.replicate 12 2)) 7 _ rfl rfl

end Cryptopy
