import Verif.Model.ChaChaCalls
import Verif.Props.ChaCha

/-!
C180: with which inputs the ChaCha functions call the block function.
-/

namespace Cryptopy
open Model
open Spec

private theorem ok_bind {α β : Type} (l : List (List Nat)) (a : α) (f : α → Calls (List Nat) β) :
    ((⟨l, .ok a⟩ : Calls (List Nat) α) >>= f) = ⟨l ++ (f a).calls, (f a).result⟩ := rfl

private theorem none_bind {α β : Type} (a : α) (f : α → Calls (List Nat) β) :
    ((Calls.none (.ok a) : Calls (List Nat) α) >>= f) = f a := rfl

/-- The sixteen words of RFC 7539 section 2.3: the constants, the key, the counter and the nonce. -/
def blockInput (key nonce : Bytes) (counter : Nat) : List Nat :=
  [0x61707865, 0x3320646e, 0x79622d32, 0x6b206574] ++ (List.ofFn fun i : Fin 8 => (leWord key i).toNat) ++ [counter] ++
    List.ofFn fun i : Fin 3 => (leWord nonce i).toNat

private theorem state_eq (key nonce : Bytes) (c : Nat) (hk : key.length = 32) (hn : nonce.length = 12) :
    (initNat key c nonce).state = blockInput key nonce c := by
  rw [initNat, blockInput, unpackLE32_eq key 8 (by omega), unpackLE32_eq nonce 3 (by omega)]

private theorem unpack_inj : ∀ (n : Nat) (s t : Bytes), s.length = 4 * n → t.length = 4 * n → unpackLE32 s = unpackLE32 t → s = t
  | 0, s, t, hs, ht, _ => by
    rw [List.length_eq_zero_iff.mp (by omega : s.length = 0), List.length_eq_zero_iff.mp (by omega : t.length = 0)]
  | n + 1, s, t, hs, ht, h => by
    match s, t, hs, ht with
    | a :: b :: c :: d :: s, a' :: b' :: c' :: d' :: t, hs, ht =>
      simp only [unpackLE32, List.cons.injEq] at h
      have hr := unpack_inj n s t (by simp at hs; omega) (by simp at ht; omega) h.2
      have := a.toNat_lt; have := b.toNat_lt; have := c.toNat_lt; have := d.toNat_lt
      have := a'.toNat_lt; have := b'.toNat_lt; have := c'.toNat_lt; have := d'.toNat_lt
      have h1 := h.1
      have e1 : a = a' := UInt8.toNat_inj.mp (by omega)
      have e2 : b = b' := UInt8.toNat_inj.mp (by omega)
      have e3 : c = c' := UInt8.toNat_inj.mp (by omega)
      have e4 : d = d' := UInt8.toNat_inj.mp (by omega)
      rw [e1, e2, e3, e4, hr]

/-- C180: different keys, nonces or counters are different inputs of the block function. -/
theorem C180_inputs_differ (key key' nonce nonce' : Bytes) (c c' : Nat) (hk : key.length = 32) (hk' : key'.length = 32)
    (hn : nonce.length = 12) (hn' : nonce'.length = 12) :
    blockInput key nonce c = blockInput key' nonce' c' ↔ key = key' ∧ nonce = nonce' ∧ c = c' := by
  constructor
  · intro h
    rw [← state_eq key nonce c hk hn, ← state_eq key' nonce' c' hk' hn'] at h
    simp only [initNat, List.append_assoc] at h
    have h1 := List.append_cancel_left h
    obtain ⟨h2, h3⟩ := List.append_inj h1 (by
      rw [length_unpackLE32 key 8 (by omega), length_unpackLE32 key' 8 (by omega)])
    simp only [List.singleton_append, List.cons.injEq] at h3
    exact ⟨unpack_inj 8 _ _ (by omega) (by omega) h2, unpack_inj 3 _ _ (by omega) (by omega) h3.2, h3.1⟩
  · rintro ⟨rfl, rfl, rfl⟩
    rfl
example := (C180_inputs_differ (List.replicate 32 7) (List.replicate 32 7) (List.replicate 12 1) (List.replicate 12 2) 5 5
  (by decide) (by decide) (by decide) (by decide)).mp.mt (by decide)

private theorem loop_calls (key nonce pt : Bytes) (hk : key.length = 32) (hn : nonce.length = 12) (k : Nat) :
    ∀ (j c : Nat) (out : Bytes),
    (ChaCha.encryptLoopCalls pt j k (initNat key c nonce) out).result = .ok (ChaCha.encryptLoop pt j k (initNat key c nonce) out) ∧
    (ChaCha.encryptLoopCalls pt j k (initNat key c nonce) out).calls =
      (List.range k).map fun i => blockInput key nonce (c + i) := by
  induction k with
  | zero => intro j c out; exact ⟨rfl, rfl⟩
  | succ k ih =>
    intro j c out
    rw [ChaCha.encryptLoopCalls, ChaCha.encryptLoop]
    obtain ⟨h1, h2⟩ := ih (j + 1) (c + 1) (out ++ List.zipWith (fun b k => b ^^^ k) (pt.drop (j * 64)) (initNat key c nonce).block)
    rw [← initNat_bump _ _ _ hk] at h1 h2
    refine ⟨h1, ?_⟩
    change (initNat key c nonce).state :: (ChaCha.encryptLoopCalls pt (j + 1) k (initNat key c nonce).bump _).calls = _
    rw [h2, state_eq key nonce c hk hn, List.range_succ_eq_map, List.map_cons, List.map_map]
    congr 1
    refine List.map_congr_left fun i _ => ?_
    simp only [Function.comp_apply, Nat.succ_eq_add_one]
    congr 1
    omega

private theorem encrypt_calls (key nonce pt : Bytes) (hk : key.length = 32) (hn : nonce.length = 12) (c : Nat) :
    ((initNat key c nonce).encryptCalls pt).result = .ok ((initNat key c nonce).encrypt pt) ∧
    ((initNat key c nonce).encryptCalls pt).calls =
      (List.range ((pt.length + 63) / 64)).map fun i => blockInput key nonce (c + i) := by
  rw [ChaCha.encryptCalls, ChaCha.encrypt]
  have hb : (if pt.length % 64 > 0 then pt.length / 64 + 1 else pt.length / 64) = (pt.length + 63) / 64 := by split <;> omega
  simp only [hb]
  exact loop_calls key nonce pt hk hn _ 0 c []

/-- C180: a new `ChaCha` object with key, counter and nonce, which encrypts texts one after the other, calls the block function for
each text once for each 64 octets or less, with consecutive counters through all texts: the inputs depend on the lengths of the
texts only, and no input occurs twice. -/
theorem C180_chacha (rand key nonce : Bytes) (hk : key.length = 32) (hn : nonce.length = 12) (c : Nat) (texts : List Bytes)
    (run : List Bytes → ChaCha → List (List Nat)) (hr0 : ∀ o, run [] o = [])
    (hr : ∀ t ts o, run (t :: ts) o = (o.encryptCalls t).calls ++ run ts (o.encrypt t).1) :
    ∃ o, ChaCha.new rand key c (some nonce) = .ok o ∧ (∀ t, (o.encryptCalls t).result = .ok (o.encrypt t)) ∧
      run texts o = (List.range ((texts.map fun t => (t.length + 63) / 64).sum)).map fun i => blockInput key nonce (c + i) := by
  have hne : nonce ≠ [] := by rintro rfl; simp at hn
  refine ⟨initNat key c nonce, ?_, fun t => (encrypt_calls key nonce t hk hn c).1, ?_⟩
  · rw [ChaCha.new]
    simp only [if_neg hne]
    exact initialize_eq key nonce c hk hn
  · induction texts generalizing c with
    | nil => rw [hr0]; rfl
    | cons t ts ih =>
      rw [hr, (encrypt_calls key nonce t hk hn c).2, encrypt_eq key nonce t hk hn c, ih, List.map_cons, List.sum_cons,
        List.range_add, List.map_append, List.map_map]
      congr 1
      refine List.map_congr_left fun i _ => ?_
      simp only [Function.comp_apply, Nat.add_assoc]

-- Two texts of 65 octets and one octet take three calls.
example : ((ChaCha.new [] (List.replicate 32 7) 5 (some (List.replicate 12 1))).toOption.map fun o =>
    (o.encryptCalls (List.replicate 65 0)).calls.map fun s => s.getD 12 0) = some [5, 6] := by decide +kernel

/-- C180: an AEAD encryption calls the block function with the counter 0, for the key of Poly1305, and then with the counters from 1 on
for the text; decryption makes the same calls, whatever the ciphertext.  The inputs depend on the length of the text only. -/
theorem C180_aead (rand1 rand2 : Bytes) (o : Aead) (aad iv pt : Bytes) (hk : o.key.length = 32)
    (hn : (o.constant ++ iv).length = 12) :
    (o.encryptCalls rand1 rand2 aad iv pt).result = o.encrypt rand1 rand2 aad iv pt ∧
    (o.decryptCalls rand1 rand2 aad iv pt).result = o.decrypt rand1 rand2 aad iv pt ∧
    (o.encryptCalls rand1 rand2 aad iv pt).calls =
      (List.range (1 + (pt.length + 63) / 64)).map (blockInput o.key (o.constant ++ iv)) ∧
    (o.decryptCalls rand1 rand2 aad iv pt).calls =
      (List.range (1 + (pt.length + 63) / 64)).map (blockInput o.key (o.constant ++ iv)) := by
  have hne : o.constant ++ iv ≠ [] := by intro h; rw [h] at hn; simp at hn
  have hnew : ∀ (rand : Bytes) (c : Nat), ChaCha.new rand o.key c (some (o.constant ++ iv)) =
      .ok (initNat o.key c (o.constant ++ iv)) := by
    intro rand c
    rw [ChaCha.new]
    simp only [if_neg hne]
    exact initialize_eq _ _ c hk hn
  obtain ⟨h1, h2⟩ := encrypt_calls o.key (o.constant ++ iv) pt hk hn 1
  have hg : poly1305KeyGenCalls rand1 o.key (o.constant ++ iv) =
      ⟨[blockInput o.key (o.constant ++ iv) 0], .ok ((initNat o.key 0 (o.constant ++ iv)).block.take 32)⟩ := by
    rw [poly1305KeyGenCalls, hnew]
    change (⟨[(initNat o.key 0 (o.constant ++ iv)).state], _⟩ : Calls (List Nat) Bytes) = _
    rw [state_eq _ _ 0 hk hn]
    rfl
  have key : (o.encryptCalls rand1 rand2 aad iv pt).result = o.encrypt rand1 rand2 aad iv pt ∧
      (o.encryptCalls rand1 rand2 aad iv pt).calls =
        (List.range (1 + (pt.length + 63) / 64)).map (blockInput o.key (o.constant ++ iv)) := by
    have hrun : o.encryptCalls rand1 rand2 aad iv pt =
        (poly1305KeyGenCalls rand1 o.key (o.constant ++ iv) >>= fun otk =>
          Calls.none (ChaCha.new rand2 o.key 1 (some (o.constant ++ iv))) >>= fun c =>
          c.encryptCalls pt >>= fun r =>
          Calls.none (poly1305Mac (macData aad r.2) otk) >>= fun tag => pure (r.2, tag)) := rfl
    rw [hrun, hg, ok_bind, hnew, none_bind, Aead.encrypt, poly1305KeyGen]
    simp only [hnew]
    have hr : (initNat o.key 1 (o.constant ++ iv)).encryptCalls pt =
        ⟨(List.range ((pt.length + 63) / 64)).map fun i => blockInput o.key (o.constant ++ iv) (1 + i),
          .ok ((initNat o.key 1 (o.constant ++ iv)).encrypt pt)⟩ := by
      rw [← h1, ← h2]
    rw [hr, ok_bind]
    constructor
    · generalize poly1305Mac (macData aad ((initNat o.key 1 (o.constant ++ iv)).encrypt pt).2)
        ((initNat o.key 0 (o.constant ++ iv)).block.take 32) = tag
      generalize ((initNat o.key 1 (o.constant ++ iv)).encrypt pt).2 = ct
      cases tag <;> rfl
    · have hz : ∀ tag : Py Bytes, (Calls.none tag >>= fun tag =>
          pure (((initNat o.key 1 (o.constant ++ iv)).encrypt pt).2, tag) : Calls (List Nat) (Bytes × Bytes)).calls = [] := by
        intro tag; cases tag <;> rfl
      simp only [hz, List.append_nil]
      rw [Nat.add_comm 1, List.range_succ_eq_map, List.map_cons, List.map_map]
      refine congrArg (List.cons _) ?_
      refine List.map_congr_left fun i _ => ?_
      simp only [Function.comp_apply, Nat.succ_eq_add_one, Nat.add_comm 1 i]
  exact ⟨key.1, key.1, key.2, key.2⟩

private def aeadObject : Aead := { key := List.replicate 32 7, constant := List.replicate 4 1 }

example := C180_aead [] [] aeadObject [1] (List.replicate 8 2) (List.replicate 65 3) (by decide) (by decide)

-- The counters of an encryption of 65 octets.
example : (aeadObject.encryptCalls [] [] [1] (List.replicate 8 2) (List.replicate 65 3)).calls.map (fun s => s.getD 12 0) =
    [0, 1, 2] := by decide +kernel

/-- C180: of all calls of the block function that encryptions with one object make, no two have the same input, as long as no two
encryptions are given the same `iv`. -/
theorem C180_no_input_twice (o : Aead) (hk : o.key.length = 32) (messages : List (Bytes × Bytes × Bytes × Bytes × Bytes))
    (hn : ∀ m ∈ messages, (o.constant ++ m.2.2.2.1).length = 12) (hd : (messages.map fun m => m.2.2.2.1).Nodup) :
    (messages.flatMap fun m => (o.encryptCalls m.1 m.2.1 m.2.2.1 m.2.2.2.1 m.2.2.2.2).calls).Nodup := by
  rw [List.nodup_flatMap]
  constructor
  · intro m hm
    rw [(C180_aead m.1 m.2.1 o m.2.2.1 m.2.2.2.1 m.2.2.2.2 hk (hn m hm)).2.2.1]
    refine List.Nodup.map_on (fun i _ j _ h => ?_) List.nodup_range
    exact ((C180_inputs_differ _ _ _ _ i j hk hk (hn m hm) (hn m hm)).mp h).2.2
  · rw [List.Nodup, List.pairwise_map] at hd
    refine hd.imp_of_mem fun {a b} ha hb hab => ?_
    rw [Function.onFun, (C180_aead a.1 a.2.1 o a.2.2.1 a.2.2.2.1 a.2.2.2.2 hk (hn a ha)).2.2.1,
      (C180_aead b.1 b.2.1 o b.2.2.1 b.2.2.2.1 b.2.2.2.2 hk (hn b hb)).2.2.1]
    intro x hx hy
    obtain ⟨i, _, rfl⟩ := List.mem_map.mp hx
    obtain ⟨j, _, h⟩ := List.mem_map.mp hy
    exact hab (List.append_cancel_left ((C180_inputs_differ _ _ _ _ j i hk hk (hn b hb) (hn a ha)).mp h).2.1).symm
example := C180_no_input_twice aeadObject (by decide)
  [([], [], [1], List.replicate 8 2, List.replicate 65 3), ([], [], [1], List.replicate 8 4, List.replicate 65 3)]
  (by decide) (by decide)

/-- C180: the inputs are sixteen words of 32 bits exactly for texts below `2^32` blocks; in longer texts the counter leaves the range. -/
theorem C180_words (rand1 rand2 : Bytes) (o : Aead) (aad iv pt : Bytes) (hk : o.key.length = 32)
    (hn : (o.constant ++ iv).length = 12) :
    (∀ s ∈ (o.encryptCalls rand1 rand2 aad iv pt).calls, s.length = 16) ∧
    ((∀ s ∈ (o.encryptCalls rand1 rand2 aad iv pt).calls, ∀ w ∈ s, w < 2 ^ 32) ↔ (pt.length + 63) / 64 < 2 ^ 32) := by
  rw [(C180_aead rand1 rand2 o aad iv pt hk hn).2.2.1]
  simp only [List.mem_map, List.mem_range, forall_exists_index, and_imp, forall_apply_eq_imp_iff₂]
  refine ⟨fun j _ => by simp [blockInput], fun h => ?_, fun h j hj w hw => ?_⟩
  · exact h ((pt.length + 63) / 64) (by omega) _ (by simp [blockInput])
  · simp only [blockInput, List.mem_append, List.mem_ofFn] at hw
    rcases hw with ((hw | ⟨i, rfl⟩) | hw) | ⟨i, rfl⟩
    · simp only [List.mem_cons, List.not_mem_nil, or_false] at hw
      omega
    · exact UInt32.toNat_lt _
    · simp only [List.mem_cons, List.not_mem_nil, or_false] at hw
      omega
    · exact UInt32.toNat_lt _
example := (C180_words [] [] aeadObject [1] (List.replicate 8 2) (List.replicate 65 3) (by decide) (by decide)).2.mpr (by decide)

/-- C180: two encryptions under one key and nonce make the same calls as far as the shorter one goes, so the first `min` of the two
block counts and the key of Poly1305 are used twice. -/
theorem C180_nonce_reuse (rand1 rand2 rand1' rand2' : Bytes) (o : Aead) (aad aad' iv pt pt' : Bytes) (hk : o.key.length = 32)
    (hn : (o.constant ++ iv).length = 12) (hl : pt.length ≤ pt'.length) :
    (o.encryptCalls rand1 rand2 aad iv pt).calls <+: (o.encryptCalls rand1' rand2' aad' iv pt').calls := by
  rw [(C180_aead rand1 rand2 o aad iv pt hk hn).2.2.1, (C180_aead rand1' rand2' o aad' iv pt' hk hn).2.2.1]
  obtain ⟨d, hd⟩ := Nat.exists_eq_add_of_le (by omega : 1 + (pt.length + 63) / 64 ≤ 1 + (pt'.length + 63) / 64)
  rw [hd, List.range_add (n := 1 + (pt.length + 63) / 64), List.map_append]
  exact List.prefix_append _ _
example := C180_nonce_reuse [] [] [] [] aeadObject [1] [2] (List.replicate 8 2) [1] (List.replicate 65 3) (by decide) (by decide)
  (by decide)

end Cryptopy
