import Verif.Props.HmacKeys

/-!
C148: which messages HMAC, and which labels and data the 802.11 PRF, give the same value.
-/

namespace Cryptopy
open Model Spec

private theorem once_code (h : HashLib) (key data : Bytes) :
    hmacOnce h key data = .ok (hmacWith h.H (codeKey h.H h.rawBlockSize key) data) := by
  by_cases hk : key.length ≤ h.rawBlockSize
  · rw [C36_hmac_rfc2104 h key data hk]
    simp [hmac, hmacKey, codeKey, hk]
  · rw [C37_hmac_long_key h key data (by omega)]
    simp [codeKey, hk]

/-- The key block of the code: the padded key, or for a long key its digest. -/
private theorem block_key (h : HashLib) (key : Bytes) (k0 : Bytes)
    (hk0 : k0 = if key.length ≤ h.rawBlockSize then key ++ List.replicate (h.rawBlockSize - key.length) 0 else h.H key) :
    codeKey h.H h.rawBlockSize key = k0 := by
  rw [hk0]; rfl

/-- C148: two messages have the same MAC under a key exactly if the inner hash values agree or the two outer inputs
are a collision. -/
theorem C148_same_mac_iff (h : HashLib) (key d1 d2 k0 : Bytes)
    (hk0 : k0 = if key.length ≤ h.rawBlockSize then key ++ List.replicate (h.rawBlockSize - key.length) 0 else h.H key) :
    hmacOnce h key d1 = hmacOnce h key d2 ↔
      h.H (hmacInner k0 d1) = h.H (hmacInner k0 d2) ∨ Collision h.H (hmacOuter h.H k0 d1) (hmacOuter h.H k0 d2) := by
  rw [once_code, once_code, block_key h key k0 hk0]
  simp only [Except.ok.injEq, hmacWith, Collision, hmacOuter]
  constructor
  · intro he
    by_cases hi : h.H (hmacInner k0 d1) = h.H (hmacInner k0 d2)
    · exact .inl hi
    · exact .inr ⟨fun hc => hi (List.append_cancel_left hc), he⟩
  · rintro (hi | hc)
    · rw [hi]
    · exact hc.2
example (H : Bytes → Bytes) (d1 d2 : Bytes) := C148_same_mac_iff ⟨4, 1, H⟩ [9] d1 d2 [9, 0, 0, 0] rfl

/-- C148: if different messages have the same MAC, either the two inner inputs or the two outer inputs are a
collision of the hash function. -/
theorem C148_message_collision (h : HashLib) (key d1 d2 k0 : Bytes)
    (hk0 : k0 = if key.length ≤ h.rawBlockSize then key ++ List.replicate (h.rawBlockSize - key.length) 0 else h.H key)
    (hne : d1 ≠ d2) (he : hmacOnce h key d1 = hmacOnce h key d2) :
    Collision h.H (hmacInner k0 d1) (hmacInner k0 d2) ∨ Collision h.H (hmacOuter h.H k0 d1) (hmacOuter h.H k0 d2) := by
  rcases (C148_same_mac_iff h key d1 d2 k0 hk0).mp he with hi | hc
  · exact .inl ⟨fun hc => hne (List.append_cancel_left hc), hi⟩
  · exact .inr hc
example := C148_message_collision ⟨4, 1, fun s => [s.getLastD 0]⟩ [9] [1, 7] [2, 7] [9, 0, 0, 0] rfl (by decide) (by decide +kernel)

/-- C148: if the 802.11 PRF gives the same octets, at least one whole block of them, for different pairs of label and
data, and the labels contain no zero octet, then the first inputs of the MAC differ and have the same MAC. -/
theorem C148_prf (mac : Bytes → Bytes → Bytes) (hm : ∀ k x, (mac k x).length = 20) (key A B A' B' : Bytes) (bits : Int)
    (hA : (0 : UInt8) ∉ A) (hA' : (0 : UInt8) ∉ A') (h8 : bits % 8 = 0) (h0 : 160 ≤ bits) (h1 : bits < 40960)
    (hne : (A, B) ≠ (A', B'))
    (he : prfDot11 (fun k m => .ok (mac k m)) key A B bits = prfDot11 (fun k m => .ok (mac k m)) key A' B' bits) :
    Collision (mac key) (A ++ [0] ++ B ++ [0]) (A' ++ [0] ++ B' ++ [0]) := by
  rw [(C43_prf_value mac hm key A B bits h8 (by omega) h1).1, (C43_prf_value mac hm key A' B' bits h8 (by omega) h1).1,
    Except.ok.injEq] at he
  obtain ⟨n, hn⟩ : ∃ n, (bits / 8).toNat = n + 20 := ⟨(bits / 8).toNat - 20, by omega⟩
  rw [hn] at he
  refine ⟨fun hc => hne ?_, ?_⟩
  · obtain ⟨e1, e2, _⟩ := C116_separated A B A' B' 0 0 hA hA' hc
    rw [e1, e2]
  · have first : ∀ A B, (prf80211 mac key A B (n + 20)).take 20 = mac key (A ++ [0] ++ B ++ [0]) := by
      intro A B
      unfold prf80211
      rw [List.take_take, Nat.min_eq_left (by omega), List.range_succ_eq_map, List.flatMap_cons,
        List.take_append_of_le_length (by rw [hm])]
      rw [List.take_of_length_le (by rw [hm])]
      rfl
    rw [← first, ← first, he]
example := C148_prf (fun _ _ => List.replicate 20 5) (by simp) [1] [2] [3] [2, 4] [3] 160 (by decide) (by decide) (by decide)
  (by decide) (by decide) (by decide) (by decide +kernel)

/-- C148: for the 16 octets of `PRF_128` the same holds for the leading 16 octets of the MAC. -/
theorem C148_prf_short (mac : Bytes → Bytes → Bytes) (hm : ∀ k x, (mac k x).length = 20) (key A B A' B' : Bytes)
    (hA : (0 : UInt8) ∉ A) (hA' : (0 : UInt8) ∉ A') (hne : (A, B) ≠ (A', B'))
    (he : prf128 (fun k m => .ok (mac k m)) key A B = prf128 (fun k m => .ok (mac k m)) key A' B') :
    Collision (fun x => (mac key x).take 16) (A ++ [0] ++ B ++ [0]) (A' ++ [0] ++ B' ++ [0]) := by
  unfold prf128 at he
  rw [(C43_prf_value mac hm key A B 128 (by decide) (by decide) (by decide)).1,
    (C43_prf_value mac hm key A' B' 128 (by decide) (by decide) (by decide)).1, Except.ok.injEq] at he
  refine ⟨fun hc => hne ?_, ?_⟩
  · obtain ⟨e1, e2, _⟩ := C116_separated A B A' B' 0 0 hA hA' hc
    rw [e1, e2]
  · have first : ∀ A B, prf80211 mac key A B 16 = (mac key (A ++ [0] ++ B ++ [0])).take 16 := by
      intro A B
      simp [prf80211]
    have e : ((128 : Int) / 8).toNat = 16 := by decide
    rw [e, first, first] at he
    exact he
example := C148_prf_short (fun _ _ => List.replicate 20 5) (by simp) [1] [2] [3] [2, 4] [3] (by decide) (by decide) (by decide)
  (by decide +kernel)

private theorem one_block (P : PrfLib) (password salt : Bytes) (hd : 0 < P.digestSize)
    (hF : ∀ x, (P.prf password x).length = P.digestSize) (n c : Nat) :
    (Spec.pbkdf2 (P.prf password) P.digestSize salt c (P.digestSize + n)).take P.digestSize =
      pbT (P.prf password) salt 1 (c - 1) := by
  unfold Spec.pbkdf2
  obtain ⟨m, hm⟩ : ∃ m, (P.digestSize + n + P.digestSize - 1) / P.digestSize = m + 1 :=
    ⟨(P.digestSize + n + P.digestSize - 1) / P.digestSize - 1, by
      have : 0 < (P.digestSize + n + P.digestSize - 1) / P.digestSize := Nat.div_pos (by omega) hd
      omega⟩
  rw [hm, List.take_take, Nat.min_eq_left (by omega), List.range_succ_eq_map, List.flatMap_cons,
    List.take_append_of_le_length (by rw [length_pbT _ _ hF]), List.take_of_length_le (by rw [length_pbT _ _ hF])]

/-- C148: with one iteration, if two salts give the same derived key of at least one block, then the first inputs of
the pseudorandom function differ and have the same value. -/
theorem C148_pbkdf2_salt (P : PrfLib) (password salt salt' : Bytes) (keySize : Int) (hd : 0 < P.digestSize)
    (hF : ∀ x, (P.prf password x).length = P.digestSize) (hp : password.length ≤ 63) (h0 : P.digestSize ≤ keySize)
    (hk : keySize ≤ 10000) (hne : salt ≠ salt')
    (he : Model.pbkdf2 true P password salt 1 keySize = Model.pbkdf2 true P password salt' 1 keySize) :
    Collision (P.prf password) (salt ++ [0, 0, 0, 1]) (salt' ++ [0, 0, 0, 1]) := by
  rw [C40_pbkdf2_rfc2898 P password salt 1 keySize hd hF hp (by omega) hk,
    C40_pbkdf2_rfc2898 P password salt' 1 keySize hd hF hp (by omega) hk, Except.ok.injEq] at he
  obtain ⟨n, hn⟩ : ∃ n, keySize.toNat = P.digestSize + n := ⟨keySize.toNat - P.digestSize, by omega⟩
  rw [hn] at he
  have := congrArg (List.take P.digestSize) he
  rw [one_block P password salt hd hF, one_block P password salt' hd hF] at this
  exact ⟨fun hc => hne (List.append_cancel_right hc), this⟩
example := C148_pbkdf2_salt ⟨1, fun _ _ => [5]⟩ [1] [2] [3] 1 (by decide) (fun _ => rfl) (by decide) (by decide) (by decide)
  (by decide) (by decide +kernel)

private theorem xor_self_iff (a b : Bytes) (h : a.length = b.length) :
    xorBytes a b = a ↔ b = List.replicate a.length 0 := by
  induction a generalizing b with
  | nil => cases b with
    | nil => simp [xorBytes]
    | cons c b => simp at h
  | cons c a ih =>
    cases b with
    | nil => simp at h
    | cons e b =>
      have h' : a.length = b.length := by simpa using h
      have hx : c ^^^ e = c ↔ e = 0 := by
        constructor
        · intro hh
          have := congrArg (c ^^^ ·) hh
          simpa [← UInt8.xor_assoc] using this
        · rintro rfl; simp
      have := ih b h'
      simp only [xorBytes, List.zipWith_cons_cons, List.cons.injEq, List.length_cons, List.replicate_succ] at *
      rw [this, hx]

/-- C148: one more iteration changes the first block of the derived key unless the next value of the chain is all
zero. -/
theorem C148_pbkdf2_iterations (P : PrfLib) (password salt : Bytes) (iterations : Int) (hd : 0 < P.digestSize)
    (hF : ∀ x, (P.prf password x).length = P.digestSize) (hp : password.length ≤ 63) (h1 : 1 ≤ iterations)
    (hk : P.digestSize ≤ 10000) :
    Model.pbkdf2 true P password salt (iterations + 1) P.digestSize = Model.pbkdf2 true P password salt iterations P.digestSize ↔
      (P.prf password)^[iterations.toNat + 1] (salt ++ [0, 0, 0, 1]) = List.replicate P.digestSize 0 := by
  obtain ⟨c, rfl⟩ : ∃ c : Nat, iterations = c + 1 := ⟨(iterations - 1).toNat, by omega⟩
  rw [C40_pbkdf2_rfc2898 P password salt _ _ hd hF hp (by omega) (by omega),
    C40_pbkdf2_rfc2898 P password salt _ _ hd hF hp (by omega) (by omega), Except.ok.injEq]
  have full : ∀ c, Spec.pbkdf2 (P.prf password) P.digestSize salt c P.digestSize = pbT (P.prf password) salt 1 (c - 1) := by
    intro c
    have := one_block P password salt hd hF 0 c
    rw [Nat.add_zero, Spec.pbkdf2, List.take_take, Nat.min_self] at this
    exact this
  have e1 : (max ((c : Int) + 1 + 1) 1).toNat - 1 = c + 1 := by omega
  have e2 : (max ((c : Int) + 1) 1).toNat - 1 = c := by omega
  have e3 : ((c : Int) + 1).toNat + 1 = c + 2 := by omega
  have e4 : ((P.digestSize : Int)).toNat = P.digestSize := by omega
  rw [e4, full, full, e1, e2, e3]
  have chain : ∀ j, pbU (P.prf password) salt 1 j = (P.prf password)^[j + 1] (salt ++ [0, 0, 0, 1]) := by
    intro j
    induction j with
    | zero => rfl
    | succ j ih => rw [Function.iterate_succ_apply', ← ih]; rfl
  rw [← chain, pbT, xor_self_iff _ _ (by rw [length_pbT _ _ hF, length_pbU _ _ hF]), length_pbT _ _ hF]

-- A hash function that keeps the last octet only: the messages [1, 7] and [2, 7] collide in the inner hash.
example : hmacOnce ⟨4, 1, fun s => [s.getLastD 0]⟩ [9] [1, 7] = hmacOnce ⟨4, 1, fun s => [s.getLastD 0]⟩ [9] [2, 7] := by
  decide
-- A MAC that ignores everything meets the hypotheses of the statements on the PRF and on PBKDF2.
example : prfDot11 (fun _ _ => .ok (List.replicate 20 5)) [1] [2] [3] 160 =
    prfDot11 (fun _ _ => .ok (List.replicate 20 5)) [1] [2, 4] [3] 160 := by decide +kernel
example : Model.pbkdf2 true ⟨1, fun _ _ => [5]⟩ [1] [2] 1 1 = Model.pbkdf2 true ⟨1, fun _ _ => [5]⟩ [1] [3] 1 1 := by decide
example : Model.pbkdf2 true ⟨1, fun _ m => [m.getLastD 0 - 1]⟩ [1] [2] 1 1 ≠
    Model.pbkdf2 true ⟨1, fun _ m => [m.getLastD 0 - 1]⟩ [1] [2] 2 1 := by decide

end Cryptopy
