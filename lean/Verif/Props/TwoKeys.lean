import Verif.Props.PolyReach
import Verif.Lemmas.TwoSums

/-!
C184: one ciphertext and tag for two keys.
-/

namespace Cryptopy
open Model Spec PolyReach

section
variable {q : Nat}

private theorem blocks_append_left (y post : Bytes) (n : Nat) (hy : y.length = 16 * n) : polyBlocks (y ++ post) = n + polyBlocks post := by
  simp only [polyBlocks, List.length_append, hy]; omega

/-- Blocks in front of two messages, for the sums of `TwoSums`. -/
private theorem blocks_of_sum [Fact q.Prime] (N : Nat) (hN : N = 256 ^ 16) (r r' : ZMod q) (post post' : Bytes) (n : Nat)
    (s : ZMod q × ZMod q)
    (hs : s ∈ TwoSums.sums (values N 1) (fun i => r ^ (polyBlocks post + i + 1)) (fun i => r' ^ (polyBlocks post' + i + 1)) n) :
    ∃ y : Bytes, y.length = 16 * n ∧ fieldHash (y ++ post) r = s.1 + fieldHash post r ∧
      fieldHash (y ++ post') r' = s.2 + fieldHash post' r' := by
  induction n generalizing s with
  | zero =>
    rw [Finset.mem_singleton.mp hs]
    exact ⟨[], rfl, by simp, by simp⟩
  | succ n ih =>
    obtain ⟨u, hu, a, ha, rfl⟩ := Finset.mem_image₂.mp hs
    obtain ⟨y, hy, h1, h2⟩ := ih u hu
    obtain ⟨b, hb, rfl⟩ := mem_values N hN _ _ ha
    refine ⟨b ++ y, by rw [List.length_append, hb, hy]; ring, ?_, ?_⟩
    · rw [List.append_assoc, fieldHash_block _ _ hb, h1, blocks_append_left _ _ n hy, Nat.add_comm n]
      ring
    · rw [List.append_assoc, fieldHash_block _ _ hb, h2, blocks_append_left _ _ n hy, Nat.add_comm n]
      ring

/-- Every pair of values of the two sums is reached by a choice of 96 blocks. -/
private theorem every_pair [Fact q.Prime] (N : Nat) (hN : N = 256 ^ 16) (hq : q + 5 = 4 * N) (r r' : ZMod q) (hr : r ≠ 0)
    (hr' : r' ≠ 0) (hne : r ≠ r') (pre pre' post post' : Bytes) (hp : pre.length % 16 = 0) (hp' : pre'.length % 16 = 0) (v v' : ZMod q) :
    ∃ x : Bytes, x.length = 1536 ∧ fieldHash (pre ++ x ++ post) r = v ∧ fieldHash (pre' ++ x ++ post') r' = v' := by
  have hN2 : 2 ≤ N := by rw [hN]; decide
  obtain ⟨k, hk⟩ : ∃ k, k = 48 := ⟨_, rfl⟩
  obtain ⟨A, hA⟩ := fieldHash_prefix r (pre.length / 16) pre (by omega) (k + k + polyBlocks post)
  obtain ⟨A', hA'⟩ := fieldHash_prefix r' (pre'.length / 16) pre' (by omega) (k + k + polyBlocks post')
  have hm := TwoSums.all (values N (1 : ZMod q)) (fun i => r ^ (polyBlocks post + i + 1)) (fun i => r' ^ (polyBlocks post' + i + 1)) N hN2
    hq (card_values N (by omega) 1 one_ne_zero) (fun n => by
      have : r ^ (polyBlocks post + n + 1) * r' ^ (polyBlocks post' + (n + 1) + 1) -
          r' ^ (polyBlocks post' + n + 1) * r ^ (polyBlocks post + (n + 1) + 1) =
          r ^ (polyBlocks post + n + 1) * r' ^ (polyBlocks post' + n + 1) * (r' - r) := by ring
      rw [this]
      exact mul_ne_zero (mul_ne_zero (pow_ne_zero _ hr) (pow_ne_zero _ hr')) (sub_ne_zero.mpr hne.symm))
    (v - A - fieldHash post r, v' - A' - fieldHash post' r') k hk
  obtain ⟨y, hy, h1, h2⟩ := blocks_of_sum N hN r r' post post' _ _ hm
  refine ⟨y, by omega, ?_, ?_⟩
  · rw [List.append_assoc, hA _ (blocks_append_left _ _ _ hy), h1]; ring
  · rw [List.append_assoc, hA' _ (blocks_append_left _ _ _ hy), h2]; ring

end

private theorem two_hashes (r r' : Nat) (hr : 0 < r) (hlt : r < P1305) (hr' : 0 < r') (hlt' : r' < P1305) (hne : r ≠ r')
    (pre pre' post post' : Bytes) (hp : pre.length % 16 = 0) (hp' : pre'.length % 16 = 0) (v v' : Nat)
    (hv : v < P1305) (hv' : v' < P1305) :
    ∃ x : Bytes, x.length = 1536 ∧ polyHash (pre ++ x ++ post) r = v ∧ polyHash (pre' ++ x ++ post') r' = v' := by
  have h0 : ∀ r : Nat, 0 < r → r < P1305 → (r : ZMod P1305) ≠ 0 := by
    intro r hr hlt
    rw [Ne, ZMod.natCast_eq_zero_iff]
    exact fun h => absurd (Nat.le_of_dvd hr h) (by omega)
  have hne' : (r : ZMod P1305) ≠ r' := by
    intro h
    rw [ZMod.natCast_eq_natCast_iff] at h
    exact hne (h.eq_of_lt_of_lt hlt hlt')
  obtain ⟨x, hx, e, e'⟩ := every_pair (q := P1305) (256 ^ 16) rfl (by decide +kernel) (r : ZMod P1305) (r' : ZMod P1305) (h0 r hr hlt)
    (h0 r' hr' hlt') hne' pre pre' post post' hp hp' (v : ZMod P1305) (v' : ZMod P1305)
  have hcast : ∀ (m : Bytes) (r v : Nat), v < P1305 → fieldHash m (r : ZMod P1305) = (v : ZMod P1305) → polyHash m r = v := by
    intro m r v hv e
    have hc : ((polyHash m r : Nat) : ZMod P1305) = v := by
      rw [← e, polyHash, ZMod.natCast_mod, fieldHash, Nat.cast_sum]
      exact Finset.sum_congr rfl fun i _ => by rw [Nat.cast_mul, Nat.cast_pow]
    rw [ZMod.natCast_eq_natCast_iff] at hc
    exact hc.eq_of_lt_of_lt (Nat.mod_lt _ prime_pos) hv
  exact ⟨x, hx, hcast _ _ _ hv e, hcast _ _ _ hv' e'⟩

private theorem clamped_lt (key : Bytes) (hk : key.length = 32) : leValue (clampOctets (key.take 16)) < P1305 := by
  have := leValue_lt (clampOctets (key.take 16))
  rw [show (clampOctets (key.take 16)).length = 16 by rw [clampOctets, List.length_mapIdx, List.length_take]; omega] at this
  exact lt_trans this (by decide +kernel)

/-- The sum that gives the tag. -/
private theorem sum_for_tag (key t : Bytes) (hk : key.length = 32) (ht : t.length = 16) :
    ∃ v, v < P1305 ∧ ∀ m, polyHash m (leValue (clampOctets (key.take 16))) = v → poly1305Mac m key = .ok t := by
  have hs : (key.drop 16).length = 16 := by rw [List.length_drop]; omega
  have hs' := leValue_lt (key.drop 16)
  have ht' := leValue_lt t
  rw [hs] at hs'
  rw [ht] at ht'
  have hN : 256 ^ 16 < P1305 := by decide +kernel
  generalize hNe : (256 : Nat) ^ 16 = N at *
  refine ⟨(leValue t + (N - leValue (key.drop 16))) % N, lt_trans (Nat.mod_lt _ (by omega)) hN, fun m e => ?_⟩
  rw [C25_poly1305_rfc _ _ hk, poly1305, e]
  congr 1
  rw [← leBytes_leValue (leBytes 16 _), length_leBytes, leValue_leBytes, hNe, Nat.mod_add_mod,
    show leValue t + (N - leValue (key.drop 16)) + leValue (key.drop 16) = leValue t + N by omega, Nat.add_mod_right,
    Nat.mod_eq_of_lt ht', ← ht, leBytes_leValue]

/-- C184: for two keys whose first halves, after the bits of RFC 7539 section 2.5 are cleared, are different and not zero, 1536 octets can
be chosen such that two messages that contain them at a block boundary get any two given tags, one under each key. -/
theorem C184_two_tags (key key' pre pre' post post' t t' : Bytes) (hk : key.length = 32) (hk' : key'.length = 32)
    (hr : leValue (clampOctets (key.take 16)) ≠ 0) (hr' : leValue (clampOctets (key'.take 16)) ≠ 0)
    (hne : leValue (clampOctets (key.take 16)) ≠ leValue (clampOctets (key'.take 16)))
    (hp : pre.length % 16 = 0) (hp' : pre'.length % 16 = 0) (ht : t.length = 16) (ht' : t'.length = 16) :
    ∃ x : Bytes, x.length = 1536 ∧ poly1305Mac (pre ++ x ++ post) key = .ok t ∧ poly1305Mac (pre' ++ x ++ post') key' = .ok t' := by
  obtain ⟨v, hv, h⟩ := sum_for_tag key t hk ht
  obtain ⟨v', hv', h'⟩ := sum_for_tag key' t' hk' ht'
  obtain ⟨x, hx, e, e'⟩ := two_hashes _ _ (Nat.pos_of_ne_zero hr) (clamped_lt key hk) (Nat.pos_of_ne_zero hr') (clamped_lt key' hk') hne
    pre pre' post post' hp hp' v v' hv hv'
  exact ⟨x, hx, h _ e, h' _ e'⟩
example := C184_two_tags (List.replicate 32 7) (List.replicate 32 8) (List.replicate 16 1) [] [1, 2, 3] [4] (List.replicate 16 9)
  (List.replicate 16 9) (by decide) (by decide) (by decide) (by decide) (by decide) (by decide) (by decide) (by decide) (by decide)

/-- C184: exactly then: all pairs of tags occur for one message if and only if the first halves of the keys are different and not zero
after the bits are cleared. -/
theorem C184_exactly (key key' : Bytes) (hk : key.length = 32) (hk' : key'.length = 32) :
    (∀ t t' : Bytes, t.length = 16 → t'.length = 16 → ∃ m, poly1305Mac m key = .ok t ∧ poly1305Mac m key' = .ok t') ↔
      leValue (clampOctets (key.take 16)) ≠ 0 ∧ leValue (clampOctets (key'.take 16)) ≠ 0 ∧
        leValue (clampOctets (key.take 16)) ≠ leValue (clampOctets (key'.take 16)) := by
  constructor
  · intro h
    refine ⟨fun h0 => ?_, fun h0 => ?_, fun h0 => ?_⟩
    · exact ((C181_exactly key hk).1.mp fun t ht => (h t t ht ht).imp fun m hm => hm.1) h0
    · exact ((C181_exactly key' hk').1.mp fun t ht => (h t t ht ht).imp fun m hm => hm.2) h0
    · obtain ⟨m, hm, hm'⟩ := h (List.replicate 16 0) (List.replicate 16 0) (by simp) (by simp)
      obtain ⟨n, hn, hn'⟩ := h (List.replicate 16 0) (List.replicate 16 1) (by simp) (by simp)
      rw [C25_poly1305_rfc _ _ hk, poly1305] at hm hn
      rw [C25_poly1305_rfc _ _ hk', poly1305, ← h0] at hm' hn'
      have e := (Except.ok.inj hm).trans (Except.ok.inj hn).symm
      have e' : leBytes 16 _ ≠ leBytes 16 _ := fun h => absurd ((Except.ok.inj hm').symm.trans (h.trans (Except.ok.inj hn'))) (by decide)
      refine e' ?_
      have key2 : ∀ a b s s' : Nat, leBytes 16 (a + s) = leBytes 16 (b + s) → leBytes 16 (a + s') = leBytes 16 (b + s') := by
        intro a b s s' h
        have h2 := congrArg leValue h
        rw [leValue_leBytes, leValue_leBytes] at h2
        have h3 : a + s' ≡ b + s' [MOD 256 ^ 16] := (Nat.ModEq.add_right_cancel' s h2).add_right s'
        rw [← leBytes_leValue (leBytes 16 (a + s')), ← leBytes_leValue (leBytes 16 (b + s')), length_leBytes, length_leBytes,
          leValue_leBytes, leValue_leBytes, h3]
      exact key2 _ _ _ _ e
  · rintro ⟨h1, h2, h3⟩ t t' ht ht'
    obtain ⟨x, -, h⟩ := C184_two_tags key key' [] [] [] [] t t' hk hk' h1 h2 h3 rfl rfl ht ht'
    exact ⟨_, h⟩
example := (C184_exactly (List.replicate 32 7) (List.replicate 32 8) (by decide) (by decide)).mpr (by decide)

/-- Every string is the ciphertext of some plaintext. -/
theorem PolyReach.encrypt_onto (rand1 rand2 : Bytes) (o : Aead) (aad iv ct : Bytes) (hk : o.key.length = 32)
    (hn : (o.constant ++ iv).length = 12) :
    ∃ pt, o.encrypt rand1 rand2 aad iv pt =
      .ok (ct, Spec.poly1305 (aad ++ Spec.pad16 aad ++ ct ++ Spec.pad16 ct ++ leBytes 8 aad.length ++ leBytes 8 ct.length)
        ((chachaBlock o.key 0 (o.constant ++ iv)).take 32)) := by
  have hnew : ∀ (rand : Bytes) (c : Nat), ChaCha.new rand o.key c (some (o.constant ++ iv)) =
      .ok (initNat o.key c (o.constant ++ iv)) := by
    intro rand c
    have h0 : o.constant ++ iv ≠ [] := by intro h; rw [h] at hn; simp at hn
    simp only [ChaCha.new, if_neg h0]
    exact initialize_eq _ _ c hk hn
  obtain ⟨S, hS⟩ : ∃ S, S = modelStream o.key 1 (o.constant ++ iv) ((ct.length + 63) / 64) := ⟨_, rfl⟩
  have hSl : ct.length ≤ S.length := by rw [hS, length_modelStream _ _ _ _ hk hn]; omega
  refine ⟨xorBytes ct S, ?_⟩
  have hct : ((initNat o.key 1 (o.constant ++ iv)).encrypt (xorBytes ct S)).2 = ct := by
    rw [encrypt_eq _ _ _ hk hn, xor_length _ _ hSl, ← hS, xor_xor _ _ hSl]
  rw [aead_core rand1 rand2 o aad iv _ _ _ hk hn hn (hnew rand1) (hnew rand2), hct]

/-- C184: an AEAD ciphertext and tag do not fix the key: for two objects, two nonces and two associated data, any beginning and end of a
ciphertext and any two tags, 1536 octets between them can be chosen such that each object returns the same ciphertext, with its tag,
for a plaintext of its own, which it gets back from `decrypt`; provided that the two one-time keys are as in `C184_two_tags`. -/
theorem C184_aead (rand1 rand2 rand1' rand2' : Bytes) (o o' : Aead) (aad aad' iv iv' c1 c2 t t' : Bytes) (hk : o.key.length = 32)
    (hk' : o'.key.length = 32) (hn : (o.constant ++ iv).length = 12) (hn' : (o'.constant ++ iv').length = 12)
    (hc : c1.length % 16 = 0) (ht : t.length = 16) (ht' : t'.length = 16)
    (hr : leValue (clampOctets ((chachaBlock o.key 0 (o.constant ++ iv)).take 16)) ≠ 0)
    (hr' : leValue (clampOctets ((chachaBlock o'.key 0 (o'.constant ++ iv')).take 16)) ≠ 0)
    (hne : leValue (clampOctets ((chachaBlock o.key 0 (o.constant ++ iv)).take 16)) ≠
      leValue (clampOctets ((chachaBlock o'.key 0 (o'.constant ++ iv')).take 16))) :
    ∃ x pt pt' : Bytes, x.length = 1536 ∧
      o.encrypt rand1 rand2 aad iv pt = .ok (c1 ++ x ++ c2, t) ∧ o'.encrypt rand1' rand2' aad' iv' pt' = .ok (c1 ++ x ++ c2, t') ∧
      (∃ u, o.decrypt rand1 rand2 aad iv (c1 ++ x ++ c2) = .ok (pt, u)) ∧
      ∃ u, o'.decrypt rand1' rand2' aad' iv' (c1 ++ x ++ c2) = .ok (pt', u) := by
  have ho : ∀ (k n : Bytes), ((chachaBlock k 0 n).take 32).length = 32 := by
    intro k n; rw [List.length_take, length_chachaBlock]; rfl
  have htt : ∀ b : Bytes, (b.take 32).take 16 = b.take 16 := fun b => by rw [List.take_take]; rfl
  obtain ⟨l, hl⟩ : ∃ l, l = c1.length + 1536 + c2.length := ⟨_, rfl⟩
  obtain ⟨e, he⟩ : ∃ e : Bytes → Bytes, ∀ aad, e aad = c2 ++ (List.replicate ((16 - l % 16) % 16) 0 ++ leBytes 8 aad.length ++ leBytes 8 l) :=
    ⟨_, fun _ => rfl⟩
  obtain ⟨x, hx, e1, e2⟩ := C184_two_tags ((chachaBlock o.key 0 (o.constant ++ iv)).take 32)
    ((chachaBlock o'.key 0 (o'.constant ++ iv')).take 32) (aad ++ Spec.pad16 aad ++ c1) (aad' ++ Spec.pad16 aad' ++ c1)
    (e aad) (e aad') t t' (ho _ _) (ho _ _) (by rw [htt]; exact hr) (by rw [htt]; exact hr') (by rw [htt, htt]; exact hne)
    (by have := pad_length aad; rw [List.length_append]; omega) (by have := pad_length aad'; rw [List.length_append]; omega) ht ht'
  have hlen : (c1 ++ x ++ c2).length = l := by simp only [List.length_append, hx, hl]
  obtain ⟨pt, h1⟩ := encrypt_onto rand1 rand2 o aad iv (c1 ++ x ++ c2) hk hn
  obtain ⟨pt', h2⟩ := encrypt_onto rand1' rand2' o' aad' iv' (c1 ++ x ++ c2) hk' hn'
  have hin : ∀ aad : Bytes, aad ++ Spec.pad16 aad ++ (c1 ++ x ++ c2) ++ Spec.pad16 (c1 ++ x ++ c2) ++ leBytes 8 aad.length ++
      leBytes 8 (c1 ++ x ++ c2).length = aad ++ Spec.pad16 aad ++ c1 ++ x ++ e aad := by
    intro aad
    rw [he, Spec.pad16, Spec.pad16, hlen]
    simp only [List.append_assoc]
  rw [C25_poly1305_rfc _ _ (ho _ _)] at e1 e2
  rw [hin, Except.ok.inj e1] at h1
  rw [hin, Except.ok.inj e2] at h2
  exact ⟨x, pt, pt', hx, h1, h2, C31_aead_decrypt_recovers _ _ _ _ _ _ _ _ _ _ _ hn h1, C31_aead_decrypt_recovers _ _ _ _ _ _ _ _ _ _ _ hn' h2⟩

private def firstObject : Aead := { key := List.replicate 32 7, constant := List.replicate 4 1 }
private def secondObject : Aead := { key := List.replicate 32 8, constant := List.replicate 4 1 }

example := C184_aead [] [] [] [] firstObject secondObject [1] [2, 3] (List.replicate 8 2) (List.replicate 8 2) (List.replicate 16 3) [5]
  (List.replicate 16 9) (List.replicate 16 9) (by decide) (by decide) (by decide) (by decide) (by decide) (by decide) (by decide)
  (by decide +kernel) (by decide +kernel) (by decide +kernel)

end Cryptopy
