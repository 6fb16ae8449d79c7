import Verif.Props.Aead
import Verif.Props.ChaCha

/-!
C122: what two encryptions under one nonce give away; C123: the tag is no protection of `decrypt`; C124: the keys
under which Poly1305 ignores the message.
-/

namespace Cryptopy
open Model Spec

/-- The octet string under the tag, RFC 7539 section 2.8. -/
def tagInput (aad ct : Bytes) : Bytes :=
  aad ++ Spec.pad16 aad ++ ct ++ Spec.pad16 ct ++ leBytes 8 aad.length ++ leBytes 8 ct.length

/-- The possible `r` of a one-time key: numbers of 16 octets with the bits of RFC 7539 section 2.5 clear. -/
def Clamped (r : Nat) : Prop := r < 2 ^ 128 ∧ leValue (clampOctets (leBytes 16 r)) = r

/-- `r` agrees with the tags `t` of `m` and `t'` of `m'`: a condition on data that is sent in the clear. -/
def Agrees (m t m' t' : Bytes) (r : Nat) : Prop :=
  Clamped r ∧ (polyHash m r + leValue t') % 2 ^ 128 = (polyHash m' r + leValue t) % 2 ^ 128

private theorem clamp_of_clamped {r : Nat} (h : Clamped r) : clamp r = r := by
  have e := C26_clamp_octets (leBytes 16 r) (by simp)
  rw [leValue_leBytes, h.2] at e
  rwa [Nat.mod_eq_of_lt (by have := h.1; norm_num at this ⊢; exact this)] at e

open scoped Classical in
private theorem agrees_card (m t m' t' : Bytes) (hne : m ≠ m') (q : Nat) (h1 : m.length ≤ 16 * q)
    (h2 : m'.length ≤ 16 * q) (ht' : t'.length = 16) :
    {r | Agrees m t m' t' r}.Finite ∧ {r | Agrees m t m' t' r}.ncard ≤ 8 * q := by
  have hb := C28_forgery_bound m m' (List.replicate 16 0) hne q h1 h2 (by simp) (leValue t + (2 ^ 128 - leValue t'))
  have hlt : leValue t' < 2 ^ 128 := by
    have := leValue_lt t'
    rw [ht'] at this
    norm_num at this ⊢
    exact this
  have hsub : {r | Agrees m t m' t' r} ⊆ (((Finset.range (2 ^ 128)).filter fun r => clamp r = r ∧
      TagsDiffer m m' (List.replicate 16 0) (leValue t + (2 ^ 128 - leValue t')) r : Finset Nat) : Set Nat) := by
    rintro r ⟨hc, he⟩
    rw [Finset.mem_coe, Finset.mem_filter, Finset.mem_range]
    have hcl := clamp_of_clamped hc
    obtain ⟨u, hu, hv⟩ := tag_value m r (List.replicate 16 0) hc.1 hcl (by simp)
    obtain ⟨u', hu', hv'⟩ := tag_value m' r (List.replicate 16 0) hc.1 hcl (by simp)
    refine ⟨hc.1, hcl, u, u', hu, hu', ?_⟩
    rw [hv, hv', show leValue (List.replicate 16 0) = 0 from rfl]
    generalize polyHash m r = a at *
    generalize polyHash m' r = b at *
    generalize leValue t = x at *
    generalize leValue t' = y at *
    generalize 2 ^ 128 = N at *
    have e1 : (a + y + (N - y)) % N = (b + x + (N - y)) % N := by
      rw [Nat.add_mod, he, ← Nat.add_mod]
    rw [show a + y + (N - y) = a + N by omega, Nat.add_mod_right] at e1
    rw [Nat.add_zero, Nat.add_zero, e1, Nat.mod_add_mod, Nat.add_assoc]
  refine ⟨(Finset.finite_toSet _).subset hsub, ?_⟩
  refine le_trans (Set.ncard_le_ncard hsub (Finset.finite_toSet _)) ?_
  rw [Set.ncard_coe_finset]
  exact hb

private theorem encrypt_value (rand1 rand2 : Bytes) (o : Aead) (aad iv pt ct tag : Bytes)
    (hn : (o.constant ++ iv).length = 12) (h : o.encrypt rand1 rand2 aad iv pt = .ok (ct, tag)) :
    o.key.length = 32 ∧
      ct = xorBytes pt (modelStream o.key 1 (o.constant ++ iv) ((pt.length + 63) / 64)) ∧
      tag = Spec.poly1305 (tagInput aad ct) ((chachaBlock o.key 0 (o.constant ++ iv)).take 32) := by
  have h0 : o.constant ++ iv ≠ [] := by intro h0; rw [h0] at hn; simp at hn
  have hk : o.key.length = 32 := by
    by_contra hk
    simp only [Aead.encrypt, poly1305KeyGen, ChaCha.new, if_neg h0, ChaCha.initialize, if_neg hk] at h
    simp at h
  have hnew : ∀ r c, ChaCha.new r o.key c (some (o.constant ++ iv)) = .ok (initNat o.key c (o.constant ++ iv)) := by
    intro r c
    simp only [ChaCha.new, if_neg h0]
    exact initialize_eq _ _ c hk hn
  rw [aead_core rand1 rand2 o aad iv pt _ _ hk hn hn (hnew _) (hnew _), encrypt_eq _ _ _ hk hn] at h
  simp only [Except.ok.injEq, Prod.mk.injEq] at h
  obtain ⟨h1, h2⟩ := h
  refine ⟨hk, h1.symm, ?_⟩
  rw [← h2, tagInput, h1]

/-- C122: two encryptions under one key and nonce give away the exclusive or of the plaintexts. -/
theorem C122_plaintexts (rand1 rand2 rand1' rand2' : Bytes) (o : Aead) (aad aad' iv pt pt' ct ct' tag tag' : Bytes)
    (hn : (o.constant ++ iv).length = 12) (h : o.encrypt rand1 rand2 aad iv pt = .ok (ct, tag))
    (h' : o.encrypt rand1' rand2' aad' iv pt' = .ok (ct', tag')) : xorBytes ct ct' = xorBytes pt pt' := by
  obtain ⟨hk, e, -⟩ := encrypt_value _ _ o aad iv pt ct tag hn h
  obtain ⟨-, e', -⟩ := encrypt_value _ _ o aad' iv pt' ct' tag' hn h'
  have hnew : ChaCha.new [] o.key 1 (some (o.constant ++ iv)) = .ok (initNat o.key 1 (o.constant ++ iv)) := by
    have h0 : o.constant ++ iv ≠ [] := by intro h0; rw [h0] at hn; simp at hn
    simp only [ChaCha.new, if_neg h0]
    exact initialize_eq _ _ 1 hk hn
  have := C24_keystream_reuse [] o.key pt pt' (some (o.constant ++ iv)) 1 _ hnew
  rw [encrypt_eq _ _ _ hk hn, encrypt_eq _ _ _ hk hn] at this
  rw [e, e']
  exact this
example := C122_plaintexts [] [] [] [] ⟨List.replicate 32 1, [1, 2, 3, 4]⟩ [5] [6] (List.replicate 8 6) [7, 8] [9] _ _ _ _ rfl
  (C30_aead_rfc _ _ _ _ _ _ rfl rfl (by decide)) (C30_aead_rfc _ _ _ _ _ _ rfl rfl (by decide))

private theorem swap_mod (a b s N : Nat) : (a + (b + s) % N) % N = (b + (a + s) % N) % N := by
  rw [Nat.add_mod_mod, Nat.add_mod_mod]
  congr 1
  omega

private theorem swap_mod' (a b s N : Nat) : ((a + s) % N + b) % N = ((b + s) % N + a) % N := by
  rw [Nat.mod_add_mod, Nat.mod_add_mod]
  congr 1
  omega

/-- C122: two encryptions under one key and nonce that differ in ciphertext or associated data leave at most `8 q`
candidates for the secret `r`, `q` bounding the number of 16 octet blocks; with the right one the tag of everything
else under that nonce follows. -/
theorem C122_forgery (rand1 rand2 rand1' rand2' : Bytes) (o : Aead) (aad aad' iv pt pt' ct ct' tag tag' : Bytes)
    (hn : (o.constant ++ iv).length = 12) (h : o.encrypt rand1 rand2 aad iv pt = .ok (ct, tag))
    (h' : o.encrypt rand1' rand2' aad' iv pt' = .ok (ct', tag')) (hne : tagInput aad ct ≠ tagInput aad' ct')
    (q : Nat) (hq : (tagInput aad ct).length ≤ 16 * q) (hq' : (tagInput aad' ct').length ≤ 16 * q) :
    {r | Agrees (tagInput aad ct) tag (tagInput aad' ct') tag' r}.Finite ∧
    {r | Agrees (tagInput aad ct) tag (tagInput aad' ct') tag' r}.ncard ≤ 8 * q ∧
    ∃ r, Agrees (tagInput aad ct) tag (tagInput aad' ct') tag' r ∧
      ∀ rand1'' rand2'' aad'' pt'' ct'' tag'', o.encrypt rand1'' rand2'' aad'' iv pt'' = .ok (ct'', tag'') →
        (leValue tag'' + polyHash (tagInput aad ct) r) % 2 ^ 128 =
          (leValue tag + polyHash (tagInput aad'' ct'') r) % 2 ^ 128 := by
  obtain ⟨hk, -, e⟩ := encrypt_value _ _ o aad iv pt ct tag hn h
  obtain ⟨-, -, e'⟩ := encrypt_value _ _ o aad' iv pt' ct' tag' hn h'
  have htl : tag'.length = 16 := by rw [e', Spec.poly1305]; simp
  obtain ⟨f1, f2⟩ := agrees_card (tagInput aad ct) tag (tagInput aad' ct') tag' hne q hq hq' htl
  refine ⟨f1, f2, ?_⟩
  have hlen : ((chachaBlock o.key 0 (o.constant ++ iv)).take 32).length = 32 := by
    rw [List.length_take, length_chachaBlock]; rfl
  have htag : ∀ m, leValue (Spec.poly1305 m ((chachaBlock o.key 0 (o.constant ++ iv)).take 32)) =
      (polyHash m (leValue (clampOctets (((chachaBlock o.key 0 (o.constant ++ iv)).take 32).take 16))) +
        leValue (((chachaBlock o.key 0 (o.constant ++ iv)).take 32).drop 16)) % 2 ^ 128 := by
    intro m
    rw [Spec.poly1305, leValue_leBytes]
    norm_num
  have hcl : Clamped (leValue (clampOctets (((chachaBlock o.key 0 (o.constant ++ iv)).take 32).take 16))) := by
    have h16 : (((chachaBlock o.key 0 (o.constant ++ iv)).take 32).take 16).length = 16 := by
      rw [List.length_take, hlen]; rfl
    generalize ((chachaBlock o.key 0 (o.constant ++ iv)).take 32).take 16 = b at h16
    have hid := (C26_clamp_idempotent (leValue b)).1
    have hlt := (C26_clamp_idempotent (leValue b)).2
    rw [← C26_clamp_octets b h16]
    have hlt' : clamp (leValue b) < 2 ^ 128 := hlt.trans (by norm_num)
    refine ⟨hlt', ?_⟩
    rw [← C26_clamp_octets _ (by simp), leValue_leBytes, Nat.mod_eq_of_lt (by norm_num at hlt' ⊢; exact hlt'), hid]
  obtain ⟨r, hr⟩ : ∃ r, r = leValue (clampOctets (((chachaBlock o.key 0 (o.constant ++ iv)).take 32).take 16)) := ⟨_, rfl⟩
  obtain ⟨s, hs⟩ : ∃ s, s = leValue (((chachaBlock o.key 0 (o.constant ++ iv)).take 32).drop 16) := ⟨_, rfl⟩
  rw [← hr] at hcl
  simp only [← hr, ← hs] at htag
  refine ⟨r, ⟨hcl, ?_⟩, ?_⟩
  · rw [e, e', htag, htag]
    exact swap_mod _ _ _ _
  · intro rand1'' rand2'' aad'' pt'' ct'' tag'' h''
    obtain ⟨-, -, e''⟩ := encrypt_value _ _ o aad'' iv pt'' ct'' tag'' hn h''
    rw [e, e'', htag, htag]
    exact swap_mod' _ _ _ _

/-- C122: the hypothesis on the octets under the tag means different associated data or ciphertexts. -/
theorem C122_distinct (a c a' c' : Bytes) (ha : a.length < 2 ^ 64) (hc : c.length < 2 ^ 64) (ha' : a'.length < 2 ^ 64)
    (hc' : c'.length < 2 ^ 64) : tagInput a c = tagInput a' c' ↔ a = a' ∧ c = c' := by
  constructor
  · intro h
    refine C33_mac_input_injective a c a' c' ha hc ha' hc' ?_
    rw [macData_eq, macData_eq]; exact h
  · rintro ⟨rfl, rfl⟩; rfl
example := C122_distinct [1] [2] [1, 2] [] (by decide) (by decide) (by decide) (by decide)

private theorem xorBytes_assoc' (a b c : Bytes) : xorBytes (xorBytes a b) c = xorBytes (xorBytes a c) b := by
  induction a generalizing b c with
  | nil => rfl
  | cons x a ih =>
    cases b with
    | nil => cases c <;> rfl
    | cons y b =>
      cases c with
      | nil => rfl
      | cons z c =>
        change (x ^^^ y ^^^ z) :: xorBytes (xorBytes a b) c = (x ^^^ z ^^^ y) :: xorBytes (xorBytes a c) b
        rw [ih, UInt8.xor_assoc, UInt8.xor_comm y z, ← UInt8.xor_assoc]

/-- C123: flipping bits of a ciphertext flips the same bits of the plaintext that `decrypt` returns. -/
theorem C123_malleable (rand1 rand2 rand1' rand2' : Bytes) (o : Aead) (aad aad' iv pt ct tag d : Bytes)
    (hn : (o.constant ++ iv).length = 12) (h : o.encrypt rand1 rand2 aad iv pt = .ok (ct, tag))
    (hd : d.length = ct.length) :
    ∃ tag', o.decrypt rand1' rand2' aad' iv (xorBytes ct d) = .ok (xorBytes pt d, tag') := by
  obtain ⟨hk, e, -⟩ := encrypt_value _ _ o aad iv pt ct tag hn h
  have hl := length_modelStream o.key (o.constant ++ iv) 1 ((pt.length + 63) / 64) hk hn
  have hct : ct.length = pt.length := by rw [e, length_xorBytes]; omega
  have hx : (xorBytes pt d).length = pt.length := by rw [length_xorBytes]; omega
  obtain ⟨c2, t2, h2⟩ : ∃ c2 t2, o.encrypt rand1 rand2 aad iv (xorBytes pt d) = .ok (c2, t2) := by
    obtain ⟨p, hp, -⟩ := C32_decrypt_no_authentication rand1 rand2 o aad iv (xorBytes pt d) hk hn
    exact ⟨_, _, hp⟩
  obtain ⟨-, e2, -⟩ := encrypt_value _ _ o aad iv _ c2 t2 hn h2
  obtain ⟨t3, h3⟩ := C31_aead_decrypt_recovers rand1 rand2 rand1' rand2' o aad aad' iv _ c2 t2 hn h2
  have : c2 = xorBytes ct d := by rw [e2, e, hx, xorBytes_assoc']
  exact ⟨t3, by rw [← this]; exact h3⟩
example := C123_malleable [] [] [] [] ⟨List.replicate 32 1, [1, 2, 3, 4]⟩ [5] [6] (List.replicate 8 6) [7, 8] _ _ [0, 0x80] rfl
  (C30_aead_rfc _ _ _ _ _ _ rfl rfl (by decide)) (by decide +kernel)

private theorem weak_arith (a b r s : Nat) (ha : a < 1361129467683753853853498429727072845819)
    (hb : b < 1361129467683753853853498429727072845819) (hr : r < 21267647932558653966460912964485513216)
    (h : (a + r) % 1361129467683753853853498429727072845819 = b)
    (he : (a + s) % 340282366920938463463374607431768211456 = (b + s) % 340282366920938463463374607431768211456) :
    r = 0 := by
  have h1 : a + r = b ∨ a + r = b + 1361129467683753853853498429727072845819 := by
    rw [← h]
    rcases Nat.lt_or_ge (a + r) 1361129467683753853853498429727072845819 with h2 | h2
    · left; rw [Nat.mod_eq_of_lt h2]
    · right; rw [Nat.mod_eq_sub_mod h2, Nat.mod_eq_of_lt (by omega)]; omega
  rcases h1 with h1 | h1
  · subst h1; omega
  · omega

/-- C124: the tag under a 32 octet key does not depend on the message exactly if the bits that `clamp` keeps of the
first half are all 0; it is then the second half of the key. -/
theorem C124_weak_keys (key : Bytes) (hk : key.length = 32) :
    ((∀ m m', poly1305Mac m key = poly1305Mac m' key) ↔ clamp (leValue (key.take 16)) = 0) ∧
    (clamp (leValue (key.take 16)) = 0 → ∀ m, poly1305Mac m key = .ok (key.drop 16)) := by
  have hz : clamp (leValue (key.take 16)) = 0 → ∀ m, poly1305Mac m key = .ok (key.drop 16) := by
    intro h m
    rw [poly1305Mac_eq m key (by omega), h]
    have hp : polyHash m 0 = 0 := by
      rw [polyHash]
      have : ∀ i ∈ Finset.range (polyBlocks m), polyCoeff m i * 0 ^ (polyBlocks m - i) = 0 := by
        intro i hi
        rw [zero_pow (by have := Finset.mem_range.mp hi; omega), Nat.mul_zero]
      rw [Finset.sum_eq_zero this]
      rfl
    rw [hp, Nat.zero_add, List.take_of_length_le (by omega)]
    have := leBytes_leValue (key.drop 16)
    rw [List.length_drop, hk] at this
    rw [this]
  refine ⟨⟨?_, fun h m m' => by rw [hz h, hz h]⟩, hz⟩
  intro h
  have h01 := h [0] [1]
  rw [poly1305Mac_eq _ key (by omega), poly1305Mac_eq _ key (by omega)] at h01
  have h01 := congrArg leValue (Except.ok.inj h01)
  rw [leValue_leBytes, leValue_leBytes] at h01
  have hr := (C26_clamp_idempotent (leValue (key.take 16))).2
  generalize clamp (leValue (key.take 16)) = r at *
  generalize leValue ((key.take 32).drop 16) = s at *
  have e0 : polyHash [0] r = 256 * r % P1305 := by
    rw [polyHash, show polyBlocks [0] = 1 from rfl, Finset.sum_range_one,
      show polyCoeff [0] 0 = 256 from rfl, pow_one]
  have e1 : polyHash [1] r = 257 * r % P1305 := by
    rw [polyHash, show polyBlocks [1] = 1 from rfl, Finset.sum_range_one,
      show polyCoeff [1] 0 = 257 from rfl, pow_one]
  have key := weak_arith (256 * r % 1361129467683753853853498429727072845819)
    (257 * r % 1361129467683753853853498429727072845819) r s (Nat.mod_lt _ (by norm_num)) (Nat.mod_lt _ (by norm_num))
    (by norm_num at hr; exact hr)
    (by rw [← Nat.mod_add_mod, show 257 * r = 256 * r + r by ring]; simp)
  rw [e0, e1, show P1305 = 1361129467683753853853498429727072845819 from rfl] at h01
  norm_num at h01
  exact key h01

/-- Two encryptions under one nonce that meet the hypotheses of `C122_forgery`. -/
example : ∃ (o : Aead) (ct tag ct' tag' : Bytes), o.encrypt [] [] [5] (List.replicate 8 6) [7, 8] = .ok (ct, tag) ∧
    o.encrypt [] [] [6] (List.replicate 8 6) [9] = .ok (ct', tag') ∧ tagInput [5] ct ≠ tagInput [6] ct' := by
  refine ⟨⟨List.replicate 32 1, [1, 2, 3, 4]⟩, _, _, _, _, C30_aead_rfc _ _ _ _ _ _ rfl rfl (by decide),
    C30_aead_rfc _ _ _ _ _ _ rfl rfl (by decide), ?_⟩
  intro h
  have := congrArg (fun l => List.getD l 0 0) h
  simp [tagInput] at this

/-- A key whose first half is not zero and that `clamp` turns into the weak one. -/
example : poly1305Mac [1, 2, 3] ([0, 0, 0, 0xf0, 3, 0, 0, 0, 0, 0, 0, 0, 0, 0, 0, 0] ++ List.replicate 16 9) =
    .ok (List.replicate 16 9) :=
  (C124_weak_keys _ rfl).2 (by decide) _

/-- C96: the numbers that `poly1305_mac` makes of the blocks of a message, each followed by the octet 1, are elements of the field
other than 0, different blocks (also of different lengths) giving different elements; and so are the values of `r`, except for 0. -/
theorem C96_domain :
    (∀ b b' : Bytes, b.length ≤ 16 → b'.length ≤ 16 →
      ∃ v v' : Nat, leBytesToNum (b ++ [1]) = .ok v ∧ leBytesToNum (b' ++ [1]) = .ok v' ∧
        ((v : ZMod (2 ^ 130 - 5)) ≠ 0) ∧ ((v : ZMod (2 ^ 130 - 5)) = v' → b = b')) ∧
    (∀ r r' : Nat, (clamp r : ZMod (2 ^ 130 - 5)) = clamp r' → clamp r = clamp r') := by
  have num : ∀ b : Bytes, b.length ≤ 16 → leBytesToNum (b ++ [1]) = .ok (polyCoeff b 0) ∧ (b.drop (16 * 0)).take 16 = b := by
    intro b hb
    have h1 : (b.drop (16 * 0)).take 16 = b := by
      rw [Nat.mul_zero, List.drop_zero, List.take_of_length_le hb]
    refine ⟨?_, h1⟩
    rw [leBytesToNum_eq, if_neg (by simp), polyCoeff, h1, leValue_append, show (256 : Nat) = 2 ^ 8 by rfl, ← pow_mul]
    simp [leValue]
  have small : ∀ v : Nat, v < 2 ^ 130 - 5 → ∀ w : Nat, w < 2 ^ 130 - 5 → (v : ZMod (2 ^ 130 - 5)) = w → v = w := by
    intro v hv w hw h
    rw [ZMod.natCast_eq_natCast_iff] at h
    exact Nat.ModEq.eq_of_lt_of_lt h hv hw
  have hP : P1305 = 2 ^ 130 - 5 := by decide +kernel
  refine ⟨fun b b' hb hb' => ?_, fun r r' h => ?_⟩
  · obtain ⟨n1, n2⟩ := num b hb
    obtain ⟨n1', n2'⟩ := num b' hb'
    refine ⟨_, _, n1, n1', fun h => ?_, fun h => ?_⟩
    · have := small _ (hP ▸ polyCoeff_lt b 0) 0 (by norm_num) (by rw [h, Nat.cast_zero])
      have := polyCoeff_pos b 0
      omega
    · rw [← n2, ← n2', block_of_polyCoeff (small _ (hP ▸ polyCoeff_lt b 0) _ (hP ▸ polyCoeff_lt b' 0) h)]
  · have l : ∀ r, clamp r < 2 ^ 130 - 5 := fun r => by
      have := (C26_clamp_idempotent r).2
      norm_num at this ⊢
      omega
    exact small _ (l r) _ (l r') h

end Cryptopy
