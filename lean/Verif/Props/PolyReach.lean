import Verif.Props.NonceReuse
import Mathlib.Combinatorics.Additive.CauchyDavenport

/-!
C181: which tags messages under a given key can have.
-/

namespace Cryptopy
open Model Spec

namespace PolyReach

section
variable {q : Nat}

/-- The sum of `polyHash`, in the field. -/
def fieldHash (m : Bytes) (r : ZMod q) : ZMod q :=
  ∑ i ∈ Finset.range (polyBlocks m), (polyCoeff m i : ZMod q) * r ^ (polyBlocks m - i)

theorem blocks_append (b m : Bytes) (hb : b.length = 16) : polyBlocks (b ++ m) = polyBlocks m + 1 := by
  simp only [polyBlocks, List.length_append, hb]; omega

theorem fieldHash_block (b m : Bytes) (hb : b.length = 16) (r : ZMod q) :
    fieldHash (b ++ m) r = (polyCoeff b 0 : ZMod q) * r ^ (polyBlocks m + 1) + fieldHash m r := by
  rw [fieldHash, blocks_append b m hb, Finset.sum_range_succ', add_comm, fieldHash]
  refine congrArg₂ (· + ·) ?_ (Finset.sum_congr rfl fun i _ => ?_)
  · have : polyCoeff (b ++ m) 0 = polyCoeff b 0 := by
      rw [polyCoeff, polyCoeff, Nat.mul_zero, List.drop_zero, List.drop_zero, List.take_left' hb,
        List.take_of_length_le (by omega)]
    rw [Nat.sub_zero, this]
  · have : polyCoeff (b ++ m) (i + 1) = polyCoeff m i := by
      rw [polyCoeff, polyCoeff, Nat.mul_add, Nat.add_comm (16 * i), ← List.drop_drop, List.drop_left' hb]
    rw [Nat.add_sub_add_right, this]

theorem fieldHash_prefix (r : ZMod q) : ∀ (k : Nat) (pre : Bytes) (_ : pre.length = 16 * k) (n : Nat),
    ∃ A, ∀ m, polyBlocks m = n → fieldHash (pre ++ m) r = A + fieldHash m r
  | 0, pre, h, n => ⟨0, fun m _ => by rw [List.length_eq_zero_iff.mp (by omega : pre.length = 0), List.nil_append, zero_add]⟩
  | k + 1, pre, h, n => by
    obtain ⟨A, hA⟩ := fieldHash_prefix r k (pre.drop 16) (by rw [List.length_drop]; omega) n
    refine ⟨(polyCoeff (pre.take 16) 0 : ZMod q) * r ^ (k + n + 1) + A, fun m hm => ?_⟩
    have hs : pre ++ m = pre.take 16 ++ (pre.drop 16 ++ m) := by rw [← List.append_assoc, List.take_append_drop]
    have hn : polyBlocks (pre.drop 16 ++ m) = k + n := by
      rw [← hm]; simp only [polyBlocks, List.length_append, List.length_drop]; omega
    rw [hs, fieldHash_block _ _ (by rw [List.length_take]; omega), hA m hm, hn, ← add_assoc]

/-- The values of one block, `N = 2^128`. -/
def values [NeZero q] (N : Nat) (c : ZMod q) : Finset (ZMod q) :=
  (Finset.range N).image fun v : Nat => ((v + N : Nat) : ZMod q) * c

theorem card_values [Fact q.Prime] (N : Nat) (hN : 2 * N ≤ q) (c : ZMod q) (hc : c ≠ 0) : (values N c).card = N := by
  rw [values, Finset.card_image_of_injOn, Finset.card_range]
  intro v hv w hw h
  have h := mul_right_cancel₀ hc h
  rw [ZMod.natCast_eq_natCast_iff] at h
  simp only [Finset.coe_range, Set.mem_Iio] at hv hw
  have h := h.eq_of_lt_of_lt (by omega) (by omega)
  omega

open scoped Pointwise in
theorem four_values [Fact q.Prime] (N : Nat) (hN : 2 * N ≤ q) (hq : q + 3 ≤ 4 * N) (c₁ c₂ c₃ c₄ : ZMod q) (h₁ : c₁ ≠ 0)
    (h₂ : c₂ ≠ 0) (h₃ : c₃ ≠ 0) (h₄ : c₄ ≠ 0) (x : ZMod q) :
    ∃ a ∈ values N c₁, ∃ b ∈ values N c₂, ∃ c ∈ values N c₃, ∃ d ∈ values N c₄, a + b + c + d = x := by
  have hp : q.Prime := Fact.out
  have ne : ∀ c : ZMod q, c ≠ 0 → (values N c).Nonempty := fun c hc => by
    rw [← Finset.card_pos, card_values N hN c hc]; omega
  have e2 := ZMod.cauchy_davenport hp (ne _ h₁) (ne _ h₂)
  have n2 := (ne _ h₁).add (ne _ h₂)
  have e3 := ZMod.cauchy_davenport hp n2 (ne _ h₃)
  have n3 := n2.add (ne _ h₃)
  have e4 := ZMod.cauchy_davenport hp n3 (ne _ h₄)
  rw [card_values N hN _ h₁, card_values N hN _ h₂] at e2
  rw [card_values N hN _ h₃] at e3
  rw [card_values N hN _ h₄] at e4
  have hc : (values N c₁ + values N c₂ + values N c₃ + values N c₄).card = Fintype.card (ZMod q) := by
    refine le_antisymm (Finset.card_le_univ _) ?_
    rw [ZMod.card]
    omega
  have hm : x ∈ values N c₁ + values N c₂ + values N c₃ + values N c₄ := by
    rw [(Finset.card_eq_iff_eq_univ _).mp hc]; exact Finset.mem_univ x
  obtain ⟨y, hy, d, hd, rfl⟩ := Finset.mem_add.mp hm
  obtain ⟨z, hz, c, hc, rfl⟩ := Finset.mem_add.mp hy
  obtain ⟨a, ha, b, hb, rfl⟩ := Finset.mem_add.mp hz
  exact ⟨a, ha, b, hb, c, hc, d, hd, rfl⟩

theorem mem_values [NeZero q] (N : Nat) (hN : N = 256 ^ 16) (c x : ZMod q) (h : x ∈ values N c) :
    ∃ b : Bytes, b.length = 16 ∧ x = (polyCoeff b 0 : ZMod q) * c := by
  obtain ⟨v, hv, rfl⟩ := Finset.mem_image.mp h
  refine ⟨leBytes 16 v, length_leBytes _ _, ?_⟩
  have : polyCoeff (leBytes 16 v) 0 = v + N := by
    rw [polyCoeff, Nat.mul_zero, List.drop_zero, List.take_of_length_le (by rw [length_leBytes]), leValue_leBytes,
      length_leBytes, ← hN, Nat.mod_eq_of_lt (Finset.mem_range.mp hv), hN]
    rfl
  rw [this]

/-- Every value of the sum is reached by a choice of four blocks. -/
theorem every_value [Fact q.Prime] (N : Nat) (hN' : N = 256 ^ 16) (hN : 2 * N ≤ q) (hq : q + 3 ≤ 4 * N) (r : ZMod q)
    (hr : r ≠ 0) (pre post : Bytes) (hp : pre.length % 16 = 0) (v : ZMod q) :
    ∃ x : Bytes, x.length = 64 ∧ fieldHash (pre ++ x ++ post) r = v := by
  obtain ⟨A, hA⟩ := fieldHash_prefix r (pre.length / 16) pre (by omega) (polyBlocks post + 4)
  have np : ∀ k, r ^ k ≠ 0 := fun k => pow_ne_zero k hr
  obtain ⟨a, ha, b, hb, c, hc, d, hd, e⟩ := four_values N hN hq _ _ _ _ (np (polyBlocks post + 4)) (np (polyBlocks post + 3))
    (np (polyBlocks post + 2)) (np (polyBlocks post + 1)) (v - A - fieldHash post r)
  obtain ⟨a, la, rfl⟩ := mem_values N hN' _ _ ha
  obtain ⟨b, lb, rfl⟩ := mem_values N hN' _ _ hb
  obtain ⟨c, lc, rfl⟩ := mem_values N hN' _ _ hc
  obtain ⟨d, ld, rfl⟩ := mem_values N hN' _ _ hd
  refine ⟨a ++ (b ++ (c ++ d)), by simp [la, lb, lc, ld], ?_⟩
  have hs : pre ++ (a ++ (b ++ (c ++ d))) ++ post = pre ++ (a ++ (b ++ (c ++ (d ++ post)))) := by simp only [List.append_assoc]
  rw [hs, hA _ (by rw [blocks_append _ _ la, blocks_append _ _ lb, blocks_append _ _ lc, blocks_append _ _ ld]),
    fieldHash_block _ _ la, fieldHash_block _ _ lb, fieldHash_block _ _ lc, fieldHash_block _ _ ld, blocks_append _ _ lb,
    blocks_append _ _ lc, blocks_append _ _ ld]
  linear_combination e

end

theorem prime_pos : 0 < P1305 := by decide +kernel

theorem every_hash (r : Nat) (hr : 0 < r) (hlt : r < P1305) (pre post : Bytes) (hp : pre.length % 16 = 0) (v : Nat)
    (hv : v < P1305) : ∃ x : Bytes, x.length = 64 ∧ polyHash (pre ++ x ++ post) r = v := by
  have hr0 : (r : ZMod P1305) ≠ 0 := by
    rw [Ne, ZMod.natCast_eq_zero_iff]
    exact fun h => absurd (Nat.le_of_dvd hr h) (by omega)
  obtain ⟨x, hx, e⟩ := every_value (q := P1305) (256 ^ 16) rfl (by decide +kernel) (by decide +kernel) (r : ZMod P1305) hr0 pre post hp
    (v : ZMod P1305)
  refine ⟨x, hx, ?_⟩
  have hcast : ((polyHash (pre ++ x ++ post) r : Nat) : ZMod P1305) = v := by
    rw [← e, polyHash, ZMod.natCast_mod, fieldHash, Nat.cast_sum]
    exact Finset.sum_congr rfl fun i _ => by rw [Nat.cast_mul, Nat.cast_pow]
  rw [ZMod.natCast_eq_natCast_iff] at hcast
  exact hcast.eq_of_lt_of_lt (Nat.mod_lt _ prime_pos) hv

end PolyReach
open PolyReach

/-- C181: unless the first half of the key is zero after the bits of RFC 7539 section 2.5 are cleared, every string of 16 octets is a tag:
64 octets at any block boundary can be chosen such that the message gets this tag, whatever precedes and follows. -/
theorem C181_every_tag (key pre post t : Bytes) (hk : key.length = 32) (hr : leValue (clampOctets (key.take 16)) ≠ 0)
    (hp : pre.length % 16 = 0) (ht : t.length = 16) :
    ∃ x : Bytes, x.length = 64 ∧ poly1305Mac (pre ++ x ++ post) key = .ok t := by
  have hl : (key.take 16).length = 16 := by rw [List.length_take]; omega
  have hs : (key.drop 16).length = 16 := by rw [List.length_drop]; omega
  have hcl : leValue (clampOctets (key.take 16)) < P1305 := by
    have := leValue_lt (clampOctets (key.take 16))
    rw [show (clampOctets (key.take 16)).length = 16 by rw [clampOctets, List.length_mapIdx, hl]] at this
    exact lt_trans this (by decide +kernel)
  have hs' := leValue_lt (key.drop 16)
  have ht' := leValue_lt t
  rw [hs] at hs'
  rw [ht] at ht'
  have hN : 256 ^ 16 < P1305 := by decide +kernel
  generalize hNe : (256 : Nat) ^ 16 = N at *
  obtain ⟨x, hx, e⟩ := every_hash _ (Nat.pos_of_ne_zero hr) hcl pre post hp ((leValue t + (N - leValue (key.drop 16))) % N)
    (lt_trans (Nat.mod_lt _ (by omega)) hN)
  refine ⟨x, hx, ?_⟩
  rw [C25_poly1305_rfc _ _ hk, poly1305, e]
  congr 1
  rw [← leBytes_leValue (leBytes 16 _), length_leBytes, leValue_leBytes, hNe, Nat.mod_add_mod,
    show leValue t + (N - leValue (key.drop 16)) + leValue (key.drop 16) = leValue t + N by omega, Nat.add_mod_right,
    Nat.mod_eq_of_lt ht', ← ht, leBytes_leValue]
example := C181_every_tag (List.replicate 32 7) (List.replicate 16 1) [1, 2, 3] (List.replicate 16 9) (by decide) (by decide)
  (by decide) (by decide)

/-- C181: the condition on the key is needed: every string of 16 octets is the tag of some message exactly if the first half of the key is
not zero after the bits of RFC 7539 section 2.5 are cleared, and otherwise all messages have one and the same tag. -/
theorem C181_exactly (key : Bytes) (hk : key.length = 32) :
    ((∀ t : Bytes, t.length = 16 → ∃ m, poly1305Mac m key = .ok t) ↔ leValue (clampOctets (key.take 16)) ≠ 0) ∧
    (leValue (clampOctets (key.take 16)) = 0 → ∀ m, poly1305Mac m key = .ok (key.drop 16)) := by
  have hl : (key.take 16).length = 16 := by rw [List.length_take]; omega
  have hz := (C124_weak_keys key hk).2
  rw [C26_clamp_octets _ hl] at hz
  refine ⟨⟨fun h h0 => ?_, fun h t ht => ?_⟩, hz⟩
  · obtain ⟨m, hm⟩ := h (List.replicate 16 0) (by simp)
    obtain ⟨m', hm'⟩ := h (List.replicate 16 1) (by simp)
    rw [hz h0] at hm hm'
    exact absurd (hm.symm.trans hm') (by decide)
  · obtain ⟨x, -, hx⟩ := C181_every_tag key [] [] t hk h rfl ht
    exact ⟨_, hx⟩
example := (C181_exactly (List.replicate 32 7) (by decide)).1.mpr (by decide)

namespace PolyReach

theorem xor_append (a b s : Bytes) : xorBytes (a ++ b) s = xorBytes a (s.take a.length) ++ xorBytes b (s.drop a.length) := by
  induction a generalizing s with
  | nil => simp [xorBytes]
  | cons c a ih =>
    cases s with
    | nil => simp [xorBytes]
    | cons d s =>
      have := ih s
      simp only [xorBytes] at this
      simp only [xorBytes, List.cons_append, List.zipWith_cons_cons, List.length_cons, List.take_succ_cons, List.drop_succ_cons, this]

theorem xor_length (a s : Bytes) (h : a.length ≤ s.length) : (xorBytes a s).length = a.length := by
  rw [xorBytes, List.length_zipWith]; omega

theorem xor_xor (a s : Bytes) (h : a.length ≤ s.length) : xorBytes (xorBytes a s) s = a := by
  induction a generalizing s with
  | nil => simp [xorBytes]
  | cons c a ih =>
    cases s with
    | nil => simp at h
    | cons d s =>
      have := ih s (by simpa using h)
      simp only [xorBytes] at this
      simp only [xorBytes, List.zipWith_cons_cons, this, UInt8.xor_assoc, UInt8.xor_self, UInt8.xor_zero]

theorem pad_length (x : Bytes) : (x ++ Spec.pad16 x).length % 16 = 0 := by
  rw [List.length_append, Spec.pad16, List.length_replicate]; omega

end PolyReach

/-- C181: whoever has the key can give an AEAD message any tag: with any associated data and any plaintext before and after them, 64 octets
at a block boundary of the plaintext can be chosen such that `encrypt` returns the given tag, unless the first half of the one-time key,
the first 16 octets of the block with counter 0, is zero after the bits are cleared. -/
theorem C181_aead (rand1 rand2 : Bytes) (o : Aead) (aad iv pre post t : Bytes) (hk : o.key.length = 32)
    (hn : (o.constant ++ iv).length = 12) (hp : pre.length % 16 = 0) (ht : t.length = 16)
    (hr : leValue (clampOctets ((chachaBlock o.key 0 (o.constant ++ iv)).take 16)) ≠ 0) :
    ∃ x ct : Bytes, x.length = 64 ∧ o.encrypt rand1 rand2 aad iv (pre ++ x ++ post) = .ok (ct, t) := by
  have hnew : ∀ (rand : Bytes) (c : Nat), ChaCha.new rand o.key c (some (o.constant ++ iv)) =
      .ok (initNat o.key c (o.constant ++ iv)) := by
    intro rand c
    have h0 : o.constant ++ iv ≠ [] := by intro h; rw [h] at hn; simp at hn
    simp only [ChaCha.new, if_neg h0]
    exact initialize_eq _ _ c hk hn
  obtain ⟨S, hS⟩ : ∃ S, S = modelStream o.key 1 (o.constant ++ iv) ((pre.length + 64 + post.length + 63) / 64) := ⟨_, rfl⟩
  have hSl : pre.length + 64 + post.length ≤ S.length := by rw [hS, length_modelStream _ _ _ _ hk hn]; omega
  have ho : ((chachaBlock o.key 0 (o.constant ++ iv)).take 32).length = 32 := by rw [List.length_take, length_chachaBlock]; rfl
  -- the parts of the ciphertext
  obtain ⟨c1, hc1⟩ : ∃ c, c = xorBytes pre (S.take pre.length) := ⟨_, rfl⟩
  obtain ⟨c2, hc2⟩ : ∃ c, c = xorBytes post ((S.drop pre.length).drop 64) := ⟨_, rfl⟩
  have l1 : c1.length = pre.length := by rw [hc1, xor_length]; rw [List.length_take]; omega
  have l2 : c2.length = post.length := by rw [hc2, xor_length]; rw [List.length_drop, List.length_drop]; omega
  obtain ⟨pad, hpad⟩ : ∃ p : Bytes, p = List.replicate ((16 - (pre.length + 64 + post.length) % 16) % 16) 0 := ⟨_, rfl⟩
  obtain ⟨y, hy, e⟩ := C181_every_tag ((chachaBlock o.key 0 (o.constant ++ iv)).take 32) (aad ++ Spec.pad16 aad ++ c1)
    (c2 ++ (pad ++ leBytes 8 aad.length ++ leBytes 8 (pre.length + 64 + post.length))) t ho
    (by rw [List.take_take]; exact hr)
    (by have := pad_length aad; rw [List.length_append, l1]; omega) ht
  have hy64 : y.length ≤ ((S.drop pre.length).take 64).length := by rw [List.length_take, List.length_drop]; omega
  refine ⟨xorBytes y ((S.drop pre.length).take 64), c1 ++ y ++ c2, by rw [xor_length _ _ hy64, hy], ?_⟩
  have hx64 : (xorBytes y ((S.drop pre.length).take 64)).length = 64 := by rw [xor_length _ _ hy64, hy]
  have hct : ((initNat o.key 1 (o.constant ++ iv)).encrypt (pre ++ xorBytes y ((S.drop pre.length).take 64) ++ post)).2 =
      c1 ++ y ++ c2 := by
    rw [encrypt_eq _ _ _ hk hn]
    simp only [List.length_append, hx64]
    rw [← hS, List.append_assoc, xor_append, xor_append, hx64, xor_xor _ _ hy64, ← hc1, ← hc2, List.append_assoc]
  rw [aead_core rand1 rand2 o aad iv _ _ _ hk hn hn (hnew rand1) (hnew rand2), hct]
  have hlen : (c1 ++ y ++ c2).length = pre.length + 64 + post.length := by simp only [List.length_append, l1, l2, hy]
  rw [C25_poly1305_rfc _ _ ho] at e
  simp only [hlen, Spec.pad16] at e ⊢
  rw [← hpad]
  simp only [List.append_assoc] at e ⊢
  rw [Except.ok.inj e]

private def reachObject : Aead := { key := List.replicate 32 7, constant := List.replicate 4 1 }

example := C181_aead [] [] reachObject [1] (List.replicate 8 2) (List.replicate 16 3) [5] (List.replicate 16 9) (by decide) (by decide)
  (by decide) (by decide) (by decide +kernel)

end Cryptopy
