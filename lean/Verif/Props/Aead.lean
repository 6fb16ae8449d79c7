import Verif.Lemmas.Poly1305

/-!
Properties C25 to C35 and C96: Poly1305 and the ChaCha20-Poly1305 AEAD classes.
-/

namespace Cryptopy
open Model (ChaCha Aead leBytesToNum numToLeBytes poly1305Mac poly1305KeyGen clamp)
open Spec (leValue leBytes clampOctets polyHash polyBlocks P1305 chachaBlock chachaEncrypt xorBytes)

/-- C25: `poly1305_mac` is the RFC 7539 polynomial for every message and every 32 octet key. -/
theorem C25_poly1305_rfc (m key : Bytes) (hk : key.length = 32) :
    poly1305Mac m key = .ok (Spec.poly1305 m key) := by
  rw [poly1305Mac_eq m key (by omega), clamp_eq _ (by simp; omega), Spec.poly1305,
    List.take_of_length_le (by omega : key.length ≤ 32)]

/-- The test vector of RFC 7539 section 2.5.2. -/
example : poly1305Mac
    [0x43, 0x72, 0x79, 0x70, 0x74, 0x6f, 0x67, 0x72, 0x61, 0x70, 0x68, 0x69, 0x63, 0x20, 0x46, 0x6f,
     0x72, 0x75, 0x6d, 0x20, 0x52, 0x65, 0x73, 0x65, 0x61, 0x72, 0x63, 0x68, 0x20, 0x47, 0x72, 0x6f,
     0x75, 0x70]
    [0x85, 0xd6, 0xbe, 0x78, 0x57, 0x55, 0x6d, 0x33, 0x7f, 0x44, 0x52, 0xfe, 0x42, 0xd5, 0x06, 0xa8,
     0x01, 0x03, 0x80, 0x8a, 0xfb, 0x0d, 0xb2, 0xfd, 0x4a, 0xbf, 0xf6, 0xaf, 0x41, 0x49, 0xf5, 0x1b] =
    .ok [0xa8, 0x06, 0x1d, 0xc1, 0x30, 0x51, 0x36, 0xc6, 0xc2, 0x2b, 0x8b, 0xaf, 0x0c, 0x01, 0x27,
      0xa9] := by decide +kernel

/-- C26: `clamp` on the 16 octets of `r` is the octet-wise clamping of RFC 7539. -/
theorem C26_clamp_octets (b : Bytes) (h : b.length = 16) :
    clamp (leValue b) = leValue (clampOctets b) := clamp_eq b h
example := C26_clamp_octets (List.replicate 16 0xff) rfl

/-- C26: bit for bit, `clamp` clears the top four bits of octets 3, 7, 11, 15 and the bottom two
bits of octets 4, 8, 12 and keeps the others. -/
theorem C26_clamp_bits (r i : Nat) (hi : i < 128) :
    (clamp r).testBit i = (r.testBit i &&
      !(decide ((i / 8 = 3 ∨ i / 8 = 7 ∨ i / 8 = 11 ∨ i / 8 = 15) ∧ 4 ≤ i % 8) ||
        decide ((i / 8 = 4 ∨ i / 8 = 8 ∨ i / 8 = 12) ∧ i % 8 < 2))) := by
  rw [clamp, Nat.testBit_and]
  congr 1
  revert i
  decide +kernel
example := C26_clamp_bits (2 ^ 128 - 1) 29 (by decide)

/-- C26: `clamp` is idempotent and its result is below `2^124`. -/
theorem C26_clamp_idempotent (r : Nat) : clamp (clamp r) = clamp r ∧ clamp r < 2 ^ 124 := by
  refine ⟨?_, ?_⟩
  · rw [clamp, clamp, Nat.and_assoc, Nat.and_self]
  · refine lt_of_le_of_lt Nat.and_le_right ?_
    norm_num

/-- C27: the little-endian conversions invert each other; `le_bytes_to_num` fails exactly on the
empty string. -/
theorem C27_little_endian (n : Nat) (b : Bytes) :
    leBytesToNum (numToLeBytes 16 n) = .ok (n % 2 ^ 128) ∧
    leBytesToNum (numToLeBytes 8 n) = .ok (n % 2 ^ 64) ∧
    (numToLeBytes 16 n).length = 16 ∧ (numToLeBytes 8 n).length = 8 ∧
    (b.length = 16 → ∃ v, leBytesToNum b = .ok v ∧ v = leValue b ∧ numToLeBytes 16 v = b) ∧
    (leBytesToNum b = .error .value ↔ b = []) ∧
    (b ≠ [] → leBytesToNum b = .ok (leValue b)) := by
  have hne : ∀ k n, leBytes (k + 1) n ≠ [] := by intro k n h; simp [leBytes] at h
  refine ⟨?_, ?_, ?_, ?_, ?_, ?_, ?_⟩
  · rw [numToLeBytes_eq, leBytesToNum_eq, if_neg (hne _ _), leValue_leBytes]; norm_num
  · rw [numToLeBytes_eq, leBytesToNum_eq, if_neg (hne _ _), leValue_leBytes]; norm_num
  · rw [numToLeBytes_eq, length_leBytes]
  · rw [numToLeBytes_eq, length_leBytes]
  · intro hb
    have h0 : b ≠ [] := by rintro rfl; simp at hb
    refine ⟨leValue b, by rw [leBytesToNum_eq, if_neg h0], rfl, ?_⟩
    rw [numToLeBytes_eq, ← hb, leBytes_leValue]
  · rw [leBytesToNum_eq]
    by_cases h0 : b = [] <;> simp [h0]
  · intro h0
    rw [leBytesToNum_eq, if_neg h0]

/-- C29: `poly1305_mac` and the length of the key. -/
theorem C29_key_length (m key : Bytes) :
    (poly1305Mac m key = .error .value ↔ key.length < 17) ∧
    (17 ≤ key.length → poly1305Mac m key = poly1305Mac m ((key ++ List.replicate 32 0).take 32)) := by
  have h1 : 17 ≤ key.length →
      poly1305Mac m key = poly1305Mac m ((key ++ List.replicate 32 0).take 32) := by
    intro h
    rw [poly1305Mac_eq m key h, poly1305Mac_eq m _ (by simp)]
    have e1 : ((key ++ List.replicate 32 0).take 32).take 16 = key.take 16 := by
      rw [List.take_take, List.take_append_of_le_length (by omega)]
      norm_num
    have z : ∀ (x : Bytes) k, leValue (x ++ List.replicate k 0) = leValue x := by
      intro x k
      rw [leValue_append]
      have : leValue (List.replicate k 0) = 0 := by
        induction k with
        | zero => rfl
        | succ k ih => rw [List.replicate_succ, leValue, ih]; rfl
      rw [this]; omega
    have e2 : leValue ((((key ++ List.replicate 32 0).take 32).take 32).drop 16) =
        leValue ((key.take 32).drop 16) := by
      rw [List.take_take, Nat.min_self, List.take_append, List.drop_append, List.take_replicate,
        List.drop_replicate, z]
    rw [e1, e2]
  refine ⟨⟨?_, ?_⟩, h1⟩
  · intro he
    by_contra hlt
    rw [poly1305Mac_eq m key (by omega)] at he
    simp at he
  · intro hlt
    rw [poly1305Mac, leBytesToNum_eq]
    by_cases h0 : key.take 16 = []
    · rw [if_pos h0]
    · rw [if_neg h0]
      simp only
      have : (key.take 32).drop 16 = [] := List.drop_of_length_le (by simp; omega)
      rw [this, leBytesToNum_eq, if_pos rfl]

example : ∃ t, poly1305Mac [1] (List.replicate 17 9) = .ok t := ⟨_, poly1305Mac_eq _ _ (by decide)⟩

/-- C96: the modulus of Poly1305 is prime. -/
theorem C96_p1305_prime : Nat.Prime ((1 <<< 130) - 5) := by
  have : (1 <<< 130) - 5 = 1361129467683753853853498429727072845819 := by decide
  rw [this]; exact Cert.prime_p1305

/-! ### Forgery bound -/

theorem tag_value (m : Bytes) (r : Nat) (s : Bytes) (hr : r < 2 ^ 128)
    (hcl : clamp r = r) (hs : s.length = 16) :
    ∃ t, poly1305Mac m (numToLeBytes 16 r ++ s) = .ok t ∧
      leValue t = (polyHash m r + leValue s) % 2 ^ 128 := by
  have hl : (numToLeBytes 16 r).length = 16 := by rw [numToLeBytes_eq, length_leBytes]
  refine ⟨_, poly1305Mac_eq m _ (by simp [hl, hs]), ?_⟩
  have e1 : (numToLeBytes 16 r ++ s).take 16 = numToLeBytes 16 r := List.take_left' hl
  have e2 : ((numToLeBytes 16 r ++ s).take 32).drop 16 = s := by
    rw [List.take_of_length_le (by simp [hl, hs])]
    exact List.drop_left' hl
  rw [e1, e2, leValue_leBytes, numToLeBytes_eq, leValue_leBytes]
  have : r % 256 ^ 16 = r := Nat.mod_eq_of_lt (by norm_num; norm_num at hr; exact hr)
  rw [this, hcl]
  norm_num

private theorem shift_count (a b sv Δ : Nat) (k0 : Int)
    (hk0 : k0 = (-(1361129467683753853853498429727072845819 : Int) - Δ) /
      340282366920938463463374607431768211456 + 1)
    (l1 : a < 1361129467683753853853498429727072845819)
    (l2 : b < 1361129467683753853853498429727072845819)
    (heq : (a + sv) % 340282366920938463463374607431768211456 =
      ((b + sv) % 340282366920938463463374607431768211456 + Δ) %
        340282366920938463463374607431768211456) :
    ∃ j : Nat, j < 8 ∧
      (Δ : Int) + 340282366920938463463374607431768211456 * (k0 + j) = (a : Int) - b := by
  have hdvd : ∃ k : Int, (a : Int) - b - Δ = 340282366920938463463374607431768211456 * k := by
    refine ⟨((a : Int) - b - Δ) / 340282366920938463463374607431768211456, ?_⟩
    omega
  obtain ⟨k, hk⟩ := hdvd
  refine ⟨(k - k0).toNat, ?_, ?_⟩
  · omega
  · have : ((k - k0).toNat : Int) = k - k0 := Int.toNat_of_nonneg (by omega)
    rw [this]
    omega

/-- `r` makes the tags of `m` and `m'` under `(r, s)` differ by `Δ` modulo `2^128`. -/
def TagsDiffer (m m' s : Bytes) (Δ r : Nat) : Prop :=
  ∃ t t', poly1305Mac m (numToLeBytes 16 r ++ s) = .ok t ∧
    poly1305Mac m' (numToLeBytes 16 r ++ s) = .ok t' ∧
    leValue t = (leValue t' + Δ) % 2 ^ 128

private theorem hash_of_tagsDiffer {m m' s : Bytes} {Δ r : Nat} (hr1 : r < 2 ^ 128)
    (hr2 : clamp r = r) (hs : s.length = 16) (h : TagsDiffer m m' s Δ r) :
    (polyHash m r + leValue s) % 2 ^ 128 = ((polyHash m' r + leValue s) % 2 ^ 128 + Δ) % 2 ^ 128 := by
  unfold TagsDiffer at h
  obtain ⟨u, hu, hv⟩ := tag_value m r s hr1 hr2 hs
  obtain ⟨u', hu', hv'⟩ := tag_value m' r s hr1 hr2 hs
  rw [← hv, ← hv']
  refine h.elim fun t h => h.elim fun t' h => ?_
  have e1 : u = t := Except.ok.inj (hu.symm.trans h.1)
  have e2 : u' = t' := Except.ok.inj (hu'.symm.trans h.2.1)
  rw [e1, e2]
  exact h.2.2

open scoped Classical in
private theorem forgery_bound (N : Nat) (hN : N = 2 ^ 128) (m m' s : Bytes) (hne : m ≠ m') (q : Nat)
    (h1 : m.length ≤ 16 * q) (h2 : m'.length ≤ 16 * q) (hs : s.length = 16) (Δ : Nat) :
    ((Finset.range N).filter fun r => clamp r = r ∧ TagsDiffer m m' s Δ r).card ≤ 8 * q := by
  have b1 : polyBlocks m ≤ q := by rw [polyBlocks]; omega
  have b2 : polyBlocks m' ≤ q := by rw [polyBlocks]; omega
  have hp : P1305 = 1361129467683753853853498429727072845819 := by decide
  obtain ⟨k0, hk0⟩ : ∃ k0 : Int, k0 = (-(1361129467683753853853498429727072845819 : Int) - Δ) /
      340282366920938463463374607431768211456 + 1 := ⟨_, rfl⟩
  let D : Finset Int := (Finset.range 8).image fun j : Nat =>
    (Δ : Int) + 340282366920938463463374607431768211456 * (k0 + j)
  have hD : D.card ≤ 8 := Finset.card_image_le.trans (by simp)
  have hsub : ((Finset.range N).filter fun r => clamp r = r ∧ TagsDiffer m m' s Δ r) ⊆
      D.biUnion fun d => (Finset.range P1305).filter fun r =>
        (polyHash m r : Int) - polyHash m' r = d := by
    intro r hr
    rw [Finset.mem_filter, Finset.mem_range] at hr
    have hr1 := hr.1
    have hr2 := hr.2.1
    rw [hN] at hr1
    have heq := hash_of_tagsDiffer hr1 hr2 hs hr.2.2
    have l1 := polyHash_lt m r
    have l2 := polyHash_lt m' r
    rw [Finset.mem_biUnion]
    refine ⟨(polyHash m r : Int) - polyHash m' r, ?_, ?_⟩
    · rw [Finset.mem_image]
      rw [hp] at l1 l2
      obtain ⟨j, hj, he⟩ := shift_count _ _ _ _ k0 hk0 l1 l2 heq
      exact ⟨j, Finset.mem_range.mpr hj, he⟩
    · rw [Finset.mem_filter, Finset.mem_range]
      refine ⟨?_, rfl⟩
      have := (C26_clamp_idempotent r).2
      rw [hr2] at this
      refine this.trans ?_
      rw [hp]; norm_num
  calc _ ≤ _ := Finset.card_le_card hsub
    _ ≤ D.card * q := Finset.card_biUnion_le_card_mul _ _ _ fun d _ => card_hash_diff m m' hne q b1 b2 d
    _ ≤ 8 * q := Nat.mul_le_mul_right _ hD

open scoped Classical in
/-- C28: for two distinct messages of at most `16 q` octets, any second key half and any difference
of tags, at most `8 q` clamped values `r` give tags with that difference modulo `2^128`. -/
theorem C28_forgery_bound (m m' s : Bytes) (hne : m ≠ m') (q : Nat) (h1 : m.length ≤ 16 * q)
    (h2 : m'.length ≤ 16 * q) (hs : s.length = 16) (Δ : Nat) :
    ((Finset.range (2 ^ 128)).filter fun r => clamp r = r ∧ TagsDiffer m m' s Δ r).card ≤ 8 * q :=
  forgery_bound _ rfl m m' s hne q h1 h2 hs Δ
example (Δ : Nat) := C28_forgery_bound [1, 2, 3] (List.replicate 20 7) (List.replicate 16 9) (by decide) 2 (by decide) (by decide) rfl Δ

theorem card_submasks (n mask : Nat) :
    ((Finset.range (2 ^ n)).filter fun r => r &&& mask = r).card =
      2 ^ ((List.range n).filter fun i => mask.testBit i).length := by
  induction n generalizing mask with
  | zero =>
    have : (Finset.range (2 ^ 0)).filter (fun r => r &&& mask = r) = {0} := by
      ext r
      simp only [pow_zero, Finset.mem_filter, Finset.mem_range, Nat.lt_one_iff, Finset.mem_singleton]
      constructor
      · exact fun h => h.1
      · rintro rfl; simp
    rw [this]; simp
  | succ n ih =>
    have hcount : ((List.range (n + 1)).filter fun i => mask.testBit i).length =
        (if mask.testBit 0 then 1 else 0) +
          ((List.range n).filter fun i => (mask / 2).testBit i).length := by
      rw [List.range_succ_eq_map, List.filter_cons, List.filter_map]
      have : ((fun i => mask.testBit i) ∘ Nat.succ) = fun i => (mask / 2).testBit i := by
        funext i; simp [Nat.testBit_succ]
      rw [this]
      split <;> simp
      omega
    rw [hcount, Nat.pow_add 2 _ (List.filter _ _).length, ← ih (mask / 2)]
    have hmap : ∀ r, (r &&& mask = r) ↔ ((r / 2 &&& mask / 2 = r / 2) ∧ (r % 2 = 1 → mask.testBit 0)) := by
      intro r
      constructor
      · intro h
        refine ⟨by rw [← Nat.and_div_two, h], ?_⟩
        intro h1
        have := congrArg (fun x => x.testBit 0) h
        simp only [Nat.testBit_and] at this
        have h3 : r.testBit 0 = true := by simpa [Nat.testBit_zero] using h1
        rw [h3, Bool.true_and] at this
        exact this
      · rintro ⟨h1, h2⟩
        have e := Nat.div_add_mod (r &&& mask) 2
        rw [Nat.and_div_two, h1] at e
        have e2 : (r &&& mask) % 2 = r % 2 := by
          rcases Nat.mod_two_eq_zero_or_one r with h0 | h0
          · have := Nat.testBit_and r mask 0
            simp only [Nat.testBit_zero, h0] at this
            have h3 : (r &&& mask) % 2 ≠ 1 := by simpa using this
            omega
          · have h3 := h2 h0
            have := Nat.testBit_and r mask 0
            rw [h3] at this
            simp only [Nat.testBit_zero, h0] at this
            have h4 : (r &&& mask) % 2 = 1 := by simpa using this
            omega
        rw [e2, Nat.div_add_mod] at e
        exact e.symm
    by_cases hb : mask.testBit 0
    · rw [if_pos hb]
      have : (Finset.range (2 ^ (n + 1))).filter (fun r => r &&& mask = r) =
          (((Finset.range (2 ^ n)).filter fun r => r &&& mask / 2 = r) ×ˢ Finset.range 2).image
            fun p => 2 * p.1 + p.2 := by
        ext r
        simp only [Finset.mem_filter, Finset.mem_range, Finset.mem_image, Finset.mem_product,
          Prod.exists, hmap, hb, implies_true, and_true]
        constructor
        · rintro ⟨h1, h2⟩
          exact ⟨r / 2, r % 2, ⟨⟨by rw [pow_succ] at h1; omega, h2⟩, by omega⟩, by omega⟩
        · rintro ⟨a, b, ⟨⟨h1, h2⟩, h3⟩, rfl⟩
          have : (2 * a + b) / 2 = a := by omega
          rw [this]
          exact ⟨by rw [pow_succ]; omega, h2⟩
      rw [this, Finset.card_image_of_injOn, Finset.card_product, Finset.card_range]
      · ring
      · rintro ⟨a, b⟩ h1 ⟨c, d⟩ h2 h3
        simp only [Finset.coe_product, Set.mem_prod, Finset.mem_coe, Finset.mem_range] at h1 h2
        simp only at h3
        rw [Prod.mk.injEq]; omega
    · rw [if_neg hb]
      have : (Finset.range (2 ^ (n + 1))).filter (fun r => r &&& mask = r) =
          ((Finset.range (2 ^ n)).filter fun r => r &&& mask / 2 = r).image fun a => 2 * a := by
        ext r
        simp only [Finset.mem_filter, Finset.mem_range, Finset.mem_image, hmap, hb]
        constructor
        · rintro ⟨h1, h2, h3⟩
          have : r % 2 = 0 := by
            rcases Nat.mod_two_eq_zero_or_one r with h0 | h0
            · exact h0
            · exact absurd (h3 h0) (by simp)
          exact ⟨r / 2, ⟨by rw [pow_succ] at h1; omega, h2⟩, by omega⟩
        · rintro ⟨a, ⟨h1, h2⟩, rfl⟩
          have : (2 * a) / 2 = a := by omega
          rw [this]
          exact ⟨by rw [pow_succ]; omega, h2, by omega⟩
      rw [this, Finset.card_image_of_injective _ (fun a b h => by simpa using h)]
      simp

/-- C28: there are exactly `2^106` clamped values. -/
theorem C28_clamped_count :
    ((Finset.range (2 ^ 128)).filter fun r => clamp r = r).card = 2 ^ 106 := by
  have h := card_submasks 128 0x0ffffffc0ffffffc0ffffffc0fffffff
  have e : ((List.range 128).filter
      fun i => Nat.testBit 0x0ffffffc0ffffffc0ffffffc0fffffff i).length = 106 := by decide +kernel
  rw [e] at h
  exact h

example : ([1, 2, 3] : Bytes) ≠ [1, 2, 4] ∧ ([1, 2, 3] : Bytes).length ≤ 16 * 1 := by decide

/-! ### AEAD -/

private theorem new_some (rand key nonce : Bytes) (c : Nat) (hk : key.length = 32)
    (hn : nonce.length = 12) : ChaCha.new rand key c (some nonce) = .ok (initNat key c nonce) := by
  have h0 : nonce ≠ [] := by rintro rfl; simp at hn
  simp only [ChaCha.new, if_neg h0]
  exact initialize_eq key nonce c hk hn

private theorem new_empty (rand key : Bytes) (c : Nat) (hk : key.length = 32)
    (hn : rand.length = 12) : ChaCha.new rand key c (some []) = .ok (initNat key c rand) := by
  simp only [ChaCha.new, if_pos]
  exact initialize_eq key rand c hk hn

private theorem pad16_eq (x : Bytes) : Model.pad16 x = Spec.pad16 x := by
  simp only [Model.pad16, Spec.pad16]
  split
  · next h => simp [h]
  · next h => congr 1; omega

theorem macData_eq (a c : Bytes) : Model.macData a c =
    a ++ Spec.pad16 a ++ c ++ Spec.pad16 c ++ leBytes 8 a.length ++ leBytes 8 c.length := by
  simp only [Model.macData, pad16_eq, numToLeBytes_eq, List.append_assoc]

/-- The tag of the AEAD construction for a one-time key taken from nonce `n1`. -/
theorem aead_core (rand1 rand2 : Bytes) (o : Aead) (aad iv pt n1 n2 : Bytes)
    (hk : o.key.length = 32) (h1 : n1.length = 12) (_h2 : n2.length = 12)
    (e1 : ∀ c, ChaCha.new rand1 o.key c (some (o.constant ++ iv)) = .ok (initNat o.key c n1))
    (e2 : ∀ c, ChaCha.new rand2 o.key c (some (o.constant ++ iv)) = .ok (initNat o.key c n2)) :
    o.encrypt rand1 rand2 aad iv pt =
      (let ct := ((initNat o.key 1 n2).encrypt pt).2
       .ok (ct, Spec.poly1305 (aad ++ Spec.pad16 aad ++ ct ++ Spec.pad16 ct ++ leBytes 8 aad.length ++
         leBytes 8 ct.length) ((chachaBlock o.key 0 n1).take 32))) := by
  have hb := initNat_block o.key n1 0 hk h1 (by norm_num)
  rw [Aead.encrypt]
  simp only [poly1305KeyGen, e1, e2]
  rw [hb, C25_poly1305_rfc _ _ (by
    rw [List.length_take, length_chachaBlock]; rfl), macData_eq]
  rfl

/-- C30: AEAD encryption is the RFC 7539 construction. -/
theorem C30_aead_rfc (rand1 rand2 : Bytes) (o : Aead) (aad iv pt : Bytes) (hk : o.key.length = 32)
    (hn : (o.constant ++ iv).length = 12) (hpt : 1 + (pt.length + 63) / 64 ≤ 2 ^ 32) :
    o.encrypt rand1 rand2 aad iv pt = .ok (Spec.aeadEncrypt o.key (o.constant ++ iv) aad pt) := by
  rw [aead_core rand1 rand2 o aad iv pt _ _ hk hn hn
    (fun c => new_some _ _ _ c hk hn) (fun c => new_some _ _ _ c hk hn)]
  rw [encrypt_eq _ _ _ hk hn, modelStream_eq _ _ hk hn _ _ hpt]
  rfl

example : ∃ r, (Aead.mk (List.replicate 32 1) [1, 2, 3, 4]).encrypt [] [] [5] (List.replicate 8 6)
    [7, 8] = .ok r := ⟨_, C30_aead_rfc _ _ _ _ _ _ rfl rfl (by decide)⟩

/-- C31: decrypting a ciphertext gives back the plaintext (with any associated data). -/
theorem C31_aead_decrypt_recovers (rand1 rand2 rand1' rand2' : Bytes) (o : Aead)
    (aad aad' iv pt ct tag : Bytes) (hn : (o.constant ++ iv).length = 12)
    (h : o.encrypt rand1 rand2 aad iv pt = .ok (ct, tag)) :
    ∃ tag', o.decrypt rand1' rand2' aad' iv ct = .ok (pt, tag') := by
  have hk : o.key.length = 32 := by
    by_contra hk
    have h0 : o.constant ++ iv ≠ [] := by intro h0; rw [h0] at hn; simp at hn
    simp only [Aead.encrypt, poly1305KeyGen, ChaCha.new, if_neg h0, ChaCha.initialize,
      if_neg hk] at h
    simp at h
  rw [aead_core rand1 rand2 o aad iv pt _ _ hk hn hn
    (fun c => new_some _ _ _ c hk hn) (fun c => new_some _ _ _ c hk hn)] at h
  simp only [Except.ok.injEq, Prod.mk.injEq] at h
  obtain ⟨hct, _⟩ := h
  rw [Aead.decrypt, aead_core rand1' rand2' o aad' iv ct _ _ hk hn hn
    (fun c => new_some _ _ _ c hk hn) (fun c => new_some _ _ _ c hk hn)]
  have hrt : ((initNat o.key 1 (o.constant ++ iv)).encrypt ct).2 = pt := by
    rw [← hct, encrypt_eq _ _ _ hk hn]
    simp only
    rw [encrypt_eq _ _ _ hk hn]
    have hl := length_modelStream o.key (o.constant ++ iv) 1 ((pt.length + 63) / 64) hk hn
    have hx : (xorBytes pt (modelStream o.key 1 (o.constant ++ iv) ((pt.length + 63) / 64))).length =
        pt.length := by rw [length_xorBytes]; omega
    simp only
    rw [hx, xorBytes_self_right _ _ (by omega)]
  simp only [hrt]
  exact ⟨_, rfl⟩
/-- The two hypotheses hold for every 32 octet key and 12 octets of nonce; here two octets of plaintext. -/
example := C31_aead_decrypt_recovers [] [] [] [] ⟨List.replicate 32 1, [1, 2, 3, 4]⟩ [5] [6] (List.replicate 8 6) [7, 8] _ _ rfl
  (C30_aead_rfc [] [] ⟨List.replicate 32 1, [1, 2, 3, 4]⟩ [5] (List.replicate 8 6) [7, 8] rfl rfl (by decide))

/-- C32: with a valid key and nonce `decrypt` accepts every input string, and the tag it returns is
the RFC 7539 MAC of the *plaintext* it recovers, not of the ciphertext it was given. -/
theorem C32_decrypt_no_authentication (rand1 rand2 : Bytes) (o : Aead) (aad iv ct : Bytes)
    (hk : o.key.length = 32) (hn : (o.constant ++ iv).length = 12) :
    ∃ pt, o.decrypt rand1 rand2 aad iv ct =
      .ok (pt, Spec.poly1305 (aad ++ Spec.pad16 aad ++ pt ++ Spec.pad16 pt ++ leBytes 8 aad.length ++
         leBytes 8 pt.length) ((chachaBlock o.key 0 (o.constant ++ iv)).take 32)) ∧
      pt.length = ct.length := by
  refine ⟨_, aead_core rand1 rand2 o aad iv ct _ _ hk hn hn
    (fun c => new_some _ _ _ c hk hn) (fun c => new_some _ _ _ c hk hn), ?_⟩
  rw [encrypt_eq _ _ _ hk hn]
  have hl := length_modelStream o.key (o.constant ++ iv) 1 ((ct.length + 63) / 64) hk hn
  simp only
  rw [length_xorBytes]; omega
example := C32_decrypt_no_authentication [] [] ⟨List.replicate 32 1, [1, 2, 3, 4]⟩ [5] (List.replicate 8 6) [7, 8, 9] rfl rfl

/-- C32: so for a genuine ciphertext the returned tag is not the transmitted one. -/
theorem C32_returned_tag_differs :
    ∃ (o : Aead) (aad iv pt ct tag tag' : Bytes),
      o.encrypt [] [] aad iv pt = .ok (ct, tag) ∧ o.decrypt [] [] aad iv ct = .ok (pt, tag') ∧
      tag ≠ tag' := by
  let o : Aead := ⟨List.replicate 32 1, List.replicate 4 2⟩
  have he : (o.encrypt [] [] [] (List.replicate 8 3) [5]).toOption.map (·.2) ≠
      (match o.encrypt [] [] [] (List.replicate 8 3) [5] with
       | .ok (ct, _) => (o.decrypt [] [] [] (List.replicate 8 3) ct).toOption.map (·.2)
       | .error _ => none) := by decide +kernel
  have h1 := C30_aead_rfc [] [] o [] (List.replicate 8 3) [5] rfl rfl (by decide)
  obtain ⟨tag', h2⟩ := C31_aead_decrypt_recovers [] [] [] [] o [] [] (List.replicate 8 3) [5] _ _ rfl h1
  refine ⟨o, [], List.replicate 8 3, [5], _, _, tag', h1, h2, ?_⟩
  rw [h1] at he
  have h3 : o.decrypt [] [] [] (List.replicate 8 3)
      (Spec.aeadEncrypt o.key (o.constant ++ List.replicate 8 3) [] [5]).1 = .ok ([5], tag') := h2
  simp only [h3] at he
  simpa [Except.toOption, Spec.aeadEncrypt] using he

/-- C33: the string under the MAC determines associated data and ciphertext. -/
theorem C33_mac_input_injective (a c a' c' : Bytes) (ha : a.length < 2 ^ 64)
    (hc : c.length < 2 ^ 64) (ha' : a'.length < 2 ^ 64) (hc' : c'.length < 2 ^ 64)
    (h : Model.macData a c = Model.macData a' c') : a = a' ∧ c = c' := by
  rw [macData_eq, macData_eq] at h
  obtain ⟨h, h3⟩ := List.append_inj' h (by simp)
  obtain ⟨h, h2⟩ := List.append_inj' h (by simp)
  have e2 := congrArg leValue h2
  have e3 := congrArg leValue h3
  rw [leValue_leBytes, leValue_leBytes] at e2 e3
  have hl : ∀ n, n < 2 ^ 64 → n % 256 ^ 8 = n := fun n hn =>
    Nat.mod_eq_of_lt (by norm_num at hn ⊢; exact hn)
  rw [hl _ ha, hl _ ha'] at e2
  rw [hl _ hc, hl _ hc'] at e3
  obtain ⟨h, _⟩ := List.append_inj' h (by simp [Spec.pad16, e3])
  obtain ⟨h, h5⟩ := List.append_inj' h (by simp [e3])
  obtain ⟨h, _⟩ := List.append_inj' h (by simp [Spec.pad16, e2])
  exact ⟨h, h5⟩

example : Model.macData [1] [2] ≠ Model.macData [1, 2] [] := by decide +kernel

/-- C34: the subclass cannot be used at all. -/
theorem C34_chacha_poly_aead_unusable (o : Aead) (aad iv pt x : Bytes) :
    Model.ChaChaPolyAead.encrypt o aad iv pt = .error .type ∧
    Model.ChaChaPolyAead.decrypt o aad x = .error .name := ⟨rfl, rfl⟩

/-- C35: with an empty constant and iv, the tag key and the key stream come from two independent
random nonces. -/
theorem C35_two_random_nonces (rand1 rand2 : Bytes) (key aad pt : Bytes) (hk : key.length = 32)
    (h1 : rand1.length = 12) (h2 : rand2.length = 12) (hpt : 1 + (pt.length + 63) / 64 ≤ 2 ^ 32) :
    (Aead.mk key []).encrypt rand1 rand2 aad [] pt =
      (let ct := chachaEncrypt key 1 rand2 pt
       .ok (ct, Spec.poly1305 (aad ++ Spec.pad16 aad ++ ct ++ Spec.pad16 ct ++ leBytes 8 aad.length ++
         leBytes 8 ct.length) ((chachaBlock key 0 rand1).take 32))) := by
  rw [aead_core rand1 rand2 (Aead.mk key []) aad [] pt _ _ hk h1 h2
    (fun c => new_empty _ _ c hk h1) (fun c => new_empty _ _ c hk h2)]
  rw [encrypt_eq _ _ _ hk h2, modelStream_eq _ _ hk h2 _ _ hpt]
  rfl
example := C35_two_random_nonces (List.replicate 12 3) (List.replicate 12 4) (List.replicate 32 1) [5] [7, 8, 9] rfl rfl rfl (by decide)

end Cryptopy
