import Verif.Props.Hmac
import Mathlib.Data.List.DropRight

/-!
C115: which keys HMAC and PBKDF2 tell apart.  C116: which labels and data the 802.11 PRF tells apart.
-/

namespace Cryptopy
open Model Spec

/-- A key without its trailing zero octets. -/
def stripZeros (key : Bytes) : Bytes := key.rdropWhile (· == 0)

private theorem strip_append (k : Bytes) (n : Nat) : stripZeros (k ++ List.replicate n 0) = stripZeros k := by
  induction n with
  | zero => simp
  | succ n ih =>
    rw [List.replicate_succ', ← List.append_assoc, stripZeros, List.rdropWhile_concat_pos _ _ _ (by simp)]
    exact ih

private theorem strip_split (k : Bytes) : ∃ n, k = stripZeros k ++ List.replicate n 0 := by
  induction k using List.reverseRecOn with
  | nil => exact ⟨0, by simp [stripZeros]⟩
  | append_singleton k c ih =>
    by_cases hc : c = 0
    · obtain ⟨n, h⟩ := ih
      refine ⟨n + 1, ?_⟩
      rw [stripZeros, List.rdropWhile_concat_pos _ _ _ (by simp [hc]), List.replicate_succ', ← List.append_assoc]
      change k ++ [c] = stripZeros k ++ _ ++ _
      rw [← h, hc]
    · exact ⟨0, by rw [stripZeros, List.rdropWhile_concat_neg _ _ _ (by simp [hc])]; simp⟩

private theorem pad_eq_iff (B : Nat) (k1 k2 : Bytes) (h1 : k1.length ≤ B) (h2 : k2.length ≤ B) :
    k1 ++ List.replicate (B - k1.length) 0 = k2 ++ List.replicate (B - k2.length) 0 ↔
      stripZeros k1 = stripZeros k2 := by
  constructor
  · intro h
    rw [← strip_append k1 (B - k1.length), h, strip_append]
  · intro h
    obtain ⟨n1, e1⟩ := strip_split k1
    obtain ⟨n2, e2⟩ := strip_split k2
    rw [h] at e1
    have l1 := congrArg List.length e1
    have l2 := congrArg List.length e2
    rw [List.length_append, List.length_replicate] at l1 l2
    have e1' : k1 ++ List.replicate (B - k1.length) 0 =
        stripZeros k2 ++ List.replicate (n1 + (B - k1.length)) 0 := by
      rw [List.replicate_add, ← List.append_assoc, ← e1]
    have e2' : k2 ++ List.replicate (B - k2.length) 0 =
        stripZeros k2 ++ List.replicate (n2 + (B - k2.length)) 0 := by
      rw [List.replicate_add, ← List.append_assoc, ← e2]
    rw [e1', e2', show n1 + (B - k1.length) = n2 + (B - k2.length) by omega]

private theorem new_eq_iff (h : HashLib) (k1 k2 : Bytes) :
    Hmac.new h (some k1) = Hmac.new h (some k2) ↔ codeKey h.H h.rawBlockSize k1 = codeKey h.H h.rawBlockSize k2 := by
  have e : ∀ k, Hmac.new h (some k) = ⟨(codeKey h.H h.rawBlockSize k).map (· ^^^ 0x36), [],
      some ((codeKey h.H h.rawBlockSize k).map (· ^^^ 0x36), (codeKey h.H h.rawBlockSize k).map (· ^^^ 0x5C))⟩ := by
    intro k
    unfold Hmac.new Hmac.setKey codeKey
    by_cases hk : k.length ≤ h.rawBlockSize
    · simp [hk, Nat.not_lt.mpr hk, Hmac.reset]
    · simp [hk, Nat.lt_of_not_le hk, Hmac.reset]
  constructor
  · intro h'
    rw [e, e] at h'
    have := congrArg Hmac.inner h'
    have inj : Function.Injective (fun c : UInt8 => c ^^^ 0x36) := by
      intro a b hab
      have := congrArg (· ^^^ (0x36 : UInt8)) hab
      simpa [UInt8.xor_assoc] using this
    exact List.map_injective_iff.mpr inj this
  · intro h'
    rw [e, e, h']

/-- C115: for keys of at most `B` octets two HMAC objects are the same, hence answer every history of calls alike,
exactly if the keys agree up to trailing zero octets. -/
theorem C115_same_object (h : HashLib) (k1 k2 : Bytes) (h1 : k1.length ≤ h.rawBlockSize)
    (h2 : k2.length ≤ h.rawBlockSize) :
    Hmac.new h (some k1) = Hmac.new h (some k2) ↔ stripZeros k1 = stripZeros k2 := by
  rw [new_eq_iff, codeKey, codeKey, if_pos h1, if_pos h2, pad_eq_iff _ _ _ h1 h2]
example (H : Bytes → Bytes) := C115_same_object ⟨64, 20, H⟩ [0x61, 0x62] [0x61, 0x62, 0] (by simp) (by simp)

/-- C115: equivalent keys give the same results in every history. -/
theorem C115_same_histories (h : HashLib) (k1 k2 : Bytes) (h1 : k1.length ≤ h.rawBlockSize)
    (h2 : k2.length ≤ h.rawBlockSize) (hs : stripZeros k1 = stripZeros k2) (ops : List HmacOp) :
    Hmac.run h (Hmac.new h (some k1)) ops = Hmac.run h (Hmac.new h (some k2)) ops := by
  rw [(C115_same_object h k1 k2 h1 h2).mpr hs]

-- The keys "ab" and "ab" followed by a zero octet.
example : stripZeros [0x61, 0x62] = stripZeros [0x61, 0x62, 0] := by decide
example : stripZeros [0x61, 0x62] ≠ stripZeros [0, 0x61, 0x62] := by decide

private theorem hmacOnce_code (h : HashLib) (key data : Bytes) :
    hmacOnce h key data = .ok (hmacWith h.H (codeKey h.H h.rawBlockSize key) data) := by
  obtain ⟨out, ho⟩ := hmac_setKey h ⟨[], [], none⟩ key
  simp only [hmacOnce, Hmac.new, ho, Hmac.call, Hmac.reset, Hmac.update, Hmac.digest, map_xor_eq,
    hmacWith, hmacOuter, hmacInner, List.nil_append]

private theorem xor_const_injective {a b : Bytes} {c : UInt8}
    (h : xorBytes a (List.replicate a.length c) = xorBytes b (List.replicate b.length c)) : a = b := by
  rw [← map_xor_eq, ← map_xor_eq] at h
  have inj : Function.Injective (fun x : UInt8 => x ^^^ c) := by
    intro a b hab
    have := congrArg (· ^^^ c) hab
    simpa [UInt8.xor_assoc] using this
  exact List.map_injective_iff.mpr inj h

private theorem collision_of_eq (H : Bytes → Bytes) (d : Nat) (hlen : ∀ x, (H x).length = d) (k1 k2 d1 d2 : Bytes)
    (hne : k1 ≠ k2) (h : hmacWith H k1 d1 = hmacWith H k2 d2) :
    Collision H (hmacOuter H k1 d1) (hmacOuter H k2 d2) := by
  refine ⟨?_, h⟩
  intro hcon
  have hl := congrArg List.length hcon
  simp only [hmacOuter, List.length_append, length_xorBytes, List.length_replicate, hlen, min_self] at hl
  have := (List.append_inj hcon (by simp only [length_xorBytes, List.length_replicate, min_self]; omega)).1
  exact hne (xor_const_injective this)

/-- C115: if two keys of at most `B` octets that differ before their trailing zero octets give one MAC, on any data,
the octet strings that the outer hash is applied to are a collision of the hash function. -/
theorem C115_different_keys (h : HashLib) (k1 k2 d1 d2 : Bytes) (h1 : k1.length ≤ h.rawBlockSize)
    (h2 : k2.length ≤ h.rawBlockSize) (hs : stripZeros k1 ≠ stripZeros k2) (d : Nat) (hlen : ∀ x, (h.H x).length = d)
    (he : hmacOnce h k1 d1 = hmacOnce h k2 d2) :
    Collision h.H (hmacOuter h.H (hmacKey h.H h.rawBlockSize k1) d1)
      (hmacOuter h.H (hmacKey h.H h.rawBlockSize k2) d2) := by
  rw [hmacOnce_code, hmacOnce_code] at he
  have e1 : hmacKey h.H h.rawBlockSize k1 = codeKey h.H h.rawBlockSize k1 := by simp [hmacKey, codeKey, h1]
  have e2 : hmacKey h.H h.rawBlockSize k2 = codeKey h.H h.rawBlockSize k2 := by simp [hmacKey, codeKey, h2]
  rw [e1, e2]
  refine collision_of_eq h.H d hlen _ _ d1 d2 ?_ (Except.ok.inj he)
  rw [codeKey, codeKey, if_pos h1, if_pos h2, Ne, pad_eq_iff _ _ _ h1 h2]
  exact hs
/-- The equation can hold, for example for a constant function in place of the hash. -/
example := C115_different_keys ⟨4, 1, fun _ => [9]⟩ [1] [2] [3] [4] (by decide) (by decide) (by decide) 1 (fun _ => rfl) rfl

/-- C115: RFC 2104 makes a long key equivalent to its digest.  Here it is not: a MAC that both give is a collision of
the hash function, as soon as the digest is shorter than the block. -/
theorem C115_long_key (h : HashLib) (key data : Bytes) (d : Nat) (hk : h.rawBlockSize < key.length)
    (hlen : ∀ x, (h.H x).length = d) (hd : d < h.rawBlockSize)
    (he : hmacOnce h key data = hmacOnce h (h.H key) data) :
    Collision h.H (hmacOuter h.H (h.H key) data)
      (hmacOuter h.H (hmacKey h.H h.rawBlockSize (h.H key)) data) := by
  rw [hmacOnce_code, hmacOnce_code] at he
  have e1 : h.H key = codeKey h.H h.rawBlockSize key := by rw [codeKey, if_neg (by omega)]
  have e2 : hmacKey h.H h.rawBlockSize (h.H key) = codeKey h.H h.rawBlockSize (h.H key) := by
    have : (h.H key).length ≤ h.rawBlockSize := by rw [hlen]; omega
    simp [hmacKey, codeKey, this]
  rw [e2]
  conv => arg 2; rw [e1]
  refine collision_of_eq h.H d hlen _ _ data data ?_ (Except.ok.inj he)
  rw [codeKey, codeKey, if_neg (by omega), if_pos (by rw [hlen]; omega)]
  intro e
  have := congrArg List.length e
  rw [List.length_append, List.length_replicate, hlen] at this
  omega
example := C115_long_key ⟨4, 1, fun _ => [9]⟩ (List.replicate 5 7) [3] 1 (by decide) (fun _ => rfl) (by decide) rfl

/-- C115: PBKDF2 does not tell a password from the same password followed by zero octets. -/
theorem C115_pbkdf2 (fr : Bool) (h : HashLib) (password salt : Bytes) (iterations keySize : Int) (n : Nat)
    (hB : 63 ≤ h.rawBlockSize) (hp : password.length + n ≤ 63) :
    Model.pbkdf2 fr (hmacPrf h) (password ++ List.replicate n 0) salt iterations keySize =
      Model.pbkdf2 fr (hmacPrf h) password salt iterations keySize := by
  have hl : (password ++ List.replicate n 0).length = password.length + n := by simp
  have e : (hmacPrf h).prf (password ++ List.replicate n 0) = (hmacPrf h).prf password := by
    funext x
    simp only [hmacPrf]
    rw [(C115_same_object h (password ++ List.replicate n 0) password (by omega) (by omega)).mpr (strip_append _ _)]
  unfold Model.pbkdf2
  have c1 : ¬ (password ++ List.replicate n 0).length > 63 := by omega
  have c2 : ¬ password.length > 63 := by omega
  rw [e, if_neg c1, if_neg c2]
example (H : Bytes → Bytes) := C115_pbkdf2 true ⟨64, 20, H⟩ [0x61, 0x62] [3] 4096 32 5 (by simp) (by decide)

/-- C115: so different pass phrases can map to one pre-shared key. -/
theorem C115_psk (fr : Bool) (h : HashLib) (passPhrase ssid : Bytes) (n : Nat) (hB : 63 ≤ h.rawBlockSize)
    (h0 : 8 ≤ passPhrase.length) (hp : passPhrase.length + n ≤ 63) :
    dot11PassPhraseToPSK fr (hmacPrf h) (passPhrase ++ List.replicate n 0) ssid =
      dot11PassPhraseToPSK fr (hmacPrf h) passPhrase ssid := by
  unfold dot11PassPhraseToPSK
  rw [if_pos (by simp; omega), if_pos (by omega), C115_pbkdf2 fr h passPhrase ssid _ _ n hB hp]
example (H : Bytes → Bytes) := C115_psk true ⟨64, 20, H⟩ (List.replicate 8 0x61) [3] 55 (by simp) (by decide) (by decide)

/-! ### C116: the input of the 802.11 PRF -/

/-- C116: a zero octet may be moved between the label and the data: the PRF gives the same result. -/
theorem C116_ambiguous (hmacNew : Bytes → Bytes → Py Bytes) (key A B C : Bytes) (bits : Int) :
    prfDot11 hmacNew key (A ++ [0] ++ B) C bits = prfDot11 hmacNew key A (B ++ [0] ++ C) bits := by
  have e : ∀ (octets : Int) (m i : Nat) (R : Bytes), 256 - i = m →
      prfLoop hmacNew key (A ++ [0] ++ B) C octets i R = prfLoop hmacNew key A (B ++ [0] ++ C) octets i R := by
    intro octets m
    induction m with
    | zero =>
      intro i R hi
      rw [prfLoop, prfLoop, if_neg (show ¬ i < 256 by omega), if_neg (show ¬ i < 256 by omega)]
    | succ m ih =>
      intro i R hi
      rw [prfLoop, prfLoop]
      simp only [List.append_assoc] at *
      cases hmacNew key (A ++ ([0] ++ (B ++ ([0] ++ (C ++ [UInt8.ofNat i]))))) with
      | error e => rfl
      | ok d => simp only [ih (i + 1) (R ++ d) (by omega)]
  unfold prfDot11
  simp only [e _ _ 0 [] rfl]

/-- C116: with labels free of zero octets the octet strings that are authenticated determine the label, the data and
the block number. -/
theorem C116_separated (A B A' B' : Bytes) (i j : UInt8) (hA : (0 : UInt8) ∉ A) (hA' : (0 : UInt8) ∉ A')
    (h : A ++ [0] ++ B ++ [i] = A' ++ [0] ++ B' ++ [j]) : A = A' ∧ B = B' ∧ i = j := by
  obtain ⟨h, hij⟩ := List.append_inj' h rfl
  have hij : i = j := by simpa using hij
  have key : ∀ (A A' : Bytes), (0 : UInt8) ∉ A → (0 : UInt8) ∉ A' → A ++ [0] ++ B = A' ++ [0] ++ B' → A = A' ∧ B = B' := by
    intro A
    induction A with
    | nil =>
      intro A' _ hA' h
      cases A' with
      | nil => exact ⟨rfl, by simpa using h⟩
      | cons c A' =>
        simp only [List.nil_append, List.cons_append, List.cons.injEq] at h
        exact absurd (h.1 ▸ List.mem_cons_self) hA'
    | cons c A ih =>
      intro A' hA hA' h
      cases A' with
      | nil =>
        simp only [List.nil_append, List.cons_append, List.cons.injEq] at h
        exact absurd (h.1 ▸ List.mem_cons_self) hA
      | cons c' A' =>
        simp only [List.cons_append, List.cons.injEq] at h
        obtain ⟨k1, k2⟩ := ih A' (fun hm => hA (List.mem_cons_of_mem _ hm)) (fun hm => hA' (List.mem_cons_of_mem _ hm))
          (by simpa using h.2)
        exact ⟨by rw [h.1, k1], k2⟩
  obtain ⟨k1, k2⟩ := key A A' hA hA' h
  exact ⟨k1, k2, hij⟩
example (A B : Bytes) (i : UInt8) (hA : (0 : UInt8) ∉ A) := C116_separated A B [1, 2] [0, 3] i 4 hA (by decide)

/-- C116: the six wrappers give 16, 24, 32, 48, 64 and 96 octets, the leading octets of one and the same stream: under
one label and data they are not independent of each other. -/
theorem C116_wrappers (mac : Bytes → Bytes → Bytes) (hm : ∀ k x, (mac k x).length = 20) (key A B : Bytes) :
    ∃ s : Bytes, s.length = 96 ∧
      s = ((List.range 5).flatMap fun i => mac key (A ++ [0] ++ B ++ [UInt8.ofNat i])).take 96 ∧
      prf128 (fun k m => .ok (mac k m)) key A B = .ok (s.take 16) ∧
      prf192 (fun k m => .ok (mac k m)) key A B = .ok (s.take 24) ∧
      prf256 (fun k m => .ok (mac k m)) key A B = .ok (s.take 32) ∧
      prf384 (fun k m => .ok (mac k m)) key A B = .ok (s.take 48) ∧
      prf512 (fun k m => .ok (mac k m)) key A B = .ok (s.take 64) ∧
      prf768 (fun k m => .ok (mac k m)) key A B = .ok s := by
  obtain ⟨h768, l768⟩ := C43_prf_value mac hm key A B 768 (by decide) (by decide) (by decide)
  refine ⟨prf80211 mac key A B 96, by exact_mod_cast l768, rfl, ?_, ?_, ?_, ?_, ?_, h768⟩
  all_goals
    first
    | have h := (C43_prf_value mac hm key A B 128 (by decide) (by decide) (by decide)).1
      exact h.trans (congrArg _ (C43_prf_prefix mac hm key A B 16 96 (by decide) _ _ h h768))
    | have h := (C43_prf_value mac hm key A B 192 (by decide) (by decide) (by decide)).1
      exact h.trans (congrArg _ (C43_prf_prefix mac hm key A B 24 96 (by decide) _ _ h h768))
    | have h := (C43_prf_value mac hm key A B 256 (by decide) (by decide) (by decide)).1
      exact h.trans (congrArg _ (C43_prf_prefix mac hm key A B 32 96 (by decide) _ _ h h768))
    | have h := (C43_prf_value mac hm key A B 384 (by decide) (by decide) (by decide)).1
      exact h.trans (congrArg _ (C43_prf_prefix mac hm key A B 48 96 (by decide) _ _ h h768))
    | have h := (C43_prf_value mac hm key A B 512 (by decide) (by decide) (by decide)).1
      exact h.trans (congrArg _ (C43_prf_prefix mac hm key A B 64 96 (by decide) _ _ h h768))
example := C116_wrappers (fun k m => List.replicate 20 (UInt8.ofNat (k.length + m.length))) (by simp) [1] [2] [3]

end Cryptopy
