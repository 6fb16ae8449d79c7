import Verif.Lemmas.Hmac

/-!
Properties C36-C44 and C97: HMAC, PBKDF2 and the 802.11 PRF.
-/

namespace Cryptopy
open Model Spec

/-- Building an HMAC object with a key and calling it on data. -/
def hmacOnce (h : HashLib) (key data : Bytes) : Py Bytes :=
  ((Hmac.new h (some key)).call h data).2

private theorem hmacOnce_eq (h : HashLib) (key data : Bytes) :
    hmacOnce h key data = .ok (hmacWith h.H (codeKey h.H h.rawBlockSize key) data) := by
  obtain ⟨out, ho⟩ := hmac_setKey h ⟨[], [], none⟩ key
  simp only [hmacOnce, Hmac.new, ho, Hmac.call, Hmac.reset, Hmac.update, Hmac.digest, map_xor_eq,
    hmacWith, hmacOuter, hmacInner, List.nil_append]

/-- C36: with a key of at most `B` octets the object computes RFC 2104 HMAC. -/
theorem C36_hmac_rfc2104 (h : HashLib) (key data : Bytes) (hk : key.length ≤ h.rawBlockSize) :
    hmacOnce h key data = .ok (hmac h.H h.rawBlockSize key data) := by
  rw [hmacOnce_eq]
  simp [hmac, hmacKey, codeKey, hk]
example (H : Bytes → Bytes) (data : Bytes) := C36_hmac_rfc2104 ⟨64, 20, H⟩ (List.replicate 64 7) data (by simp)

/-- C37: with a longer key the pads are only as long as the digest. -/
theorem C37_hmac_long_key (h : HashLib) (key data : Bytes) (hk : h.rawBlockSize < key.length) :
    hmacOnce h key data = .ok (hmacWith h.H (h.H key) data) := by
  rw [hmacOnce_eq]
  simp [codeKey, Nat.not_le.mpr hk]
example (H : Bytes → Bytes) (data : Bytes) := C37_hmac_long_key ⟨64, 20, H⟩ (List.replicate 65 7) data (by simp)

/-- C37: if the digest has exactly `B` octets, or more, this is RFC 2104. -/
theorem C37_hmac_long_key_full_digest (h : HashLib) (key data : Bytes)
    (hk : h.rawBlockSize < key.length) (hd : h.rawBlockSize ≤ (h.H key).length) :
    hmacOnce h key data = .ok (hmac h.H h.rawBlockSize key data) := by
  rw [C37_hmac_long_key h key data hk]
  simp [hmac, hmacKey, Nat.not_le.mpr hk, Nat.sub_eq_zero_of_le hd]
example (data : Bytes) := C37_hmac_long_key_full_digest ⟨4, 4, fun s => (s ++ [1, 2, 3, 4]).take 4⟩ (List.replicate 5 7) data
  (by decide) (by decide)

/-- C37: if the digest is shorter than `B`, any agreement with RFC 2104 is a collision of the hash
function, found in the two octet strings that the outer hash is applied to. -/
theorem C37_hmac_long_key_collision (h : HashLib) (key data : Bytes) (d : Nat)
    (hk : h.rawBlockSize < key.length) (hd : d < h.rawBlockSize) (hlen : ∀ x, (h.H x).length = d)
    (heq : hmacOnce h key data = .ok (hmac h.H h.rawBlockSize key data)) :
    Collision h.H (hmacOuter h.H (h.H key) data)
      (hmacOuter h.H (hmacKey h.H h.rawBlockSize key) data) := by
  rw [C37_hmac_long_key h key data hk] at heq
  simp only [Except.ok.injEq] at heq
  refine ⟨?_, heq⟩
  intro hcon
  have := congrArg List.length hcon
  simp only [hmacOuter, List.length_append, length_xorBytes, List.length_replicate, hlen, hmacKey,
    Nat.not_le.mpr hk, if_false] at this
  omega
/-- The equation can hold, for example for a constant function in place of the hash. -/
example (data : Bytes) := C37_hmac_long_key_collision ⟨4, 1, fun _ => [9]⟩ (List.replicate 5 7) data 1 (by decide) (by decide)
  (fun _ => rfl) rfl

/-- C37: a hash function for which the result differs from RFC 2104. -/
theorem C37_hmac_long_key_differs :
    ∃ (h : HashLib) (key data : Bytes),
      h.rawBlockSize < key.length ∧ hmacOnce h key data ≠ .ok (hmac h.H h.rawBlockSize key data) := by
  refine ⟨⟨2, 1, fun s => [UInt8.ofNat s.length]⟩, [1, 2, 3], [], by decide, ?_⟩
  decide

/-! ### C38, C39: histories -/

/-- The specification of an HMAC object: no key, or the current key together with the data supplied
since the last reset point.  `mac` is the MAC function. -/
def macStep (mac : Bytes → Bytes → Bytes) :
    Option (Bytes × Bytes) → HmacOp → Option (Bytes × Bytes) × Py (Option Bytes)
  | _, .setKey k => (some (k, []), .ok none)
  | none, _ => (none, .error .stringRaise)
  | some (k, _), .reset => (some (k, []), .ok none)
  | some (k, d), .update x => (some (k, d ++ x), .ok none)
  | some (k, d), .digest => (some (k, d), .ok (some (mac k d)))
  | some (k, _), .call x => (some (k, x), .ok (some (mac k x)))

/-- Results of a history according to the specification. -/
def macRun (mac : Bytes → Bytes → Bytes) :
    Option (Bytes × Bytes) → List HmacOp → List (Py (Option Bytes))
  | _, [] => []
  | s, op :: ops => (macStep mac s op).2 :: macRun mac (macStep mac s op).1 ops

private def Rel (h : HashLib) (o : Hmac) : Option (Bytes × Bytes) → Prop
  | none => o.pads = none
  | some (k, d) =>
    o.pads = some ((codeKey h.H h.rawBlockSize k).map (· ^^^ 0x36),
      (codeKey h.H h.rawBlockSize k).map (· ^^^ 0x5C)) ∧
    o.inner = (codeKey h.H h.rawBlockSize k).map (· ^^^ 0x36) ++ d

private theorem rel_step (h : HashLib) (o : Hmac) (s : Option (Bytes × Bytes)) (op : HmacOp)
    (hr : Rel h o s) :
    let mac := fun k d => hmacWith h.H (codeKey h.H h.rawBlockSize k) d
    Rel h (o.step h op).1 (macStep mac s op).1 ∧ (o.step h op).2 = (macStep mac s op).2 := by
  intro mac
  cases op with
  | setKey k =>
    obtain ⟨out, ho⟩ := hmac_setKey h o k
    simp [Hmac.step, ho, macStep, Rel, Except.map]
  | reset =>
    cases s with
    | none => simp_all [Rel, Hmac.step, Hmac.reset, macStep, Except.map]
    | some kd => obtain ⟨k, d⟩ := kd; simp_all [Rel, Hmac.step, Hmac.reset, macStep, Except.map]
  | update x =>
    cases s with
    | none => simp_all [Rel, Hmac.step, Hmac.update, macStep, Except.map]
    | some kd => obtain ⟨k, d⟩ := kd; simp_all [Rel, Hmac.step, Hmac.update, macStep, Except.map]
  | digest =>
    cases s with
    | none => simp_all [Rel, Hmac.step, Hmac.digest, macStep, Except.map]
    | some kd =>
      obtain ⟨k, d⟩ := kd
      obtain ⟨h1, h2⟩ := hr
      simp [Rel, Hmac.step, Hmac.digest, macStep, Except.map, h1, h2, mac, hmacWith, hmacOuter, hmacInner, map_xor_eq]
  | call x =>
    cases s with
    | none => simp_all [Rel, Hmac.step, Hmac.call, Hmac.reset, macStep, Except.map]
    | some kd =>
      obtain ⟨k, d⟩ := kd
      obtain ⟨h1, h2⟩ := hr
      simp [Rel, Hmac.step, Hmac.call, Hmac.reset, Hmac.update, Hmac.digest, macStep, Except.map,
        h1, mac, hmacWith, hmacOuter, hmacInner, map_xor_eq]

private theorem rel_run (h : HashLib) (ops : List HmacOp) (o : Hmac) (s : Option (Bytes × Bytes))
    (hr : Rel h o s) :
    (Hmac.run h o ops).2 = macRun (fun k d => hmacWith h.H (codeKey h.H h.rawBlockSize k) d) s ops := by
  induction ops generalizing o s with
  | nil => rfl
  | cons op ops ih =>
    have := rel_step h o s op hr
    simp only [Hmac.run, macRun]
    rw [this.2, ih _ _ this.1]

/-- C38: every result in every history of an object built with a key is that of the specification.
The MAC is RFC 2104 HMAC for keys of at most `B` octets (C36) and the variant of C37 otherwise. -/
theorem C38_hmac_histories (h : HashLib) (key : Bytes) (ops : List HmacOp) :
    (Hmac.run h (Hmac.new h (some key)) ops).2 =
      macRun (fun k d => if k.length ≤ h.rawBlockSize then hmac h.H h.rawBlockSize k d
        else hmacWith h.H (h.H k) d) (some (key, [])) ops := by
  obtain ⟨out, ho⟩ := hmac_setKey h ⟨[], [], none⟩ key
  rw [rel_run h ops (Hmac.new h (some key)) (some (key, []))]
  · congr 1
    funext k d
    by_cases hk : k.length ≤ h.rawBlockSize
    · simp [codeKey, hk, hmac, hmacKey]
    · simp [codeKey, hk]
  · simp [Rel, Hmac.new, ho]

private theorem macRun_chunks (m : Bytes → Bytes → Bytes) (key : Bytes) (chunks : List Bytes)
    (d : Bytes) :
    (macRun m (some (key, d))
        (chunks.flatMap (fun c => [.update c, .digest]) ++ [.digest])).getLast? =
      some (.ok (some (m key (d ++ chunks.flatten)))) := by
  induction chunks generalizing d with
  | nil => simp [macRun, macStep]
  | cons c cs ih =>
    have := ih (d ++ c)
    simp only [List.flatMap_cons, List.cons_append, List.nil_append, macRun, macStep,
      List.flatten_cons]
    rw [List.getLast?_cons, List.getLast?_cons, this]
    simp

/-- C38: incremental and one-shot use agree; digests in the middle change nothing. -/
theorem C38_hmac_incremental (h : HashLib) (key : Bytes) (chunks : List Bytes) (r : Bytes)
    (hr : hmacOnce h key chunks.flatten = .ok r) :
    (Hmac.run h (Hmac.new h (some key))
      (chunks.flatMap (fun c => [.update c, .digest]) ++ [.digest])).2.getLast? =
        some (.ok (some r)) := by
  rw [hmacOnce_eq] at hr
  obtain ⟨out, ho⟩ := hmac_setKey h ⟨[], [], none⟩ key
  rw [rel_run h _ (Hmac.new h (some key)) (some (key, [])) (by simp [Rel, Hmac.new, ho]),
    macRun_chunks]
  simpa using hr

example : (Hmac.run ⟨2, 1, fun s => [UInt8.ofNat s.length]⟩
    (Hmac.new ⟨2, 1, fun s => [UInt8.ofNat s.length]⟩ (some [7])) [.update [1], .digest]).2 =
    [.ok none, .ok (some [3])] := by decide

/-- C39: without a key every method other than `setKey` raises, whatever came before. -/
theorem C39_hmac_unkeyed (h : HashLib) (ops : List HmacOp)
    (hops : ∀ k, HmacOp.setKey k ∉ ops) :
    (Hmac.run h (Hmac.new h none) ops).2 = List.replicate ops.length (.error .stringRaise) := by
  rw [rel_run h ops (Hmac.new h none) none (by simp [Rel, Hmac.new])]
  induction ops with
  | nil => rfl
  | cons op ops ih =>
    have h1 : ∀ k, HmacOp.setKey k ∉ ops := fun k hk => hops k (List.mem_cons_of_mem _ hk)
    have h2 : ∀ k, op ≠ .setKey k := fun k hk => hops k (hk ▸ List.mem_cons_self)
    cases op with
    | setKey k => exact absurd rfl (h2 k)
    | _ => simp only [macRun, macStep, List.length_cons, List.replicate_succ, ih h1]
example (h : HashLib) := C39_hmac_unkeyed h [.update [1], .reset, .digest] (by simp)

/-- C39: once a key is set the object behaves as one built with that key. -/
theorem C39_hmac_setKey_later (h : HashLib) (ops : List HmacOp) (key : Bytes) :
    (Hmac.run h (Hmac.new h none) (.setKey key :: ops)).2 =
      .ok none :: (Hmac.run h (Hmac.new h (some key)) ops).2 := by
  obtain ⟨out, ho⟩ := hmac_setKey h ⟨[], [], none⟩ key
  rw [rel_run h _ (Hmac.new h (some key)) (some (key, [])) (by simp [Rel, Hmac.new, ho]),
    rel_run h _ (Hmac.new h none) none (by simp [Rel, Hmac.new])]
  rfl

/-! ### C40-C42: PBKDF2 -/

/-- C40: the derived key is that of RFC 2898 section 5.2; fewer than one iteration counts as one. -/
theorem C40_pbkdf2_rfc2898 (P : PrfLib) (password salt : Bytes) (iterations keySize : Int)
    (hd : 0 < P.digestSize) (hF : ∀ x, (P.prf password x).length = P.digestSize)
    (hp : password.length ≤ 63) (h0 : 0 ≤ keySize) (hk : keySize ≤ 10000) :
    Model.pbkdf2 true P password salt iterations keySize =
      .ok (Spec.pbkdf2 (P.prf password) P.digestSize salt (max iterations 1).toNat keySize.toNat) := by
  obtain ⟨k, rfl⟩ := Int.eq_ofNat_of_zero_le h0
  exact pbkdf2_eq P hd password hF salt iterations k hp (by omega)
example := C40_pbkdf2_rfc2898 ⟨2, fun p x => [UInt8.ofNat (p.length + x.length), 1]⟩ [1, 2] [3] 2 7 (by decide)
  (fun _ => rfl) (by decide) (by decide) (by decide)

/-- C40 with HMAC as the pseudorandom function: as the password has at most 63 octets, a hash with
blocks of at least 63 octets gives PBKDF2-HMAC of the standard. -/
theorem C40_pbkdf2_hmac (h : HashLib) (password salt : Bytes) (iterations keySize : Int)
    (hB : 63 ≤ h.rawBlockSize) (hd : 0 < h.digestSize) (hF : ∀ x, (h.H x).length = h.digestSize)
    (hp : password.length ≤ 63) (h0 : 0 ≤ keySize) (hk : keySize ≤ 10000) :
    Model.pbkdf2 true (hmacPrf h) password salt iterations keySize =
      .ok (Spec.pbkdf2 (hmac h.H h.rawBlockSize password) h.digestSize salt (max iterations 1).toNat
        keySize.toNat) := by
  have hprf : (hmacPrf h).prf password = hmac h.H h.rawBlockSize password := by
    funext x
    have := C36_hmac_rfc2104 h password x (by omega)
    unfold hmacOnce at this
    simp only [hmacPrf, this]
  have hlen : ∀ x, ((hmacPrf h).prf password x).length = (hmacPrf h).digestSize := by
    intro x; rw [hprf]; exact hF _
  rw [C40_pbkdf2_rfc2898 (hmacPrf h) password salt iterations keySize hd hlen hp h0 hk, hprf]
  rfl
example := C40_pbkdf2_hmac ⟨64, 2, fun x => [UInt8.ofNat x.length, 1]⟩ [1, 2] [3] 2 7 (by decide) (by decide)
  (fun _ => rfl) (by decide) (by decide) (by decide)

/-- C40: where `range` rejects floats, the same calls raise `TypeError`. -/
theorem C40_pbkdf2_float_range (P : PrfLib) (password salt : Bytes) (iterations keySize : Int)
    (hd : 0 < P.digestSize) (hp : password.length ≤ 63) (hk : keySize ≤ 10000) :
    Model.pbkdf2 false P password salt iterations keySize = .error .type := by
  have h1 : ¬ password.length > 63 := by omega
  have h2 : ¬ keySize > 10000 := by omega
  have h3 : ¬ P.digestSize = 0 := by omega
  simp [Model.pbkdf2, h1, h2, h3]
example (prf : Bytes → Bytes → Bytes) := C40_pbkdf2_float_range ⟨20, prf⟩ [1, 2] [3] 2 7 (by simp) (by decide) (by decide)

/-- C41: the derived key has exactly `keySize` octets. -/
theorem C41_pbkdf2_length (P : PrfLib) (password salt : Bytes) (iterations keySize : Int)
    (hd : 0 < P.digestSize) (hF : ∀ x, (P.prf password x).length = P.digestSize)
    (hp : password.length ≤ 63) (h0 : 0 ≤ keySize) (hk : keySize ≤ 10000) :
    ∃ key, Model.pbkdf2 true P password salt iterations keySize = .ok key ∧
      (key.length : Int) = keySize := by
  refine ⟨_, C40_pbkdf2_rfc2898 P password salt iterations keySize hd hF hp h0 hk, ?_⟩
  rw [length_specPbkdf2 _ _ hd hF]
  omega
example := C41_pbkdf2_length ⟨2, fun p x => [UInt8.ofNat (p.length + x.length), 1]⟩ [1, 2] [3] 2 7 (by decide)
  (fun _ => rfl) (by decide) (by decide) (by decide)

private theorem take_prefix_append (X Y : Bytes) {a b : Nat} (hab : a ≤ b) (h : a ≤ X.length) :
    X.take a <+: (X ++ Y).take b := by
  have : X.take a = ((X ++ Y).take b).take a := by
    rw [List.take_take, Nat.min_eq_left hab, List.take_append_of_le_length h]
  rw [this]
  exact List.take_prefix _ _

/-- C41: a shorter derived key is a prefix of a longer one. -/
theorem C41_pbkdf2_prefix (P : PrfLib) (password salt : Bytes) (iterations k1 k2 : Int)
    (hd : 0 < P.digestSize) (hF : ∀ x, (P.prf password x).length = P.digestSize)
    (h0 : 0 ≤ k1) (h12 : k1 ≤ k2) (a b : Bytes)
    (ha : Model.pbkdf2 true P password salt iterations k1 = .ok a)
    (hb : Model.pbkdf2 true P password salt iterations k2 = .ok b) : a <+: b := by
  have hp : password.length ≤ 63 := by
    by_contra hp
    simp [Model.pbkdf2, Nat.lt_of_not_le hp] at ha
  have hk : k2 ≤ 10000 := by
    by_contra hk
    simp [Model.pbkdf2, Nat.not_lt.mpr hp, Int.lt_of_not_ge hk] at hb
  rw [C40_pbkdf2_rfc2898 P password salt iterations k1 hd hF hp h0 (by omega)] at ha
  rw [C40_pbkdf2_rfc2898 P password salt iterations k2 hd hF hp (by omega) hk] at hb
  simp only [Except.ok.injEq] at ha hb
  subst ha; subst hb
  unfold Spec.pbkdf2
  have hle : (k1.toNat + P.digestSize - 1) / P.digestSize ≤
      (k2.toNat + P.digestSize - 1) / P.digestSize := Nat.div_le_div_right (by omega)
  obtain ⟨m, hm⟩ := Nat.exists_eq_add_of_le hle
  rw [hm, List.range_add, List.flatMap_append]
  generalize hX : (List.range _).flatMap _ = X
  have hXl : k1.toNat ≤ X.length := by
    rw [← hX, length_flatMap_const _ _ P.digestSize (fun a => length_pbT _ _ hF _ _ _),
      List.length_range]
    exact le_ceil_mul _ _ hd
  exact take_prefix_append X _ (by omega) hXl
example := C41_pbkdf2_prefix ⟨2, fun p x => [UInt8.ofNat (p.length + x.length), 1]⟩ [1, 2] [3] 2 1 3 (by decide)
  (fun _ => rfl) (by decide) (by decide) [3] [3, 0, 3] (by decide +kernel) (by decide +kernel)

/-- C41: a password of more than 63 octets or a size above 10000 raises. -/
theorem C41_pbkdf2_limits (fr : Bool) (P : PrfLib) (password salt : Bytes)
    (iterations keySize : Int) (h : 63 < password.length ∨ 10000 < keySize) :
    Model.pbkdf2 fr P password salt iterations keySize = .error .stringRaise := by
  unfold Model.pbkdf2
  by_cases hp : password.length > 63
  · simp [hp]
  · have : keySize > 10000 := by omega
    simp [hp, this]
example (prf : Bytes → Bytes → Bytes) := C41_pbkdf2_limits true ⟨20, prf⟩ (List.replicate 64 7) [3] 2 7 (by decide)

/-- C42: the pass phrase check. -/
theorem C42_psk_assert (fr : Bool) (P : PrfLib) (hd : 0 < P.digestSize) (passPhrase ssid : Bytes)
    (hF : ∀ x, (P.prf passPhrase x).length = P.digestSize) :
    dot11PassPhraseToPSK fr P passPhrase ssid = .error .assertion ↔
      ¬ (8 ≤ passPhrase.length ∧ passPhrase.length ≤ 63) := by
  unfold dot11PassPhraseToPSK
  split
  · rename_i hl
    constructor
    · intro h
      cases fr with
      | false => rw [C40_pbkdf2_float_range P _ _ _ _ hd (by omega) (by omega)] at h; simp at h
      | true =>
        rw [C40_pbkdf2_rfc2898 P _ _ _ _ hd hF (by omega) (by omega) (by omega)] at h
        simp at h
    · intro h; omega
  · rename_i hl
    simp only [true_iff]; omega
example := C42_psk_assert true ⟨2, fun p x => [UInt8.ofNat (p.length + x.length), 1]⟩ (by decide) (List.replicate 8 7) [3]
  (fun _ => rfl)

/-- C42: the result is 32 octets of PBKDF2 with 4096 iterations. -/
theorem C42_psk_value (P : PrfLib) (hd : 0 < P.digestSize) (passPhrase ssid : Bytes)
    (hF : ∀ x, (P.prf passPhrase x).length = P.digestSize)
    (hl : 8 ≤ passPhrase.length ∧ passPhrase.length ≤ 63) :
    ∃ psk, dot11PassPhraseToPSK true P passPhrase ssid = .ok psk ∧ psk.length = 32 ∧
      psk = Spec.pbkdf2 (P.prf passPhrase) P.digestSize ssid 4096 32 := by
  have h := C40_pbkdf2_rfc2898 P passPhrase ssid 4096 32 hd hF (by omega) (by omega) (by omega)
  refine ⟨_, ?_, length_specPbkdf2 _ _ hd hF _ _ _, rfl⟩
  unfold dot11PassPhraseToPSK
  rw [if_pos (by omega), h]
  rfl

example : Model.pbkdf2 true ⟨2, fun p x => [UInt8.ofNat (p.length + x.sum.toNat), 1]⟩ [1, 2] [3] 2 3
    = .ok [6 ^^^ 9, 0, 7 ^^^ 10] := by decide

/-! ### C43, C44, C97: the 802.11 PRF -/

/-- C43: for `n` octets, `8 n < 40960` bits, the result is that of the standard and has `n` octets.
`mac` is `hmac.new(key, msg, sha).digest()`, any function with 20 octet results. -/
theorem C43_prf_value (mac : Bytes → Bytes → Bytes) (hm : ∀ k x, (mac k x).length = 20)
    (key A B : Bytes) (bits : Int) (h8 : bits % 8 = 0) (h0 : 0 ≤ bits) (h1 : bits < 40960) :
    prfDot11 (fun k m => .ok (mac k m)) key A B bits = .ok (prf80211 mac key A B (bits / 8).toNat) ∧
    ((prf80211 mac key A B (bits / 8).toNat).length : Int) = bits / 8 := by
  obtain ⟨n, rfl⟩ : ∃ n : Nat, bits = 8 * n := ⟨(bits / 8).toNat, by omega⟩
  have hn : (8 * (n : Int) / 8).toNat = n := by omega
  rw [prfDot11_eq mac hm, if_pos (by omega), hn, length_prf80211 mac hm]
  exact ⟨rfl, by omega⟩
example := C43_prf_value (fun k m => List.replicate 20 (UInt8.ofNat (k.length + m.length))) (by simp) [1] [2] [3] 384
  (by decide) (by decide) (by decide)

/-- C43: shorter outputs are prefixes of longer ones. -/
theorem C43_prf_prefix (mac : Bytes → Bytes → Bytes) (hm : ∀ k x, (mac k x).length = 20)
    (key A B : Bytes) (m n : Nat) (hmn : m ≤ n) (a b : Bytes)
    (ha : prfDot11 (fun k m => .ok (mac k m)) key A B (8 * m) = .ok a)
    (hb : prfDot11 (fun k m => .ok (mac k m)) key A B (8 * n) = .ok b) : a = b.take m := by
  rw [prfDot11_eq mac hm] at ha hb
  split at ha <;> simp at ha
  split at hb <;> simp at hb
  subst ha; subst hb
  unfold prf80211
  obtain ⟨j, hj⟩ := Nat.exists_eq_add_of_le (Nat.succ_le_succ (Nat.div_le_div_right hmn (c := 20)))
  have hj' : n / 20 + 1 = (m / 20 + 1) + j := by omega
  rw [List.take_take, Nat.min_eq_left hmn, hj', @List.range_add (m / 20 + 1) j,
    List.flatMap_append]
  symm
  apply List.take_append_of_le_length
  rw [length_flatMap_const _ _ 20 (fun a => hm _ _), List.length_range]
  omega
example := C43_prf_prefix (fun _ _ => List.replicate 20 5) (by simp) [1] [2] [3] 16 30 (by decide) (List.replicate 16 5)
  (List.replicate 30 5) (by decide +kernel) (by decide +kernel)

/-- C44: exactly which bit counts raise, and with what. -/
theorem C44_prf_raises (mac : Bytes → Bytes → Bytes) (hm : ∀ k x, (mac k x).length = 20)
    (key A B : Bytes) (bits : Int) (e : PyErr) :
    prfDot11 (fun k m => .ok (mac k m)) key A B bits = .error e ↔
      e = .value ∧ (bits % 8 ≠ 0 ∨ 5120 ≤ bits / 8) := by
  by_cases h8 : bits % 8 = 0
  · by_cases h0 : 0 ≤ bits
    · obtain ⟨n, rfl⟩ : ∃ n : Nat, bits = 8 * n := ⟨(bits / 8).toNat, by omega⟩
      rw [prfDot11_eq mac hm]
      split
      · simp; omega
      · simp only [Except.error.injEq]
        constructor
        · rintro rfl; exact ⟨rfl, Or.inr (by omega)⟩
        · rintro ⟨rfl, -⟩; rfl
    · have h1 : ¬ ((0 : Int) ≤ bits / 8) := by omega
      have h2 : ¬ (5120 ≤ bits / 8) := by omega
      unfold prfDot11 prfLoop
      simp [h8, h1, h2]
  · unfold prfDot11
    simp only [h8, ne_eq, not_false_eq_true, if_true, Except.error.injEq, true_or, and_true]
    exact eq_comm
example := (C44_prf_raises (fun k m => List.replicate 20 (UInt8.ofNat (k.length + m.length))) (by simp) [1] [2] [3] 12 .value).2
  (by decide)

/-- C44: a negative multiple of 8 gives the empty string. -/
theorem C44_prf_negative (mac : Bytes → Bytes → Bytes) (key A B : Bytes) (bits : Int)
    (h8 : bits % 8 = 0) (h0 : bits < 0) :
    prfDot11 (fun k m => .ok (mac k m)) key A B bits = .ok [] := by
  have h1 : ¬ ((0 : Int) ≤ bits / 8) := by omega
  unfold prfDot11 prfLoop
  simp [h8, h1, sliceTo_nil]
example (mac : Bytes → Bytes → Bytes) := C44_prf_negative mac [1] [2] [3] (-16) (by decide) (by decide)

/-- C97: if `import hmac` finds the sibling module, every request of a non-negative number of octets
raises `AttributeError`. -/
theorem C97_prf_sibling_import (key A B : Bytes) (n : Nat) :
    prfDot11 siblingHmacNew key A B (8 * n) = .error .attribute := by
  have h1 : (8 * (n : Int)) / 8 = n := by omega
  have h2 : (8 * (n : Int)) % 8 = 0 := by omega
  unfold prfDot11 prfLoop siblingHmacNew
  simp [h1, h2]

example : prfDot11 (fun _ m => .ok (List.replicate 20 (m.getLastD 0))) [1] [2] [3] 176 =
    .ok (List.replicate 20 0 ++ [1, 1]) := by decide +kernel

end Cryptopy
