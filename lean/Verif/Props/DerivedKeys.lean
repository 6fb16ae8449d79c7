import Verif.Lemmas.HmacChain

/-!
C171 and C172: keys derived by the 802.11 PRF and by `pbkdf2` over a random hash function.
-/

namespace Cryptopy
open Model (prfDot11 hmacPrf)
open Spec (Str Asker HmacAsk KeyAsk FreshLabels keyChance hmac)
open Chain (Table ask)

/-- The answers of the hash function and of `PRF` with one key; `hmac.new(key, msg, sha).digest()` is RFC 2104 HMAC with
blocks of 64 octets. -/
def keyAnswers (H : Bytes → Bytes) (key : Bytes) : LabelAsk → Py Bytes
  | .hash x => .ok (H x)
  | .key (A, B) n => prfDot11 (fun k m => .ok (hmac H 64 k m)) key A B (8 * n)

private theorem expand_run {R : Type} (N k : ℕ) (hk : k ≤ 64) (K : Str k) (f : Table N 20) (M : ℕ)
    (D : Asker LabelAsk (Py Bytes) R) (hW : D.Within (KeyFits M)) :
    (HmacGame.expand D).run (hmacAnswers ⟨64, 20, ask f⟩ K.1) = D.run (keyAnswers (ask f) K.1) := by
  have hg : ∀ m, hmacAnswers ⟨64, 20, ask f⟩ K.1 (.mac m) = .ok (hmac (ask f) 64 K.1 m) := fun m =>
    C36_hmac_rfc2104 _ _ _ (K.2.trans_le hk)
  induction D with
  | done r => rfl
  | ask v next ih =>
    rcases v with x | ⟨⟨A, B⟩, n⟩
    · exact ih _ (hW.2 _)
    · rw [HmacGame.expand, HmacGame.askBlocks_run _ _ _ _ hg, Asker.run, keyAnswers, List.nil_append, ih _ (hW.2 _)]
      have hn : n < 5120 := hW.1.2.2
      rw [(C43_prf_value (fun k m => hmac (ask f) 64 k m) (fun k m => Chain.length_ask f _) K.1 A B (8 * n) (by omega) (by omega)
        (by omega)).1]
      have e : (8 * (n : ℤ) / 8).toNat = n := by omega
      rw [e, Spec.prf80211]
      simp only [Nat.zero_add]

/-- C171: put a random table in place of SHA-1, and let the key be random, with at most 64 octets.  Somebody who asks for
`qH` hash values and for keys derived by `PRF`, each question chosen depending on the answers before, can hardly tell the
keys from random ones; `q` counts the blocks of 20 octets of the keys, the last one beyond the key included. -/
theorem C171_derived_keys (k N : ℕ) (hk : k ≤ 64) (hN : 84 ≤ N) {R : Type} (accept : R → Prop)
    (D : Asker LabelAsk (Py Bytes) R) (hF : FreshLabels [] D) (hW : D.Within (KeyFits N)) (qH q : ℕ)
    (hH : D.CostLe KeyAsk.hashes (fun _ => 0) qH) (hq : D.CostLe keyBlocks (fun _ => 0) q) :
    |(Nat.card {x : Str k × Table N 20 // accept (D.run (keyAnswers (ask x.2) x.1.1))} : ℚ) /
        Nat.card (Str k × Table N 20) - keyChance 20 accept [] D| ≤
      2 * qH / 256 ^ k + q * (q - 1) / 2 / 256 ^ 20 := by
  have h := HmacGame.main 64 k 20 N (by norm_num) hk hN accept (HmacGame.expand D) (HmacGame.expand_within N D hW) qH q
    (HmacGame.expand_hashes D qH hH) (HmacGame.expand_macs D q hq)
  rw [HmacGame.expand_chance accept N D [] [] [] ⟨fun _ => rfl, fun _ _ h => absurd h (by simp)⟩ hF hW] at h
  simp only [expand_run N k hk _ _ N D hW] at h
  exact h

/-- Somebody who asks for a pairwise transient key, then hashes it, then asks for a key under another label. -/
example := C171_derived_keys 32 200 (by decide) (by decide) (fun b : Bool => b = true)
  (.ask (.key ([1, 2], [3]) 48) fun t => .ask (.hash (match t with | .ok t => t.take 48 | .error _ => [])) fun s =>
    .ask (.key ([1], [2, 3]) 16) fun u => .done (decide (s = u)))
  ⟨by simp, fun _ _ => ⟨by decide, fun _ => trivial⟩⟩
  ⟨⟨by decide, by decide, by decide⟩, fun t => ⟨by
    change List.length _ ≤ 200
    rcases t with e | t
    · simp
    · rw [List.length_take]; omega, fun _ => ⟨⟨by decide, by decide, by decide⟩, fun _ => trivial⟩⟩⟩ 1 4
  ⟨by decide, fun _ => ⟨show 1 ≤ 1 by decide, fun _ => ⟨Nat.zero_le _, fun _ => Nat.zero_le _⟩⟩⟩
  ⟨by decide, fun _ => ⟨Nat.zero_le _, fun _ => ⟨show 1 ≤ 1 by decide, fun _ => Nat.zero_le _⟩⟩⟩

/-- The answers of the hash function and of `pbkdf2` with one password, with HMAC over that hash function as the
pseudorandom function. -/
def passwordAnswers (B d c : ℕ) (H : Bytes → Bytes) (password : Bytes) : KeyAsk Bytes → Py Bytes
  | .hash x => .ok (H x)
  | .key salt n => Model.pbkdf2 true (hmacPrf ⟨B, d, H⟩) password salt c n

private theorem expandPb_run {R : Type} (B N k d r : ℕ) (hd : 0 < d) (hB : 63 ≤ B) (hk : k ≤ 63) (K : Str k) (f : Table N d)
    (G : List Bytes) (M b : ℕ) (D : Asker (KeyAsk Bytes) (Py Bytes) R) (hW : D.Within (SaltFits G B M d b)) :
    (HmacGame.expandPb d r D).run (hmacAnswers ⟨B, d, ask f⟩ K.1) = D.run (passwordAnswers B d (r + 1) (ask f) K.1) := by
  have hg : ∀ m, hmacAnswers ⟨B, d, ask f⟩ K.1 (.mac m) = .ok (hmac (ask f) B K.1 m) := fun m =>
    C36_hmac_rfc2104 _ _ _ (K.2.trans_le (hk.trans hB))
  induction D with
  | done r => rfl
  | ask v next ih =>
    rcases v with x | ⟨salt, n⟩
    · exact ih _ (hW.2 _)
    · rw [HmacGame.expandPb, HmacGame.askPb_run _ _ hg d (fun x => Chain.length_ask f _), Asker.run, passwordAnswers,
        List.nil_append, ih _ (hW.2 _)]
      have hn : n ≤ 10000 := hW.1.2.2.1
      rw [C40_pbkdf2_hmac ⟨B, d, ask f⟩ K.1 salt (r + 1 : ℕ) n hB hd (fun x => Chain.length_ask f x) (K.2.trans_le hk)
        (by omega) (by omega), Spec.pbkdf2]
      have e : (max ((r + 1 : ℕ) : ℤ) 1).toNat = r + 1 := by omega
      rw [e, Int.toNat_natCast, Nat.add_sub_cancel]
      simp only [Nat.add_comm 1]

/-- C172: put a random table in place of the hash function, and let the password be random, with `k ≤ 63` octets.  Somebody
who asks for `qH` hash values and for keys derived from the password with `c` iterations, with different salts from a list
`G`, each question chosen depending on the answers before, can hardly tell the keys from random ones; `q` counts `c` for
each block of `d` octets. -/
theorem C172_password_keys (B k d N c b : ℕ) (hB : 63 ≤ B) (hk : k ≤ 63) (hd : 0 < d) (hN : B + d ≤ N) (hc : 1 ≤ c)
    (hb : b < 2 ^ 32) (G : List Bytes) {R : Type} (accept : R → Prop) (D : Asker (KeyAsk Bytes) (Py Bytes) R)
    (hF : FreshLabels [] D) (hW : D.Within (SaltFits G B N d b)) (qH q : ℕ)
    (hH : D.CostLe KeyAsk.hashes (fun _ => 0) qH) (hq : D.CostLe (saltBlocks d c) (fun _ => 0) q) :
    |(Nat.card {x : Str k × Table N d // accept (D.run (passwordAnswers B d c (ask x.2) x.1.1))} : ℚ) /
        Nat.card (Str k × Table N d) - keyChance d accept [] D| ≤
      2 * qH / 256 ^ k + q * (q - 1) / 2 / 256 ^ d + q * (q + G.length * b) / 256 ^ d := by
  obtain ⟨r, rfl⟩ : ∃ r, c = r + 1 := ⟨c - 1, by omega⟩
  have h := HmacGame.main B k d N (by omega) (hk.trans hB) hN accept (HmacGame.expandPb d r D)
    (HmacGame.expandPb_within G B N d b r hN D hW) qH q (HmacGame.expandPb_hashes d r D qH hH) (HmacGame.expandPb_macs d r D q hq)
  simp only [expandPb_run B N k d r hd hB hk _ _ G N b D hW] at h
  have h2 := HmacGame.expandPb_chance accept G B N d b r q hd hb _ le_rfl D [] [] [] [] q
    ⟨fun _ => rfl, fun _ _ h => absurd h (by simp), fun _ _ h => absurd h (by simp)⟩ hF hW hq (by simp)
  have e : (Fintype.card (Str d) : ℚ) = 256 ^ d := by
    rw [Cpoly.card_str]
    push_cast
    rfl
  rw [HmacGame.length_starts, e, ← mul_div_assoc] at h2
  push_cast at h2
  have h3 := abs_add_le (((Nat.card {x : Str k × Table N d // accept (D.run (passwordAnswers B d (r + 1) (ask x.2) x.1.1))} : ℚ) /
        Nat.card (Str k × Table N d)) - HmacGame.lazyChance d accept [] (HmacGame.expandPb d r D))
      (HmacGame.lazyChance d accept [] (HmacGame.expandPb d r D) - keyChance d accept [] D)
  rw [sub_add_sub_cancel] at h3
  exact h3.trans (add_le_add h h2)

/-- Somebody who asks for a key of a network, then hashes its name, then asks for the key of another network. -/
example := C172_password_keys 64 20 20 200 4096 2 (by decide) (by decide) (by decide) (by decide) (by decide) (by decide)
  [[1, 2], [3, 4, 5]] (fun b : Bool => b = true)
  (.ask (.key [1, 2] 32) fun t => .ask (.hash [1, 2]) fun _ => .ask (.key [3, 4, 5] 32) fun u => .done (decide (t = u)))
  ⟨by simp, fun _ _ => ⟨by decide, fun _ => trivial⟩⟩
  ⟨⟨by decide, by decide, by decide, by decide⟩, fun _ => ⟨show 2 ≤ 200 by decide, fun _ =>
    ⟨⟨by decide, by decide, by decide, by decide⟩, fun _ => trivial⟩⟩⟩ 1 16384
  ⟨by decide, fun _ => ⟨by decide, fun _ => ⟨by decide, fun _ => Nat.zero_le _⟩⟩⟩
  ⟨by decide, fun _ => ⟨by decide, fun _ => ⟨by decide, fun _ => Nat.zero_le _⟩⟩⟩

end Cryptopy
