import Verif.Props.CmacBirthday

/-!
C192: how a ciphertext of `siv_encrypt` is forged after about `2^64` encryptions, and how often with fewer.
-/

namespace Cryptopy
open Model (CipherLib aesCmac sivDecrypt)
open Spec Prf S2vTags

/-- Encrypt the empty plaintext with each of the messages of C191 as the only header.  If a message of the first and one of
the second kind give the same ciphertext, encrypt one zero octet with the first and give the first 17 octets of the answer
to `siv_decrypt` with the second. -/
def sivBirthday (q : Nat) : Asker SivQuery (Py Bytes) (Py Bytes) :=
  askAll ((lowMessages q).map fun m => .enc [] [m]) fun l => askAll ((highMessages q).map fun m => .enc [] [m]) fun h =>
    match (l.product h).find? fun p => p.1.2.toOption = p.2.2.toOption with
    | some p => .ask (.enc [0] p.1.1.ads) fun c => .ask (.dec ((c.toOption.getD []).take 17) p.2.1.ads) fun t => .done t
    | none => .done (.error .value)

/-- C192: this takes `2 * q + 1` encryptions, one decryption and `6 * q + 6` blocks in all. -/
theorem C192_cost (q : Nat) : (sivBirthday q).CostLe SivQuery.blocks (fun _ => 0) (6 * q + 6) ∧
    (sivBirthday q).CostLe SivQuery.tries (fun _ => 0) 1 ∧ (sivBirthday q).Within (fun s => s.ads.length ≤ 1) := by
  have b1 : cmacBlocks [] = 1 := by decide
  have b2 {m : Bytes} (h : m.length = 32) : cmacBlocks m = 2 := by rw [cmacBlocks, h]; decide
  have blocks {m : Bytes} (h : m.length = 32) (pt : Bytes) : (SivQuery.enc pt [m]).blocks = 2 + cmacBlocks pt := by
    rw [SivQuery.blocks, List.map_singleton, List.sum_singleton, b2 h]
  have from1 {q : Nat} {s : SivQuery} (h : s ∈ (lowMessages q).map fun m => SivQuery.enc [] [m]) :
      ∃ m, m.length = 32 ∧ s = .enc [] [m] := by
    obtain ⟨m, h1, rfl⟩ := List.mem_map.mp h
    exact ⟨m, low_length h1, rfl⟩
  have from2 {q : Nat} {s : SivQuery} (h : s ∈ (highMessages q).map fun m => SivQuery.enc [] [m]) :
      ∃ m, m.length = 32 ∧ s = .enc [] [m] := by
    obtain ⟨m, h1, rfl⟩ := List.mem_map.mp h
    exact ⟨m, high_length h1, rfl⟩
  have within {ms : List SivQuery} (hm : ∀ s ∈ ms, s.ads.length ≤ 1)
      (k : List (SivQuery × Py Bytes) → Asker SivQuery (Py Bytes) (Py Bytes))
      (hk : ∀ l : List (SivQuery × Py Bytes), l.map Prod.fst = ms → (k l).Within (fun s => s.ads.length ≤ 1)) :
      (askAll ms k).Within (fun s => s.ads.length ≤ 1) := by
    induction ms generalizing k with
    | nil => exact hk [] rfl
    | cons m ms ih =>
      exact ⟨hm m List.mem_cons_self, fun t => ih (fun s h => hm s (List.mem_cons_of_mem _ h)) _ fun l hl =>
        hk _ (by rw [List.map_cons, hl])⟩
  refine ⟨?_, ?_, ?_⟩
  · have e : 6 * q + 6 = 3 * ((lowMessages q).map fun m => SivQuery.enc [] [m]).length +
        (3 * ((highMessages q).map fun m => SivQuery.enc [] [m]).length + 6) := by
      rw [List.length_map, List.length_map, lowMessages, highMessages, List.length_map, List.length_map,
        List.length_range]
      omega
    rw [e]
    refine askAll_cost _ _ 3 _ (fun s h => ?_) _ _ fun l hl => askAll_cost _ _ 3 _ (fun s h => ?_) _ _ fun h hh => ?_
    · obtain ⟨m, h1, rfl⟩ := from1 h
      rw [blocks h1, b1]
    · obtain ⟨m, h1, rfl⟩ := from2 h
      rw [blocks h1, b1]
    split
    · rename_i p hp
      have hm := List.mem_product.mp (List.mem_of_find?_eq_some hp)
      obtain ⟨m, h1, e1⟩ := from1 (hl ▸ List.mem_map_of_mem hm.1)
      obtain ⟨m', h2, e2⟩ := from2 (hh ▸ List.mem_map_of_mem hm.2)
      have c1 : (SivQuery.enc [0] [m]).blocks = 3 := by rw [blocks h1]; decide
      rw [e1, e2]
      refine ⟨?_, fun t => ⟨?_, fun t' => Nat.zero_le _⟩⟩
      · change (SivQuery.enc [0] [m]).blocks ≤ 6
        omega
      · change (SivQuery.dec ((t.toOption.getD []).take 17) [m']).blocks ≤ 6 - (SivQuery.enc [0] [m]).blocks
        have : cmacBlocks (((t.toOption.getD []).take 17).drop 16) = 1 := by
          rw [cmacBlocks, List.length_drop, List.length_take]
          omega
        rw [c1, SivQuery.blocks, List.map_singleton, List.sum_singleton, b2 h2, this]
    · exact Nat.zero_le _
  · have e : 1 = 0 * ((lowMessages q).map fun m => SivQuery.enc [] [m]).length +
        (0 * ((highMessages q).map fun m => SivQuery.enc [] [m]).length + 1) := by omega
    rw [e]
    refine askAll_cost _ _ 0 _ (fun s h => ?_) _ _ fun l hl => askAll_cost _ _ 0 _ (fun s h => ?_) _ _ fun h hh => ?_
    · obtain ⟨m, -, rfl⟩ := from1 h
      rfl
    · obtain ⟨m, -, rfl⟩ := from2 h
      rfl
    split
    · exact ⟨Nat.zero_le _, fun t => ⟨Nat.le_refl 1, fun t' => Nat.zero_le _⟩⟩
    · exact Nat.zero_le _
  · refine within (fun s h => ?_) _ fun l hl => within (fun s h => ?_) _ fun h hh => ?_
    · obtain ⟨m, -, rfl⟩ := from1 h
      exact Nat.le_refl 1
    · obtain ⟨m, -, rfl⟩ := from2 h
      exact Nat.le_refl 1
    split
    · rename_i p hp
      have hm := List.mem_product.mp (List.mem_of_find?_eq_some hp)
      obtain ⟨m, h1, e1⟩ := from1 (hl ▸ List.mem_map_of_mem hm.1)
      obtain ⟨m', h2, e2⟩ := from2 (hh ▸ List.mem_map_of_mem hm.2)
      rw [e1, e2]
      exact ⟨Nat.le_refl 1, fun t => ⟨Nat.le_refl 1, fun t' => trivial⟩⟩
    · trivial

section
variable {aes : CipherLib} (ha : LawfulCipher aes) {key1 key2 : Bytes} (hl : key1.length = key2.length)
  (hk1 : aes.keyOk key1 = true) (hk2 : aes.keyOk key2 = true) (hinj : InjectiveOn16 (aes.enc key1))
  (hq : Quiet aes key1)
include ha hl hk1 hk2 hinj hq

/-- Two messages have the same tag under the first half of the key exactly if they give the same ciphertext as headers. -/
private theorem same_header (pt m m' : Bytes) (hp : pt.length < 16) :
    ∃ c c', Model.sivEncrypt aes (key1 ++ key2) pt [m] = .ok c ∧ Model.sivEncrypt aes (key1 ++ key2) pt [m'] = .ok c' ∧
      (c = c' ↔ aesCmac aes aes key1 m = aesCmac aes aes key1 m') := by
  have g : GoodSubkeys (aes.enc key1) := (quiet_iff aes ha key1 hk1).mp hq
  have hh : (key1 ++ key2).take ((key1 ++ key2).length / 2) = key1 := by
    rw [show (key1 ++ key2).length / 2 = key1.length by rw [List.length_append]; omega, List.take_left]
  have e := C16_siv_encrypt_rfc5297 aes ha key1 key2 hl hk1 hk2 g [m] pt (by omega)
  have e' := C16_siv_encrypt_rfc5297 aes ha key1 key2 hl hk1 hk2 g [m'] pt (by omega)
  refine ⟨_, _, e, e', ?_⟩
  have h := C125_header_change aes ha (key1 ++ key2) (by rw [hh]; exact hk1) (by rw [hh]; exact g) (by rw [hh]; exact hinj)
    [] [] m m' pt _ e
  rw [hh] at h
  have h' := C14_siv_roundtrip aes ha (key1 ++ key2) [m'] _ pt e'
  constructor
  · intro hc
    by_contra hn
    have := h.2 hn (.inl hp)
    rw [List.nil_append, hc, h'] at this
    cases this
  · intro hc
    have := (C15_siv_accepts_exactly aes ha (key1 ++ key2) [m'] _ pt).mp (h.1 hc)
    exact Except.ok.inj (this.symm.trans e')

/-- C192: as long as `aes_cmac` raises no exceptions, a ciphertext is forged exactly if the difference of two values of the
cipher under the first half of the key is one of the `q^2` differences of second blocks. -/
theorem C192_when (q : Nat) :
    Fakes (sivAnswer aes (key1 ++ key2)) (sivBirthday q) ↔ ∃ i < q, ∃ j < q,
      toBits (aes.enc key1 (ofBits 1#128)) ^^^ toBits (aes.enc key1 (ofBits 2#128)) =
        BitVec.ofNat 64 j ++ BitVec.ofNat 64 i := by
  have hit {i j : Nat} : (sivAnswer aes (key1 ++ key2) (.enc [] [ofBits 1#128 ++ ofBits (0#64 ++ BitVec.ofNat 64 i)])).toOption =
      (sivAnswer aes (key1 ++ key2) (.enc [] [ofBits 2#128 ++ ofBits (BitVec.ofNat 64 j ++ 0#64)])).toOption ↔
      toBits (aes.enc key1 (ofBits 1#128)) ^^^ toBits (aes.enc key1 (ofBits 2#128)) =
        BitVec.ofNat 64 j ++ BitVec.ofNat 64 i := by
    obtain ⟨t, ht⟩ := hq (ofBits 1#128 ++ ofBits (0#64 ++ BitVec.ofNat 64 i))
    obtain ⟨t', ht'⟩ := hq (ofBits 2#128 ++ ofBits (BitVec.ofNat 64 j ++ 0#64))
    obtain ⟨c, c', hc, hc', hcc⟩ := same_header ha hl hk1 hk2 hinj hq [] (ofBits 1#128 ++ ofBits (0#64 ++ BitVec.ofNat 64 i))
      (ofBits 2#128 ++ ofBits (BitVec.ofNat 64 j ++ 0#64)) (by decide)
    have := collide_iff ha hinj (length_ofBits _) (length_ofBits _) _ _ ht ht'
    rw [BitVec.xor_append, BitVec.zero_xor, BitVec.xor_zero] at this
    rw [← this, sivAnswer, sivAnswer, hc, hc']
    rw [ht, ht', Except.ok.injEq] at hcc
    exact Option.some_inj.trans hcc
  rw [Fakes, sivBirthday, askAll_asked, askAll_asked]
  split
  · rename_i p hp
    have hm := List.mem_product.mp (List.mem_of_find?_eq_some hp)
    have hc : p.1.2.toOption = p.2.2.toOption := of_decide_eq_true (by simpa using List.find?_some hp)
    obtain ⟨x, h1, e1⟩ := List.mem_map.mp hm.1
    obtain ⟨y, h2, e2⟩ := List.mem_map.mp hm.2
    obtain ⟨m, hm1, rfl⟩ := List.mem_map.mp h1
    obtain ⟨m', hm2, rfl⟩ := List.mem_map.mp h2
    rw [← e1, ← e2] at hc ⊢
    obtain ⟨d, d', hd, hd', hdd⟩ := same_header ha hl hk1 hk2 hinj hq [] m m' (by decide)
    obtain ⟨c, c', he, he', hee⟩ := same_header ha hl hk1 hk2 hinj hq [0] m m' (by decide)
    have hcc : c = c' := by
      simp only [sivAnswer, hd, hd'] at hc
      exact hee.mpr (hdd.mp (Option.some_inj.mp hc))
    refine iff_of_true ?_ ?_
    · have l17 : c.length = 17 := (C16_siv_lengths aes ha (key1 ++ key2) [m] c [0]).1 he
      have ans : sivAnswer aes (key1 ++ key2) (.enc [0] [m]) = .ok c := he
      refine ⟨(lowMessages q).map (fun m => .enc [] [m]) ++ ((highMessages q).map (fun m => .enc [] [m]) ++ [.enc [0] [m]]),
        c, [m'], [], ?_, ⟨[0], ?_⟩, ?_⟩
      · simp only [Asker.asked, SivQuery.ads, ans]
        change _ ++ (_ ++ [SivQuery.enc [0] [m], SivQuery.dec (c.take 17) [m']]) = _
        rw [List.take_of_length_le (by omega)]
        simp
      · exact C14_siv_roundtrip aes ha _ _ _ _ (hcc ▸ he')
      · intro pt hpt
        simp only [List.mem_append, List.mem_map, List.mem_singleton, SivQuery.enc.injEq] at hpt
        have h0 : pt = [] := by
          rcases hpt with ⟨_, _, h, _⟩ | ⟨_, _, h, _⟩ | ⟨_, h⟩
          · exact h.symm
          · exact h.symm
          · rw [List.cons.injEq] at h
            exact absurd h.1.symm (low_ne_high hm1 hm2)
        subst h0
        intro h
        have := (C16_siv_lengths aes ha (key1 ++ key2) [m'] c []).1 h
        rw [l17] at this
        cases this
    · obtain ⟨i, hi, rfl⟩ := List.mem_map.mp hm1
      obtain ⟨j, hj, rfl⟩ := List.mem_map.mp hm2
      exact ⟨i, List.mem_range.mp hi, j, List.mem_range.mp hj, hit.mp hc⟩
  · rename_i hn
    refine iff_of_false ?_ ?_
    · rintro ⟨before, c, ads, after, h, -⟩
      have : SivQuery.dec c ads ∈ before ++ SivQuery.dec c ads :: after := by simp
      rw [← h] at this
      simp [Asker.asked] at this
    · rintro ⟨i, hi, j, hj, e⟩
      have := List.find?_eq_none.mp hn ((_, sivAnswer aes (key1 ++ key2) _), (_, sivAnswer aes (key1 ++ key2) _))
        (List.mem_product.mpr
        ⟨List.mem_map_of_mem (List.mem_map_of_mem (List.mem_map_of_mem (List.mem_range.mpr hi))),
          List.mem_map_of_mem (List.mem_map_of_mem (List.mem_map_of_mem (List.mem_range.mpr hj)))⟩)
      exact this (decide_eq_true (hit.mpr e))

/-- C192: with `2^65 + 1` encryptions a ciphertext is always forged, for every cipher and key without exceptions. -/
theorem C192_certain : Fakes (sivAnswer aes (key1 ++ key2)) (sivBirthday (2 ^ 64)) :=
  (C192_when ha hl hk1 hk2 hinj hq (2 ^ 64)).mpr (all_differences _)

end

/-- C192: with AES itself `2^65 + 1` encryptions are enough to forge a ciphertext, for every key for whose first half
`aes_cmac` raises no exceptions. -/
theorem C192_aes (key1 key2 : Bytes) (hl : key1.length = key2.length) (hk1 : aesLib.keyOk key1 = true)
    (hk2 : aesLib.keyOk key2 = true) (hq : Quiet aesLib key1) :
    Fakes (sivAnswer aesLib (key1 ++ key2)) (sivBirthday (2 ^ 64)) :=
  C192_certain C147_lawful hl hk1 hk2 (fun _ _ ha hb h => Spec.Aes.encrypt_injective key1 ha hb h) hq
/-- Such keys exist; the first half is the key of the examples of RFC 4493. -/
example : Fakes (sivAnswer aesLib ([0x2b, 0x7e, 0x15, 0x16, 0x28, 0xae, 0xd2, 0xa6, 0xab, 0xf7, 0x15, 0x88, 0x09, 0xcf, 0x4f,
    0x3c] ++ List.replicate 16 7)) (sivBirthday (2 ^ 64)) :=
  C192_aes _ _ rfl (by decide +kernel) (by decide +kernel) ((quiet_iff aesLib C147_lawful _ (by decide +kernel)).mpr
    (by decide +kernel))

/-- C192: with `2 * q + 1` encryptions, and `6 * q + 6` blocks in all, a ciphertext is forged for exactly `q^2 - 1` in
`2^128 - 1` of the permutations in place of AES under the first half of the key for which there are no exceptions. -/
theorem C192_share (keyOk : Bytes → Bool) (key1 key2 : Bytes) (hl : key1.length = key2.length) (hk1 : keyOk key1 = true)
    (hk2 : keyOk key2 = true) (g : Bytes → Bytes → Bytes) (hg : ∀ k s, s.length = 16 → (g k s).length = 16)
    (q : Nat) (hq : q ≤ 2 ^ 64) :
    (2 ^ 128 - 1) * Nat.card {π : Equiv.Perm (BitVec 128) // Quiet (splitLib keyOk key1 π g) key1 ∧
        Fakes (sivAnswer (splitLib keyOk key1 π g) (key1 ++ key2)) (sivBirthday q)} =
      (q ^ 2 - 1) * Nat.card {π : Equiv.Perm (BitVec 128) // Quiet (splitLib keyOk key1 π g) key1} := by
  have law (f : BitVec 128 → BitVec 128) : LawfulCipher (splitLib keyOk key1 f g) := ⟨rfl, fun k b h => by
    change (if k = key1 then ofBits (f (toBits b)) else g k b).length = 16
    split
    · exact length_ofBits _
    · exact hg k b h⟩
  have enc (f : BitVec 128 → BitVec 128) : (splitLib keyOk key1 f g).enc key1 = fun s => ofBits (f (toBits s)) :=
    funext fun s => if_pos rfl
  refine share_of_differences (fun f => Quiet (splitLib keyOk key1 f g) key1)
    (fun f => Fakes (sivAnswer (splitLib keyOk key1 f g) (key1 ++ key2)) (sivBirthday q)) (fun f => ?_) q hq fun π hQ => ?_
  · have hz : toBits (List.replicate 16 0) = 0#128 := toBlk_zero
    rw [quiet_iff _ (law f) key1 hk1, quiet_iff _ (law _) key1 hk1, enc, enc, cmacK2, cmacK2, cmacK1, cmacK1, hz]
  · rw [C192_when (law π) hl hk1 hk2 (fun a b la lb h => by
      rw [enc] at h
      exact toBits_inj la lb (π.injective (by
        have := congrArg toBits h
        simpa only [toBits_ofBits] using this))) hQ, enc]
    simp only [toBits_ofBits]

/-- C192: exceptions cost at most one in 128 of this share of all permutations. -/
theorem C192_share_of_all (keyOk : Bytes → Bool) (key1 key2 : Bytes) (hl : key1.length = key2.length)
    (hk1 : keyOk key1 = true) (hk2 : keyOk key2 = true) (g : Bytes → Bytes → Bytes)
    (hg : ∀ k s, s.length = 16 → (g k s).length = 16) (q : Nat) (hq : q ≤ 2 ^ 64) :
    127 * (q ^ 2 - 1) * Nat.card (Equiv.Perm (BitVec 128)) ≤
      128 * (2 ^ 128 - 1) * Nat.card {π : Equiv.Perm (BitVec 128) //
        Fakes (sivAnswer (splitLib keyOk key1 π g) (key1 ++ key2)) (sivBirthday q)} := by
  exact share_of_all (fun f => Quiet (splitLib keyOk key1 f g) key1)
    (fun f => Fakes (sivAnswer (splitLib keyOk key1 f g) (key1 ++ key2)) (sivBirthday q)) q (C166_exceptions keyOk key1 hk1 g hg)
    (C192_share keyOk key1 key2 hl hk1 hk2 g hg q hq)

/-- C192: the numerator of the bound of `C166_siv_forgery` for the `6 * q + 6` blocks and the one decryption of the strategy
is at most 305 times the `q^2 - 1` of `C192_share`. -/
theorem C192_bound (q : Nat) (hq : 2 ≤ q) :
    2 * ((6 * q + 6 + 1) ^ 2 + 1) + (6 * q + 6 + 2).choose 2 ≤ 305 * (q ^ 2 - 1) := by
  have h : (6 * q + 6 + 2).choose 2 = (3 * q + 4) * (6 * q + 7) := by
    rw [Nat.choose_two_right, show (6 * q + 6 + 2) * (6 * q + 6 + 2 - 1) = 2 * ((3 * q + 4) * (6 * q + 7)) by
      rw [show 6 * q + 6 + 2 - 1 = 6 * q + 7 by omega]; ring]
    omega
  obtain ⟨k, rfl⟩ := Nat.exists_eq_add_of_le hq
  rw [h, show (2 + k) ^ 2 - 1 = k ^ 2 + 4 * k + 3 by rw [show (2 + k) ^ 2 = k ^ 2 + 4 * k + 3 + 1 by ring]; omega]
  nlinarith

end Cryptopy
