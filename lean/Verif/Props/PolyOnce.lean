import Verif.Props.Aead
import Mathlib.Data.Set.Card

/-!
C139: what one Poly1305 tag says about the key and about other tags.
-/

namespace Cryptopy
open Model (leBytesToNum numToLeBytes poly1305Mac clamp)
open Spec (leValue leBytes polyHash)
namespace PolyOnce
end PolyOnce
open PolyOnce

theorem PolyOnce.mac_pair (m r s : Bytes) (hr : r.length = 16) (hs : s.length = 16) :
    poly1305Mac m (r ++ s) = .ok (leBytes 16 (polyHash m (clamp (leValue r)) + leValue s)) := by
  rw [poly1305Mac_eq m _ (by simp [hr, hs]), List.take_left' hr,
    List.take_of_length_le (by simp [hr, hs]), List.drop_left' hr]

theorem PolyOnce.split_key (key : Bytes) (hk : key.length = 32) :
    ∃ r s : Bytes, r.length = 16 ∧ s.length = 16 ∧ key = r ++ s :=
  ⟨key.take 16, key.drop 16, by simp [hk], by simp [hk], (List.take_append_drop 16 key).symm⟩

theorem PolyOnce.value_lt (s : Bytes) (hs : s.length = 16) : leValue s < 2 ^ 128 := by
  have h := leValue_lt s
  rw [hs, show 256 ^ 16 = 2 ^ 128 by norm_num] at h
  exact h

theorem PolyOnce.value_bytes (n : Nat) : leValue (leBytes 16 n) = n % 2 ^ 128 := by
  rw [leValue_leBytes, show 256 ^ 16 = 2 ^ 128 by norm_num]

theorem PolyOnce.value_inj (s t : Bytes) (hs : s.length = 16) (ht : t.length = 16)
    (h : leValue s = leValue t) : s = t := by
  rw [← leBytes_leValue s, ← leBytes_leValue t, hs, ht, h]

theorem PolyOnce.bytes_inj (a b : Nat) (h : leBytes 16 a = leBytes 16 b) : a % 2 ^ 128 = b % 2 ^ 128 := by
  rw [← value_bytes, ← value_bytes, h]

private theorem shift_bijective (N h t : Nat) (hN : 0 < N) (ht : t < N) :
    ∃ s, s < N ∧ (h + s) % N = t ∧ ∀ s', s' < N → (h + s') % N = t → s' = s := by
  have hh := Nat.mod_lt h hN
  refine ⟨(t + (N - h % N)) % N, Nat.mod_lt _ hN, ?_, ?_⟩
  · rw [Nat.add_mod_mod, ← Nat.mod_add_mod, show h % N + (t + (N - h % N)) = t + N by omega,
      Nat.add_mod_right, Nat.mod_eq_of_lt ht]
  · intro s' hs' e
    have : (t + (N - h % N)) % N = s' := by
      rw [← e, Nat.mod_add_mod]
      have e2 : (h + s' + (N - h % N)) % N = (h % N + s' + (N - h % N)) % N := by
        rw [Nat.add_mod (h + s'), ← Nat.mod_add_mod h N s', ← Nat.add_mod]
      rw [e2, show h % N + s' + (N - h % N) = s' + N by omega, Nat.add_mod_right, Nat.mod_eq_of_lt hs']
    exact this.symm

/-- C139: for every message, every first half of the key and every tag there is exactly one second
half that gives the tag. -/
theorem C139_second_half (m r t : Bytes) (hr : r.length = 16) (ht : t.length = 16) :
    ∃! s : Bytes, s.length = 16 ∧ poly1305Mac m (r ++ s) = .ok t := by
  obtain ⟨v, hv, e, u⟩ := shift_bijective (2 ^ 128) (polyHash m (clamp (leValue r))) (leValue t)
    (by positivity) (value_lt t ht)
  refine ⟨leBytes 16 v, ⟨length_leBytes _ _, ?_⟩, ?_⟩
  · rw [mac_pair m r _ hr (length_leBytes _ _)]
    congr 1
    apply value_inj _ _ (length_leBytes _ _) ht
    rw [value_bytes, value_bytes, Nat.mod_eq_of_lt hv, e]
  · rintro s ⟨hs, h⟩
    rw [mac_pair m r s hr hs] at h
    apply value_inj _ _ hs (length_leBytes _ _)
    rw [value_bytes, Nat.mod_eq_of_lt hv]
    apply u _ (value_lt s hs)
    rw [← value_bytes, Except.ok.inj h]
example := C139_second_half [1, 2] (List.replicate 16 7) (List.replicate 16 9) rfl rfl

/-- C139: so every tag is given to a message by exactly `2^128` of the `2^256` keys: the tag of one
message says nothing about the first half of the key. -/
theorem C139_keys (m t : Bytes) (ht : t.length = 16) :
    {key : Bytes | key.length = 32 ∧ poly1305Mac m key = .ok t}.ncard = 2 ^ 128 := by
  have h : {key : Bytes | key.length = 32 ∧ poly1305Mac m key = .ok t}.ncard =
      ((Finset.range (2 ^ 128) : Finset Nat) : Set Nat).ncard := by
    refine Set.ncard_congr (fun key _ => leValue (key.take 16)) ?_ ?_ ?_
    · rintro key ⟨hk, -⟩
      rw [Finset.mem_coe, Finset.mem_range]
      exact value_lt _ (by simp [hk])
    · rintro k k' ⟨hk, e⟩ ⟨hk', e'⟩ hv
      obtain ⟨r, s, hr, hs, rfl⟩ := split_key k hk
      obtain ⟨r', s', hr', hs', rfl⟩ := split_key k' hk'
      simp only [List.take_left' hr, List.take_left' hr'] at hv
      have := value_inj r r' hr hr' hv
      subst this
      rw [(C139_second_half m r t hr ht).unique ⟨hs, e⟩ ⟨hs', e'⟩]
    · intro n hn
      rw [Finset.mem_coe, Finset.mem_range] at hn
      obtain ⟨s, ⟨hs, e⟩, -⟩ := C139_second_half m (leBytes 16 n) t (length_leBytes _ _) ht
      refine ⟨leBytes 16 n ++ s, ⟨by simp [hs], e⟩, ?_⟩
      rw [List.take_left' (length_leBytes _ _), value_bytes, Nat.mod_eq_of_lt hn]
  rw [h, Set.ncard_coe_finset, Finset.card_range]
example := C139_keys [1, 2] (List.replicate 16 9) rfl

private theorem diff_of_sum (N a b s u v : Nat) (hv : v < N) (h1 : (a + s) % N = u)
    (h2 : (b + s) % N = v) : a % N = (b % N + (u + (N - v))) % N := by
  subst h1 h2
  have : (a : Int) ≡ (b % N : Int) + ((a + s) % N + (N - (b + s) % N)) [ZMOD N] := by
    have e1 : ((a + s) % N : Int) ≡ a + s [ZMOD N] := Int.mod_modEq _ _
    have e2 : ((b + s) % N : Int) ≡ b + s [ZMOD N] := Int.mod_modEq _ _
    have e3 : (b % N : Int) ≡ b [ZMOD N] := Int.mod_modEq _ _
    have e4 : (N : Int) ≡ 0 [ZMOD N] := by simp [Int.ModEq]
    have := (e3.add (e1.add (e4.sub e2))).symm
    refine Int.ModEq.trans ?_ this
    ring_nf
    rfl
  have hle : (b + s) % N ≤ N := hv.le
  have : ((a % N : Nat) : Int) = (((b % N + ((a + s) % N + (N - (b + s) % N))) % N : Nat) : Int) := by
    push_cast [Nat.cast_sub hle]
    exact this
  exact_mod_cast this

theorem PolyOnce.clamp_fibre (c : Nat) :
    ((Finset.range (2 ^ 128)).filter fun r => clamp r = c).card ≤ 2 ^ 22 := by
  have h := card_submasks 128 0xf0000003f0000003f0000003f0000000
  have e : ((List.range 128).filter
      fun i => Nat.testBit 0xf0000003f0000003f0000003f0000000 i).length = 22 := by decide +kernel
  rw [e] at h
  rw [← h]
  generalize hN : (2 : Nat) ^ 128 = N at *
  apply Finset.card_le_card_of_injOn fun r => r &&& 0xf0000003f0000003f0000003f0000000
  · intro r hr
    rw [Finset.mem_coe, Finset.mem_filter, Finset.mem_range] at *
    refine ⟨lt_of_le_of_lt Nat.and_le_left hr.1, ?_⟩
    rw [Nat.and_assoc, Nat.and_self]
  · intro r hr r' hr' he
    rw [Finset.mem_coe, Finset.mem_filter, Finset.mem_range] at hr hr'
    simp only at he
    have h1 : clamp r = clamp r' := hr.2.trans hr'.2.symm
    rw [clamp, clamp] at h1
    have split : ∀ x, x < N → x =
        (x &&& 0x0ffffffc0ffffffc0ffffffc0fffffff) ||| (x &&& 0xf0000003f0000003f0000003f0000000) := by
      intro x hx
      rw [← Nat.and_or_distrib_left]
      have : (0x0ffffffc0ffffffc0ffffffc0fffffff ||| 0xf0000003f0000003f0000003f0000000 : Nat) = 2 ^ 128 - 1 := by
        decide +kernel
      rw [this, Nat.and_two_pow_sub_one_eq_mod, Nat.mod_eq_of_lt (by rw [hN]; exact hx)]
    rw [split r hr.1, split r' hr'.1, h1, he]

/-- C139: whoever has seen the tag of one message knows next to nothing about the tag of another:
of the `2^128` keys that remain at most `8 q 2^22` give the second message a chosen tag, for messages
of at most `16 q` octets. -/
theorem C139_forgery (m m' t t' : Bytes) (hne : m ≠ m') (q : Nat) (h1 : m.length ≤ 16 * q)
    (h2 : m'.length ≤ 16 * q) (ht : t.length = 16) (ht' : t'.length = 16) :
    {key : Bytes | key.length = 32 ∧ poly1305Mac m key = .ok t ∧ poly1305Mac m' key = .ok t'}.ncard ≤
      8 * q * 2 ^ 22 := by
  classical
  have hz : (List.replicate 16 (0 : UInt8)).length = 16 := by simp
  have hzv : leValue (List.replicate 16 (0 : UInt8)) = 0 := by decide
  obtain ⟨Δ, hΔ⟩ : ∃ Δ, Δ = leValue t + (2 ^ 128 - leValue t') := ⟨_, rfl⟩
  have bound := C28_forgery_bound m m' (List.replicate 16 0) hne q h1 h2 hz Δ
  set G := (Finset.range (2 ^ 128)).filter fun r => clamp r = r ∧
    TagsDiffer m m' (List.replicate 16 0) Δ r with hG
  let F := (Finset.range (2 ^ 128)).filter fun r => clamp r ∈ G
  have hF : F.card ≤ G.card * 2 ^ 22 := by
    rw [mul_comm]
    refine Finset.card_le_mul_card_image_of_maps_to (f := clamp) (t := G) (fun r hr => (Finset.mem_filter.1 hr).2)
      (2 ^ 22) fun c _ => ?_
    refine (Finset.card_le_card ?_).trans (clamp_fibre c)
    intro r hr
    rw [Finset.mem_filter] at hr ⊢
    exact ⟨(Finset.mem_filter.1 hr.1).1, hr.2⟩
  have hS : {key : Bytes | key.length = 32 ∧ poly1305Mac m key = .ok t ∧
      poly1305Mac m' key = .ok t'}.ncard ≤ ((F : Finset Nat) : Set Nat).ncard := by
    refine Set.ncard_le_ncard_of_injOn (fun key => leValue (key.take 16)) ?_ ?_ (Finset.finite_toSet F)
    · rintro key ⟨hk, e, e'⟩
      obtain ⟨r, s, hr, hs, rfl⟩ := split_key key hk
      simp only [List.take_left' hr]
      rw [Finset.mem_coe, Finset.mem_filter, Finset.mem_range]
      refine ⟨value_lt r hr, ?_⟩
      rw [mac_pair m r s hr hs] at e
      rw [mac_pair m' r s hr hs] at e'
      have v := congrArg leValue (Except.ok.inj e)
      have v' := congrArg leValue (Except.ok.inj e')
      rw [value_bytes] at v v'
      have hd := diff_of_sum (2 ^ 128) _ _ _ _ _ (value_lt t' ht') v v'
      have hc := C26_clamp_idempotent (leValue r)
      have hlt : clamp (leValue r) < 2 ^ 128 := hc.2.trans (by norm_num)
      rw [hG, Finset.mem_filter, Finset.mem_range]
      refine ⟨hlt, hc.1, ?_⟩
      obtain ⟨u, hu, hv⟩ := tag_value m _ (List.replicate 16 0) hlt hc.1 hz
      obtain ⟨u', hu', hv'⟩ := tag_value m' _ (List.replicate 16 0) hlt hc.1 hz
      refine ⟨u, u', hu, hu', ?_⟩
      rw [hv, hv', hzv, Nat.add_zero, Nat.add_zero, hd, hΔ]
    · rintro k ⟨hk, e, -⟩ k' ⟨hk', e', -⟩ hv
      obtain ⟨r, s, hr, hs, rfl⟩ := split_key k hk
      obtain ⟨r', s', hr', hs', rfl⟩ := split_key k' hk'
      simp only [List.take_left' hr, List.take_left' hr'] at hv
      have := value_inj r r' hr hr' hv
      subst this
      rw [(C139_second_half m r t hr ht).unique ⟨hs, e⟩ ⟨hs', e'⟩]
  rw [Set.ncard_coe_finset] at hS
  exact hS.trans (hF.trans (Nat.mul_le_mul_right _ bound))

-- Two short messages: of 2^128 keys at most 2^25 stand the test.
example (t t' : Bytes) (ht : t.length = 16) (ht' : t'.length = 16) :
    {key : Bytes | key.length = 32 ∧ poly1305Mac [1, 2] key = .ok t ∧
      poly1305Mac [1, 3] key = .ok t'}.ncard ≤ 2 ^ 25 :=
  (C139_forgery [1, 2] [1, 3] t t' (by decide) 1 (by decide) (by decide) ht ht').trans (by norm_num)

end Cryptopy
