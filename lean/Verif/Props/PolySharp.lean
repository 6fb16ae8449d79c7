import Verif.Props.PolyOnce
import Verif.Props.TwoKeys
import Verif.Lemmas.AeadForge

/-!
C195: how close the forgery bound of Poly1305 is to the truth.
-/

namespace Cryptopy
open Model Spec PolyOnce
namespace PolySharp
end PolySharp
open PolySharp

/-- There are more strings of at most `16 q` octets than lists of `q` tags. -/
private theorem more_strings (q : ℕ) (hq : 1 ≤ q) (F : Bytes → Fin q → Str 16) :
    ∃ m m' : Bytes, m ≠ m' ∧ m.length ≤ 16 * q ∧ m'.length ≤ 16 * q ∧ F m = F m' := by
  let e : Option (Str (16 * q)) → Bytes := fun o => o.elim [] Subtype.val
  have he : Function.Injective e := by
    have h0 : ∀ s : Str (16 * q), s.1 ≠ [] := fun s h => by
      have := s.2
      rw [h] at this
      simp only [List.length_nil] at this
      omega
    rintro (_ | s) (_ | s') h
    · rfl
    · exact absurd h.symm (h0 s')
    · exact absurd h (h0 s)
    · exact congrArg some (Subtype.ext h)
  have hl : ∀ o, (e o).length ≤ 16 * q := by
    rintro (_ | s)
    · exact Nat.zero_le _
    · exact s.2.le
  have hc : Fintype.card (Fin q → Str 16) < Fintype.card (Option (Str (16 * q))) := by
    rw [Fintype.card_option, Cpoly.card_str, Fintype.card_fun, Cpoly.card_str, Fintype.card_fin, ← pow_mul]
    exact Nat.lt_succ_self _
  obtain ⟨o, o', hne, h⟩ := Fintype.exists_ne_map_eq_of_card_lt (fun o => F (e o)) hc
  exact ⟨e o, e o', fun h => hne (he h), hl o, hl o', h⟩

/-- C195: for any `q` keys there are two messages of at most `16 q` octets that have the same tag under each of the keys. -/
theorem C195_any_keys (q : ℕ) (hq : 1 ≤ q) (keys : Fin q → Bytes) (hk : ∀ j, (keys j).length = 32) :
    ∃ m m' : Bytes, m ≠ m' ∧ m.length ≤ 16 * q ∧ m'.length ≤ 16 * q ∧
      ∀ j, ∃ t, poly1305Mac m (keys j) = .ok t ∧ poly1305Mac m' (keys j) = .ok t := by
  obtain ⟨m, m', hne, h1, h2, h⟩ := more_strings q hq fun m j =>
    ⟨poly1305 m (keys j), by rw [poly1305, length_leBytes]⟩
  refine ⟨m, m', hne, h1, h2, fun j => ⟨_, C25_poly1305_rfc m _ (hk j), ?_⟩⟩
  rw [C25_poly1305_rfc m' _ (hk j)]
  exact congrArg _ (congrArg Subtype.val (congrFun h j)).symm
example := C195_any_keys 3 (by decide) (fun j => List.replicate 32 (UInt8.ofNat j)) (fun j => by simp)

/-- Each clamped number comes from `2^22` numbers. -/
private theorem fibre_eq (c : ℕ) (hc : clamp c = c) (hlt : c < 2 ^ 128) :
    ((Finset.range (2 ^ 128)).filter fun r => clamp r = c).card = 2 ^ 22 := by
  classical
  obtain ⟨C, hC⟩ : ∃ C, C = (Finset.range (2 ^ 128)).filter fun r => clamp r = r := ⟨_, rfl⟩
  have hcard : C.card = 2 ^ 106 := by rw [hC]; exact C28_clamped_count
  have hmem : c ∈ C := by rw [hC, Finset.mem_filter, Finset.mem_range]; exact ⟨hlt, hc⟩
  have hsum : (Finset.range (2 ^ 128)).card = ∑ b ∈ C, ((Finset.range (2 ^ 128)).filter fun r => clamp r = b).card := by
    refine Finset.card_eq_sum_card_fiberwise fun r _ => ?_
    have h := C26_clamp_idempotent r
    rw [hC, Finset.mem_coe, Finset.mem_filter, Finset.mem_range]
    exact ⟨h.2.trans (by norm_num), h.1⟩
  have htot : ∑ b ∈ C, ((Finset.range (2 ^ 128)).filter fun r => clamp r = b).card = ∑ _b ∈ C, 2 ^ 22 := by
    rw [← hsum, Finset.card_range, Finset.sum_const, hcard, smul_eq_mul, ← pow_add]
  exact (Finset.sum_eq_sum_iff_of_le fun b _ => clamp_fibre b).mp htot c hmem

open scoped Classical in
/-- `q` clamped values of the first half of the key. -/
theorem PolySharp.some_clamped (q : ℕ) (hq2 : q ≤ 2 ^ 106) :
    ∃ c : Fin q → ℕ, Function.Injective c ∧ ∀ j, c j < 2 ^ 128 ∧ clamp (c j) = c j := by
  obtain ⟨R, hR, hRq⟩ := Finset.exists_subset_card_eq (hq2.trans C28_clamped_count.ge)
  refine ⟨fun j => ((R.equivFinOfCardEq hRq).symm j).1, fun i j h => (R.equivFinOfCardEq hRq).symm.injective (Subtype.ext h), fun j => ?_⟩
  have := hR ((R.equivFinOfCardEq hRq).symm j).2
  rwa [Finset.mem_filter, Finset.mem_range] at this

/-- The key with the given first half and zeros. -/
def PolySharp.zeroKey (c : ℕ) : Bytes := leBytes 16 c ++ List.replicate 16 0

theorem PolySharp.length_zeroKey (c : ℕ) : (zeroKey c).length = 32 := by
  rw [zeroKey, List.length_append, length_leBytes, List.length_replicate]

/-- What messages share under keys with zeros they share under all keys with the same first halves. -/
theorem PolySharp.many_keys_each {ι : Type} [Fintype ι] (c : ι → ℕ) (hc : Function.Injective c)
    (hcl : ∀ j, c j < 2 ^ 128 ∧ clamp (c j) = c j) (m : Bytes) (m' : ι → Bytes)
    (h : ∀ j, ∃ t, poly1305Mac m (zeroKey (c j)) = .ok t ∧ poly1305Mac (m' j) (zeroKey (c j)) = .ok t) (t : Bytes)
    (ht : t.length = 16) :
    Fintype.card ι * 2 ^ 22 ≤
      {key : Bytes | key.length = 32 ∧ poly1305Mac m key = .ok t ∧ ∃ j, poly1305Mac (m' j) key = .ok t}.ncard := by
  classical
  obtain ⟨q, hι⟩ : ∃ q, q = Fintype.card ι := ⟨_, rfl⟩
  rw [← hι]
  have hz : (List.replicate 16 (0 : UInt8)).length = 16 := by simp
  have hzv : leValue (List.replicate 16 (0 : UInt8)) = 0 := by decide
  have hash : ∀ j, polyHash m (c j) % 2 ^ 128 = polyHash (m' j) (c j) % 2 ^ 128 := by
    intro j
    obtain ⟨t, e, e'⟩ := h j
    rw [zeroKey, mac_pair _ _ _ (length_leBytes _ _) hz, value_bytes, Nat.mod_eq_of_lt (hcl j).1, (hcl j).2, hzv] at e e'
    exact bytes_inj _ _ (Except.ok.inj (e.trans e'.symm))
  let R := Finset.univ.image c
  have hRq : R.card = q := by rw [Finset.card_image_of_injective _ hc, Finset.card_univ, hι]
  have hR : ∀ b, b ∈ R ↔ ∃ j, c j = b := fun b => by simp [R]
  let F := (Finset.range (2 ^ 128)).filter fun r => clamp r ∈ R
  have hF : F.card = q * 2 ^ 22 := by
    have hs : F.card = ∑ b ∈ R, (F.filter fun r => clamp r = b).card :=
      Finset.card_eq_sum_card_fiberwise fun r hr => (Finset.mem_filter.1 hr).2
    rw [hs, Finset.sum_congr rfl (g := fun _ => 2 ^ 22), Finset.sum_const, hRq, smul_eq_mul]
    intro b hb
    obtain ⟨j, rfl⟩ := (hR b).mp hb
    refine Eq.trans (congrArg Finset.card ?_) (fibre_eq (c j) (hcl j).2 (hcl j).1)
    ext r
    simp only [F, Finset.mem_filter]
    constructor
    · exact fun h => ⟨h.1.1, h.2⟩
    · exact fun h => ⟨⟨h.1, h.2 ▸ hb⟩, h.2⟩
  have ex : ∀ r : ℕ, ∃ s : Bytes, s.length = 16 ∧ poly1305Mac m (leBytes 16 r ++ s) = .ok t := fun r =>
    (C139_second_half m (leBytes 16 r) t (length_leBytes _ _) ht).exists
  choose s hs hm using ex
  rw [← hF, ← Set.ncard_coe_finset]
  refine Set.ncard_le_ncard_of_injOn (fun r => leBytes 16 r ++ s r) ?_ ?_ ?_
  · intro r hr
    rw [Finset.mem_coe, Finset.mem_filter, Finset.mem_range] at hr
    obtain ⟨j, hj⟩ := (hR _).mp hr.2
    refine ⟨by rw [List.length_append, length_leBytes, hs], hm r, j, ?_⟩
    rw [← hm r, mac_pair _ _ _ (length_leBytes _ _) (hs r), mac_pair _ _ _ (length_leBytes _ _) (hs r), value_bytes,
      Nat.mod_eq_of_lt hr.1]
    refine congrArg Except.ok ?_
    apply value_inj _ _ (length_leBytes _ _) (length_leBytes _ _)
    rw [value_bytes, value_bytes, ← Nat.mod_add_mod, ← hj, ← hash j, Nat.mod_add_mod]
  · intro r hr r' hr' e
    rw [Finset.mem_coe, Finset.mem_filter, Finset.mem_range] at hr hr'
    have := congrArg leValue (List.append_inj_left e (by rw [length_leBytes, length_leBytes]))
    rwa [value_bytes, value_bytes, Nat.mod_eq_of_lt hr.1, Nat.mod_eq_of_lt hr'.1] at this
  · have : {key : Bytes | key.length = 32 ∧ poly1305Mac m key = .ok t}.Finite :=
      Set.finite_of_ncard_ne_zero (by rw [C139_keys m t ht]; positivity)
    exact this.subset fun k hk => ⟨hk.1, hk.2.1⟩

theorem PolySharp.many_keys (q : ℕ) (c : Fin q → ℕ) (hc : Function.Injective c) (hcl : ∀ j, c j < 2 ^ 128 ∧ clamp (c j) = c j)
    (m m' : Bytes) (h : ∀ j, ∃ t, poly1305Mac m (zeroKey (c j)) = .ok t ∧ poly1305Mac m' (zeroKey (c j)) = .ok t) (t : Bytes)
    (ht : t.length = 16) :
    q * 2 ^ 22 ≤ {key : Bytes | key.length = 32 ∧ poly1305Mac m key = .ok t ∧ poly1305Mac m' key = .ok t}.ncard := by
  have h1 := many_keys_each c hc hcl m (fun _ => m') h t ht
  rw [Fintype.card_fin] at h1
  refine h1.trans (Set.ncard_le_ncard (fun k hk => ⟨hk.1, hk.2.1, hk.2.2.choose_spec⟩) ?_)
  have : {key : Bytes | key.length = 32 ∧ poly1305Mac m key = .ok t}.Finite :=
    Set.finite_of_ncard_ne_zero (by rw [C139_keys m t ht]; positivity)
  exact this.subset fun k hk => ⟨hk.1, hk.2.1⟩

/-- C195: for every `q` up to `2^106` there are two messages of at most `16 q` octets such that, whichever tag `t` the first one gets, at
least `q 2^22` of the `2^128` keys that give it this tag give the other message the same tag: who has seen a message and its tag and
presents the other message with the same tag is believed with a chance of at least `q / 2^106`. -/
theorem C195_forgery (q : ℕ) (hq : 1 ≤ q) (hq2 : q ≤ 2 ^ 106) :
    ∃ m m' : Bytes, m ≠ m' ∧ m.length ≤ 16 * q ∧ m'.length ≤ 16 * q ∧ ∀ t : Bytes, t.length = 16 →
      q * 2 ^ 22 ≤ {key : Bytes | key.length = 32 ∧ poly1305Mac m key = .ok t ∧ poly1305Mac m' key = .ok t}.ncard ∧
      {key : Bytes | key.length = 32 ∧ poly1305Mac m key = .ok t ∧ poly1305Mac m' key = .ok t}.ncard ≤ 8 * (q * 2 ^ 22) := by
  obtain ⟨c, hc, hcl⟩ := some_clamped q hq2
  obtain ⟨m, m', hne, h1, h2, h⟩ := C195_any_keys q hq (fun j => zeroKey (c j)) fun j => length_zeroKey _
  refine ⟨m, m', hne, h1, h2, fun t ht => ⟨many_keys q c hc hcl m m' h t ht, ?_⟩⟩
  rw [← mul_assoc]
  exact C139_forgery m m' t t hne q h1 h2 ht ht
-- Two messages of at most a megabyte that share their tags for one in 2^90 of the keys.
example := C195_forgery (2 ^ 16) (by norm_num) (by norm_num)

/-- The strings of `q + 1` blocks that share their list of `q` tags with no other string of this length. -/
theorem PolySharp.few_alone (q : ℕ) (F : Bytes → Fin q → Str 16) :
    Nat.card {m : Str (16 * (q + 1)) // ∀ m' : Bytes, m'.length = 16 * (q + 1) → F m.1 = F m' → m.1 = m'} ≤ 2 ^ (128 * q) := by
  have h := Nat.card_le_card_of_injective
    (fun m : {m : Str (16 * (q + 1)) // ∀ m' : Bytes, m'.length = 16 * (q + 1) → F m.1 = F m' → m.1 = m'} => F m.1.1)
    fun m m' e => Subtype.ext (Subtype.ext (m.2 m'.1.1 m'.1.2 e))
  rw [Nat.card_eq_fintype_card (α := Fin q → Str 16), Fintype.card_fun, Cpoly.card_str, Fintype.card_fin] at h
  refine h.trans (le_of_eq ?_)
  rw [pow_mul]
  congr 1

/-- C195: and this goes for almost every message: of the `2^(128 (q + 1))` messages of `q + 1` blocks at most `2^(128 q)` have no partner of
the same length with which they share each of their tags for at least `q 2^22` keys. -/
theorem C195_most (q : ℕ) (hq2 : q ≤ 2 ^ 106) :
    Nat.card {m : Str (16 * (q + 1)) // ¬ ∃ m' : Bytes, m'.length = 16 * (q + 1) ∧ m.1 ≠ m' ∧ ∀ t : Bytes, t.length = 16 →
      q * 2 ^ 22 ≤ {key : Bytes | key.length = 32 ∧ poly1305Mac m.1 key = .ok t ∧ poly1305Mac m' key = .ok t}.ncard} ≤
      2 ^ (128 * q) := by
  obtain ⟨c, hc, hcl⟩ := some_clamped q hq2
  let F : Bytes → Fin q → Str 16 := fun m j => ⟨poly1305 m (zeroKey (c j)), by rw [poly1305, length_leBytes]⟩
  refine le_trans (Nat.card_le_card_of_injective (Subtype.map id ?_) (Subtype.map_injective _ Function.injective_id)) (few_alone q F)
  intro m hm m' hl e
  by_contra hne
  refine hm ⟨m', hl, hne, fun t ht => many_keys q c hc hcl m.1 m' (fun j => ⟨_, C25_poly1305_rfc _ _ (length_zeroKey _), ?_⟩) t ht⟩
  rw [C25_poly1305_rfc _ _ (length_zeroKey _)]
  exact congrArg _ (congrArg Subtype.val (congrFun e j)).symm
example := C195_most (2 ^ 16) (by norm_num)

/-- C195: for any `q` objects and nonces and any associated data there are two ciphertexts of at most `16 q` octets which each of the objects
returns with the same tag, for two plaintexts of its own: a recipient with any of these objects does not notice that one ciphertext was
replaced by the other. -/
theorem C195_aead (rand1 rand2 : Bytes) (q : ℕ) (hq : 1 ≤ q) (o : Fin q → Aead) (aad iv : Fin q → Bytes)
    (hk : ∀ j, (o j).key.length = 32) (hn : ∀ j, ((o j).constant ++ iv j).length = 12) :
    ∃ ct ct' : Bytes, ct ≠ ct' ∧ ct.length ≤ 16 * q ∧ ct'.length ≤ 16 * q ∧ ∀ j, ∃ pt pt' t : Bytes,
      (o j).encrypt rand1 rand2 (aad j) (iv j) pt = .ok (ct, t) ∧ (o j).encrypt rand1 rand2 (aad j) (iv j) pt' = .ok (ct', t) := by
  obtain ⟨ct, ct', hne, h1, h2, h⟩ := more_strings q hq fun ct j =>
    ⟨Spec.poly1305 (aad j ++ Spec.pad16 (aad j) ++ ct ++ Spec.pad16 ct ++ leBytes 8 (aad j).length ++ leBytes 8 ct.length)
        ((chachaBlock (o j).key 0 ((o j).constant ++ iv j)).take 32), by rw [poly1305, length_leBytes]⟩
  refine ⟨ct, ct', hne, h1, h2, fun j => ?_⟩
  obtain ⟨pt, e⟩ := PolyReach.encrypt_onto rand1 rand2 (o j) (aad j) (iv j) ct (hk j) (hn j)
  obtain ⟨pt', e'⟩ := PolyReach.encrypt_onto rand1 rand2 (o j) (aad j) (iv j) ct' (hk j) (hn j)
  refine ⟨pt, pt', _, e, ?_⟩
  rw [e']
  exact congrArg (fun u => Except.ok (ct', u)) (congrArg Subtype.val (congrFun h j)).symm
example := C195_aead [] [] 2 (by decide) (fun j => { key := List.replicate 32 (UInt8.ofNat j), constant := List.replicate 4 1 })
  (fun _ => [1]) (fun _ => List.replicate 8 2) (fun j => by simp) (fun j => by simp)

end Cryptopy
