import Verif.Lemmas.AeadGame

/-!
The one-time keys of the AEAD of `chacha_poly.py`, over all functions in place of the block function of ChaCha20.
-/

namespace Cryptopy.Cpoly
open Model (ChaCha Aead poly1305Mac macData)
open Spec (Str leValue xorBytes)
open Prf (cnt cnt_split cnt_mono cnt_congr cnt_exists cnt_true cnt_false)

theorem card_str (n : ℕ) : Fintype.card (Str n) = 256 ^ n := by
  have e : Str n ≃ (Fin n → Fin 256) := {
    toFun s i := (s.1.get (i.cast s.2.symm)).toFin
    invFun v := ⟨List.ofFn fun i => ⟨⟨v i⟩⟩, by simp⟩
    left_inv := by
      rintro ⟨s, rfl⟩
      refine Subtype.ext (List.ext_getElem (by simp) fun i h1 h2 => ?_)
      simp
    right_inv := fun v => by
      funext i
      simp }
  rw [Fintype.card_congr e, Fintype.card_fun, Fintype.card_fin, Fintype.card_fin]

theorem cipher_cipher (f : Table) (ν : BitVec 96) (pt : Bytes) : cipher f ν (cipher f ν pt) = pt := by
  have hb : blocks (cipher f ν pt) = blocks pt := by rw [blocks, length_cipher, blocks]
  rw [cipher, hb, cipher, xorBytes_self_right _ _ (by rw [length_keystream, blocks]; omega)]

theorem says_off (ν μ : BitVec 96) (h : ν ≠ μ) (aad pt ct tag : Bytes) : Off μ (Says ν aad pt ct tag) := by
  intro f g e hf
  have h1 : ∀ c, f (c, ν) = g (c, ν) := fun c => e _ h
  have h2 : cipher f ν pt = cipher g ν pt := by simp only [cipher, keystream, h1]
  have h3 : otk f ν = otk g ν := by simp only [otk, h1]
  exact ⟨h2 ▸ hf.1, h3 ▸ hf.2⟩

/-- The property does not depend on the first block of the nonce. -/
def OffKey (ν : BitVec 96) (A : Table → Prop) : Prop := ∀ f g : Table, (∀ x, x ≠ (0, ν) → f x = g x) → A f → A g

theorem offKey_of_off {ν : BitVec 96} {A : Table → Prop} (h : Off ν A) : OffKey ν A := fun f g e =>
  h f g fun x hx => e x fun e' => hx (by rw [e'])

theorem offKey_of_ne (ν μ : BitVec 96) (h : ν ≠ μ) (aad pt ct tag : Bytes) : OffKey μ (Says ν aad pt ct tag) :=
  offKey_of_off (says_off ν μ h aad pt ct tag)

theorem offKey_cipher (ν : BitVec 96) (pt ct : Bytes) (hpt : 1 + blocks pt ≤ 2 ^ 32) :
    OffKey ν fun f => cipher f ν pt = ct := by
  intro f g e hf
  have : keystream f ν (blocks pt) = keystream g ν (blocks pt) := by
    rw [keystream, keystream]
    refine List.flatMap_congr fun j hj => ?_
    rw [e _ fun h => (ne_zero j _ (List.mem_range.mp hj) hpt).1 (Prod.mk.inj h).1]
  exact (by rw [cipher, this, cipher] : cipher f ν pt = cipher g ν pt) ▸ hf

open Classical in
theorem key_le (ν : BitVec 96) (A : Table → Prop) (hA : OffKey ν A) (k k' : Str 32) :
    cnt (fun f => A f ∧ otk f ν = k.1) ≤ cnt fun f => A f ∧ otk f ν = k'.1 := by
  rw [cnt, cnt]
  refine Nat.card_le_card_of_injective (fun f => ⟨Function.update f.1 (0, ν)
    ⟨k'.1 ++ (f.1 (0, ν)).1.drop 32, by
      rw [List.length_append, List.length_drop, k'.2, (f.1 (0, ν)).2]⟩, ?_, ?_⟩) ?_
  · refine hA f.1 _ (fun x hx => ?_) f.2.1
    rw [Function.update_of_ne hx]
  · rw [otk, Function.update_self, List.take_left' k'.2]
  · rintro ⟨f, hf⟩ ⟨g, hg⟩ h
    have h := Subtype.mk.inj h
    refine Subtype.ext (funext fun x => ?_)
    by_cases hx : x = (0, ν)
    · subst hx
      have h1 := congrFun h (0, ν)
      rw [Function.update_self, Function.update_self] at h1
      have h2 := List.append_cancel_left (Subtype.mk.inj h1)
      have h3 : otk f ν = otk g ν := hf.2.trans hg.2.symm
      refine Subtype.ext ?_
      rw [← List.take_append_drop 32 (f (0, ν)).1, ← List.take_append_drop 32 (g (0, ν)).1, h2]
      exact congrArg (· ++ _) h3
    · have h1 := congrFun h x
      rwa [Function.update_of_ne hx, Function.update_of_ne hx] at h1

/-- The one-time key is independent of everything that does not depend on the first block of the nonce. -/
theorem key_card (ν : BitVec 96) (A : Table → Prop) (hA : OffKey ν A) (K : Bytes → Prop) :
    Fintype.card (Str 32) * cnt (fun f => A f ∧ K (otk f ν)) = {k : Bytes | k.length = 32 ∧ K k}.ncard * cnt A := by
  classical
  let k0 : Str 32 := ⟨List.replicate 32 0, by simp⟩
  have e : ∀ k : Str 32, cnt (fun f => A f ∧ otk f ν = k.1) = cnt fun f => A f ∧ otk f ν = k0.1 := fun k =>
    le_antisymm (key_le ν A hA k k0) (key_le ν A hA k0 k)
  have s : ∀ P : Table → Prop, cnt P = ∑ k : Str 32, cnt fun f => P f ∧ otk f ν = k.1 := fun P => by
    rw [cnt_split P fun f => (⟨otk f ν, length_otk f ν⟩ : Str 32)]
    exact Finset.sum_congr rfl fun k _ => cnt_congr fun f => and_congr_right fun _ => Subtype.ext_iff
  have hcard : {k : Bytes | k.length = 32 ∧ K k}.ncard = (Finset.univ.filter fun k : Str 32 => K k.1).card := by
    rw [← Set.ncard_coe_finset]
    refine (Set.ncard_image_of_injective _ Subtype.val_injective).symm.trans ?_ |>.symm
    congr 1
    ext k
    simp [and_comm]
  have h1 := s A
  rw [Finset.sum_congr rfl fun k _ => e k, Finset.sum_const, Finset.card_univ, smul_eq_mul] at h1
  have h2 := s fun f => A f ∧ K (otk f ν)
  have h3 : ∀ k : Str 32, cnt (fun f => (A f ∧ K (otk f ν)) ∧ otk f ν = k.1) =
      if K k.1 then cnt fun f => A f ∧ otk f ν = k0.1 else 0 := by
    intro k
    split
    · next h =>
      rw [← e k]
      exact cnt_congr fun f => ⟨fun x => ⟨x.1.1, x.2⟩, fun x => ⟨⟨x.1, x.2 ▸ h⟩, x.2⟩⟩
    · next h => exact cnt_false fun f x => h (x.2 ▸ x.1.2)
  rw [Finset.sum_congr rfl fun k _ => h3 k, ← Finset.sum_filter, Finset.sum_const, smul_eq_mul] at h2
  rw [h2, h1, hcard]
  ring

private theorem ratio (N c1 c2 a q : ℕ) (hN : 0 < N) (h1 : N * c1 = 2 ^ 128 * a) (h2 : N * c2 ≤ 8 * q * 2 ^ 22 * a) :
    2 ^ 106 * c2 ≤ 8 * q * c1 := by
  have h3 : 2 ^ 106 * (N * c2) ≤ 8 * q * (N * c1) := by
    rw [h1]
    refine (Nat.mul_le_mul_left _ h2).trans (le_of_eq ?_)
    ring
  refine Nat.le_of_mul_le_mul_left ?_ hN
  calc N * (2 ^ 106 * c2) = 2 ^ 106 * (N * c2) := by ring
    _ ≤ 8 * q * (N * c1) := h3
    _ = N * (8 * q * c1) := by ring

/-- After one tag, the tag of another message is a guess. -/
theorem key_forgery (ν : BitVec 96) (A : Table → Prop) (hA : OffKey ν A) (m m' t t' : Bytes) (hne : m ≠ m') (q : ℕ)
    (h1 : m.length ≤ 16 * q) (h2 : m'.length ≤ 16 * q) (ht : t.length = 16) (ht' : t'.length = 16) :
    2 ^ 106 * cnt (fun f => A f ∧ poly1305Mac m (otk f ν) = .ok t ∧ poly1305Mac m' (otk f ν) = .ok t') ≤
      8 * q * cnt (fun f => A f ∧ poly1305Mac m (otk f ν) = .ok t) := by
  have e1 := key_card ν A hA fun k => poly1305Mac m k = .ok t
  have e2 := key_card ν A hA fun k => poly1305Mac m k = .ok t ∧ poly1305Mac m' k = .ok t'
  rw [C139_keys m t ht] at e1
  have b := C139_forgery m m' t t' hne q h1 h2 ht ht'
  rw [card_str] at e1 e2
  exact ratio _ _ _ _ q (by positivity) e1 (e2.le.trans (Nat.mul_le_mul_right _ b))

end Cryptopy.Cpoly
