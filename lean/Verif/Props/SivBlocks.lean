import Verif.Props.SivStream
import Verif.Props.SivKeys
import Verif.Props.AesCmac
import Verif.Lemmas.AeadForge
import Mathlib.Data.Fintype.CardEmbedding
import Mathlib.Tactic.Linarith

/-!
C196: what one long SIV ciphertext says about the plaintext.
-/

namespace Cryptopy
open Model (CipherLib)
open Spec (xorBytes Str)

/-- The block of 16 octets with number `i`. -/
def blockAt (s : Bytes) (i : ℕ) : Bytes := (s.drop (16 * i)).take 16

private theorem length_blockAt (s : Bytes) (i : ℕ) (h : 16 * i + 16 ≤ s.length) : (blockAt s i).length = 16 := by
  rw [blockAt, List.length_take, List.length_drop]; omega

private theorem blockAt_get (s : Bytes) (i o : ℕ) (ho : o < 16) : (blockAt s i).getD o 0 = s.getD (16 * i + o) 0 := by
  simp only [blockAt, List.getD_eq_getElem?_getD, List.getElem?_take, List.getElem?_drop, if_pos ho]

/-- C196: in one SIV encryption no two whole blocks are encrypted alike: what is added to the blocks of the plaintext differs from block to
block. -/
theorem C196_blocks (aes : CipherLib) (h : LawfulCipher aes) (key : Bytes) (hkey : 2 ≤ key.length)
    (hinj : InjectiveOn16 (aes.enc (key.drop (key.length - key.length / 2)))) (ads : List Bytes) (c pt : Bytes)
    (he : Model.sivEncrypt aes key pt ads = .ok c) (i j : ℕ) (hi : 16 * i + 16 ≤ pt.length) (hj : 16 * j + 16 ≤ pt.length)
    (hij : i ≠ j) :
    xorBytes (blockAt (c.drop 16) i) (blockAt pt i) ≠ xorBytes (blockAt (c.drop 16) j) (blockAt pt j) := by
  intro hx
  have hlen := (C16_siv_lengths aes h key ads c pt).1 he
  have hd : (c.drop 16).length = pt.length := by rw [List.length_drop]; omega
  have hget : ∀ i o, o < 16 → 16 * i + 16 ≤ pt.length → (xorBytes (blockAt (c.drop 16) i) (blockAt pt i)).getD o 0 =
      c.getD (16 + (16 * i + o)) 0 ^^^ pt.getD (16 * i + o) 0 := by
    intro i o ho hi
    rw [SivStream.xorBytes_get _ _ _ (by rw [length_blockAt _ _ (by omega)]; exact ho)
      (by rw [length_blockAt _ _ hi]; exact ho), blockAt_get _ _ _ ho, blockAt_get _ _ _ ho]
    simp only [List.getD_eq_getElem?_getD, List.getElem?_drop]
  refine hij ?_
  have := C130_only_then aes h key hkey ads ads c c pt pt he he hinj i j hi hj fun o ho => ?_
  · omega
  · have e := congrArg (fun s => s.getD o 0) hx
    simp only [hget i o ho hi, hget j o ho hj] at e
    have k : ∀ a b a' b' : UInt8, a ^^^ b = a' ^^^ b' → a ^^^ a' = b ^^^ b' := by
      intro a b a' b' h
      have e : a ^^^ a' = (a ^^^ b) ^^^ (b ^^^ a') := by
        rw [UInt8.xor_assoc, ← UInt8.xor_assoc b, UInt8.xor_self, UInt8.zero_xor]
      rw [e, h, UInt8.xor_comm b, ← UInt8.xor_assoc, UInt8.xor_comm a' b', UInt8.xor_assoc b', UInt8.xor_self,
        UInt8.xor_zero, UInt8.xor_comm]
    exact k _ _ _ _ e
example := C196_blocks (toyCipher 0x11) (toyCipher_lawful _) (List.replicate 32 0) (by decide) (fun _ _ _ _ h => List.map_injective_iff.mpr (fun _ _ e => (UInt8.xor_left_inj _).mp e) h)
  [[1]] ((Model.sivEncrypt (toyCipher 0x11) (List.replicate 32 0) (List.replicate 32 5) [[1]]).toOption.getD []) (List.replicate 32 5)
  (by decide +kernel) 0 1 (by decide) (by decide) (by decide)

/-- The strings of `16 n` octets that, added to `ct`, give different blocks. -/
def FitsTo (ct : Bytes) (n : ℕ) (pt : Bytes) : Prop :=
  ∀ i < n, ∀ j < n, i ≠ j → xorBytes (blockAt ct i) (blockAt pt i) ≠ xorBytes (blockAt ct j) (blockAt pt j)

private theorem same_blocks (n : ℕ) (s t : Bytes) (hs : s.length = 16 * n) (ht : t.length = 16 * n)
    (h : ∀ i < n, blockAt s i = blockAt t i) : s = t := by
  refine List.ext_getElem (by omega) fun k h1 h2 => ?_
  have e := congrArg (fun s => s.getD (k % 16) 0) (h (k / 16) (by omega))
  simp only [blockAt_get _ _ _ (Nat.mod_lt k (by norm_num : 16 > 0)), Nat.div_add_mod] at e
  rwa [List.getD_eq_getElem _ _ h1, List.getD_eq_getElem _ _ h2] at e

private theorem xor_cancel (a b c : Bytes) (ha : a.length = 16) (hb : b.length = 16) (hc : c.length = 16)
    (h : xorBytes a b = xorBytes a c) : b = c := by
  rw [xorBytes_comm a b, xorBytes_comm a c] at h
  have := congrArg (xorBytes · a) h
  simp only [xorBytes_self_right _ _ (show b.length ≤ a.length by omega),
    xorBytes_self_right _ _ (show c.length ≤ a.length by omega)] at this
  exact this

/-- C196: whatever `ct` is, the number of strings that fit to it is the number of lists of `n` different blocks. -/
theorem C196_count (n : ℕ) (ct : Bytes) (hct : ct.length = 16 * n) :
    Nat.card {pt : Str (16 * n) // FitsTo ct n pt.1} = (2 ^ 128).descFactorial n := by
  classical
  let Φ : Str (16 * n) → Fin n → Str 16 := fun pt i => ⟨xorBytes (blockAt ct i) (blockAt pt.1 i), by
    rw [length_xorBytes, length_blockAt _ _ (by have := i.2; omega), length_blockAt _ _ (by have := i.2; have := pt.2; omega)]
    rfl⟩
  have hinj : Function.Injective Φ := by
    intro s t h
    refine Subtype.ext (same_blocks n _ _ s.2 t.2 fun i hi => ?_)
    have e := congrArg Subtype.val (congrFun h ⟨i, hi⟩)
    exact xor_cancel _ _ _ (length_blockAt _ _ (by omega)) (length_blockAt _ _ (by have := s.2; omega))
      (length_blockAt _ _ (by have := t.2; omega)) e
  have hbij : Function.Bijective Φ := (Fintype.bijective_iff_injective_and_card Φ).mpr ⟨hinj, by
    rw [Fintype.card_fun, Cpoly.card_str, Cpoly.card_str, Fintype.card_fin, pow_mul]⟩
  have hfit : ∀ pt, FitsTo ct n pt.1 ↔ Function.Injective (Φ pt) := by
    intro pt
    constructor
    · intro h i j e
      by_contra hne
      exact h i i.2 j j.2 (fun h => hne (Fin.ext h)) (congrArg Subtype.val e)
    · intro h i hi j hj hne e
      exact hne (congrArg Fin.val (h (Subtype.ext e : Φ pt ⟨i, hi⟩ = Φ pt ⟨j, hj⟩)))
  have e1 : {pt : Str (16 * n) // FitsTo ct n pt.1} ≃ {g : Fin n → Str 16 // Function.Injective g} :=
    (Equiv.ofBijective Φ hbij).subtypeEquiv hfit
  rw [Nat.card_congr (e1.trans (Equiv.subtypeInjectiveEquivEmbedding _ _)), Nat.card_eq_fintype_card, Fintype.card_embedding_eq,
    Cpoly.card_str, Fintype.card_fin]
  congr 1

/-- The birthday bounds. -/
private theorem birthday (N : ℕ) (hN : 0 < N) (n : ℕ) (hn : n ≤ N) :
    0 ≤ ((N.descFactorial n : ℚ) / N ^ n) ∧ 1 - (n : ℚ) * (n - 1) / (2 * N) ≤ (N.descFactorial n : ℚ) / N ^ n ∧
    (1 + (n : ℚ) * (n - 1) / (2 * N)) * ((N.descFactorial n : ℚ) / N ^ n) ≤ 1 := by
  have hN' : (0 : ℚ) < N := by exact_mod_cast hN
  induction n with
  | zero => simp
  | succ n ih =>
    obtain ⟨h0, h1, h2⟩ := ih (by omega)
    have hs : ((N.descFactorial (n + 1) : ℚ) / N ^ (n + 1)) = (1 - n / N) * ((N.descFactorial n : ℚ) / N ^ n) := by
      rw [Nat.descFactorial_succ, Nat.cast_mul, Nat.cast_sub (by omega), pow_succ]
      field_simp
    set P := (N.descFactorial n : ℚ) / N ^ n
    rw [hs]
    obtain ⟨x, hx⟩ : ∃ x : ℚ, x = n / N := ⟨_, rfl⟩
    obtain ⟨y, hy⟩ : ∃ y : ℚ, y = (n : ℚ) * (n - 1) / (2 * N) := ⟨_, rfl⟩
    have hx0 : 0 ≤ x := by rw [hx]; positivity
    have hx1 : x ≤ 1 := by
      rw [hx, div_le_one hN']
      exact_mod_cast (show n ≤ N by omega)
    have hy0 : 0 ≤ y := by
      rw [hy]
      cases n with
      | zero => simp
      | succ n => push_cast; rw [add_sub_cancel_right]; positivity
    have he : ((n + 1 : ℕ) : ℚ) * ((n + 1 : ℕ) - 1) / (2 * N) = y + x := by
      rw [hx, hy]
      push_cast
      field_simp
      ring
    rw [he, ← hx]
    rw [← hy] at h1 h2
    have hP1 : P ≤ 1 := by nlinarith [mul_nonneg hy0 h0]
    refine ⟨mul_nonneg (by linarith) h0, ?_, ?_⟩
    · nlinarith
    · have : (1 + (y + x)) * ((1 - x) * P) ≤ (1 + y) * P := by
        have : (1 + (y + x)) * (1 - x) ≤ 1 + y := by nlinarith
        calc (1 + (y + x)) * ((1 - x) * P) = ((1 + (y + x)) * (1 - x)) * P := by ring
          _ ≤ _ := mul_le_mul_of_nonneg_right this h0
      linarith

/-- C196: for up to `2^64` blocks the share of the strings that do not fit is between `n (n - 1) / 2^130` and `n (n - 1) / 2^129`. -/
theorem C196_share (n : ℕ) (hn : n ≤ 2 ^ 64) (ct : Bytes) (hct : ct.length = 16 * n) :
    (n : ℚ) * (n - 1) / 2 ^ 130 ≤ Nat.card {pt : Str (16 * n) // ¬ FitsTo ct n pt.1} / Nat.card (Str (16 * n)) ∧
    (Nat.card {pt : Str (16 * n) // ¬ FitsTo ct n pt.1} / Nat.card (Str (16 * n)) : ℚ) ≤ (n : ℚ) * (n - 1) / 2 ^ 129 := by
  classical
  obtain ⟨N, hN⟩ : ∃ N, N = 2 ^ 128 := ⟨_, rfl⟩
  have hNp : 0 < N := by rw [hN]; positivity
  have hnN : n ≤ N := hn.trans (by rw [hN]; norm_num)
  obtain ⟨b0, b1, b2⟩ := birthday N hNp n hnN
  have hW : Nat.card (Str (16 * n)) = N ^ n := by
    rw [Nat.card_eq_fintype_card, Cpoly.card_str, pow_mul, hN]
    congr 1
  have hsum : Nat.card {pt : Str (16 * n) // FitsTo ct n pt.1} + Nat.card {pt : Str (16 * n) // ¬ FitsTo ct n pt.1} = N ^ n := by
    rw [← hW, Nat.card_eq_fintype_card, Nat.card_eq_fintype_card, Nat.card_eq_fintype_card, Fintype.card_subtype_compl]
    have := Fintype.card_subtype_le fun pt : Str (16 * n) => FitsTo ct n pt.1
    omega
  rw [C196_count n ct hct, ← hN] at hsum
  have hWp : (0 : ℚ) < (N : ℚ) ^ n := by positivity
  have e : (Nat.card {pt : Str (16 * n) // ¬ FitsTo ct n pt.1} / Nat.card (Str (16 * n)) : ℚ) =
      1 - (N.descFactorial n : ℚ) / N ^ n := by
    rw [hW, eq_sub_iff_add_eq, Nat.cast_pow, ← add_div, div_eq_one_iff_eq hWp.ne', add_comm]
    exact_mod_cast hsum
  rw [e]
  set P := (N.descFactorial n : ℚ) / N ^ n
  have hNq : (N : ℚ) = 2 ^ 128 := by rw [hN]; norm_num
  rw [hNq] at b1 b2
  have hnq : (n : ℚ) ≤ 2 ^ 64 := by exact_mod_cast hn
  obtain ⟨y, hy⟩ : ∃ y : ℚ, y = (n : ℚ) * (n - 1) / (2 * 2 ^ 128) := ⟨_, rfl⟩
  rw [← hy] at b1 b2
  have hy0 : 0 ≤ y := by
    rw [hy]
    cases n with
    | zero => simp
    | succ n => push_cast; rw [add_sub_cancel_right]; positivity
  have hy1 : y ≤ 1 := by
    rw [hy, div_le_one (by positivity)]
    have : (0 : ℚ) ≤ n := by positivity
    nlinarith
  have e1 : (n : ℚ) * (n - 1) / 2 ^ 129 = y := by rw [hy]; norm_num
  have e2 : (n : ℚ) * (n - 1) / 2 ^ 130 = y / 2 := by rw [hy]; ring
  rw [e1, e2]
  refine ⟨?_, by linarith⟩
  by_contra hlt
  push Not at hlt
  nlinarith
-- With 2^64 blocks almost a quarter does not fit.
example (ct : Bytes) (hct : ct.length = 16 * 2 ^ 64) := (C196_share (2 ^ 64) le_rfl ct hct).1

private theorem aes_key_sizes : AesKeySizes aesLib := fun k => by
  simp [aesLib, or_assoc]

private theorem long_key {key pt c : Bytes} {ads : List Bytes} (he : Model.sivEncrypt aesLib key pt ads = .ok c) : 2 ≤ key.length := by
  by_contra hlt
  have := (C152_key_sizes aesLib C147_lawful aes_key_sizes key pt ads).1.mpr (by
    simp only [List.mem_cons, List.not_mem_nil, or_false, not_or]; omega)
  rw [he] at this
  cases this

/-- C196: with AES itself, a ciphertext of `n` whole blocks rules out at least `n (n - 1)` in `2^130` of the plaintexts of its length for
everybody who knows nothing about the key, the headers and the synthetic IV. -/
theorem C196_plaintexts (n : ℕ) (hn : n ≤ 2 ^ 64) (ct : Bytes) (hct : ct.length = 16 * n) :
    (Nat.card {pt : Str (16 * n) // ∃ (key V : Bytes) (ads : List Bytes), V.length = 16 ∧
        Model.sivEncrypt aesLib key pt.1 ads = .ok (V ++ ct)} / Nat.card (Str (16 * n)) : ℚ) ≤ 1 - (n : ℚ) * (n - 1) / 2 ^ 130 := by
  classical
  have h := (C196_share n hn ct hct).1
  have hW : (0 : ℚ) < Nat.card (Str (16 * n)) := by
    rw [Nat.card_eq_fintype_card, Cpoly.card_str]; positivity
  have hle : Nat.card {pt : Str (16 * n) // ∃ (key V : Bytes) (ads : List Bytes), V.length = 16 ∧
      Model.sivEncrypt aesLib key pt.1 ads = .ok (V ++ ct)} + Nat.card {pt : Str (16 * n) // ¬ FitsTo ct n pt.1} ≤
      Nat.card (Str (16 * n)) := by
    have hsub : Nat.card {pt : Str (16 * n) // ∃ (key V : Bytes) (ads : List Bytes), V.length = 16 ∧
        Model.sivEncrypt aesLib key pt.1 ads = .ok (V ++ ct)} ≤ Nat.card {pt : Str (16 * n) // FitsTo ct n pt.1} := by
      refine Nat.card_le_card_of_injective (Subtype.map id ?_) (Subtype.map_injective _ Function.injective_id)
      rintro pt ⟨key, V, ads, hV, he⟩ i hi j hj hij
      have hb := C196_blocks aesLib C147_lawful key (long_key he) (fun _ _ ha hb h => Spec.Aes.encrypt_injective _ ha hb h) ads _ _
        he i j (by have := pt.2; omega) (by have := pt.2; omega) hij
      rwa [List.drop_left' hV] at hb
    refine (Nat.add_le_add_right hsub _).trans ?_
    rw [Nat.card_eq_fintype_card, Nat.card_eq_fintype_card, Nat.card_eq_fintype_card, Fintype.card_subtype_compl]
    have := Fintype.card_subtype_le fun pt : Str (16 * n) => FitsTo ct n pt.1
    omega
  have hle' : (Nat.card {pt : Str (16 * n) // ∃ (key V : Bytes) (ads : List Bytes), V.length = 16 ∧
      Model.sivEncrypt aesLib key pt.1 ads = .ok (V ++ ct)} : ℚ) + Nat.card {pt : Str (16 * n) // ¬ FitsTo ct n pt.1} ≤
      Nat.card (Str (16 * n)) := by exact_mod_cast hle
  have := div_le_div_of_nonneg_right hle' hW.le
  rw [add_div, div_self hW.ne'] at this
  linarith

private theorem zeros_block (n i : ℕ) (hi : i < n) : blockAt (List.replicate (16 * n) 0) i = List.replicate 16 (0 : UInt8) := by
  rw [blockAt, List.drop_replicate, List.take_replicate]
  congr 1
  omega

private theorem xor_zeros (a : Bytes) (h : a.length = 16) : xorBytes (List.replicate 16 0) a = a := by
  refine List.ext_getElem (by rw [length_xorBytes, List.length_replicate]; omega) fun k h1 h2 => ?_
  have e := SivStream.xorBytes_get (List.replicate 16 0) a k (by rw [List.length_replicate]; omega) h2
  rwa [List.getD_eq_getElem _ _ h1, List.getD_eq_getElem _ _ h2, List.getD_replicate 0 (by omega),
    UInt8.zero_xor] at e

/-- C196: the ciphertext of zeros has no two equal blocks, whatever the key and the headers are. -/
theorem C196_zeros (key c : Bytes) (ads : List Bytes) (n : ℕ)
    (he : Model.sivEncrypt aesLib key (List.replicate (16 * n) 0) ads = .ok c) (i j : ℕ) (hi : i < n) (hj : j < n) (hij : i ≠ j) :
    blockAt (c.drop 16) i ≠ blockAt (c.drop 16) j := by
  have hlen := (C16_siv_lengths aesLib C147_lawful key ads c _).1 he
  rw [List.length_replicate] at hlen
  have hb := C196_blocks aesLib C147_lawful key (long_key he) (fun _ _ ha hb h => Spec.Aes.encrypt_injective _ ha hb h) ads _ _
    he i j (by rw [List.length_replicate]; omega) (by rw [List.length_replicate]; omega) hij
  have hx : ∀ i < n, xorBytes (blockAt (c.drop 16) i) (List.replicate 16 0) = blockAt (c.drop 16) i := fun i hi => by
    rw [xorBytes_comm, xor_zeros _ (length_blockAt _ _ (by rw [List.length_drop]; omega))]
  rw [zeros_block n i hi, zeros_block n j hj, hx i hi, hx j hj] at hb
  exact hb
/-- Two zero blocks under a key that gives no exceptions. -/
example : ∃ c, Model.sivEncrypt aesLib (List.replicate 32 7) (List.replicate (16 * 2) 0) [[1]] = .ok c ∧
    blockAt (c.drop 16) 0 ≠ blockAt (c.drop 16) 1 := by
  have h : (Model.sivEncrypt aesLib (List.replicate 32 7) (List.replicate (16 * 2) 0) [[1]]).toOption.isSome = true := by decide +kernel
  cases he : Model.sivEncrypt aesLib (List.replicate 32 7) (List.replicate (16 * 2) 0) [[1]] with
  | error e => rw [he] at h; cases h
  | ok c => exact ⟨c, rfl, C196_zeros _ c _ 2 he 0 1 (by decide) (by decide) (by decide)⟩

/-- C196: of the strings of `n` blocks, up to `2^64`, between `n (n - 1)` in `2^130` and `n (n - 1)` in `2^129` have two equal blocks, so
looking for equal blocks tells one ciphertext of zeros from random octets as often. -/
theorem C196_random (n : ℕ) (hn : n ≤ 2 ^ 64) :
    (n : ℚ) * (n - 1) / 2 ^ 130 ≤ Nat.card {s : Str (16 * n) // ∃ i < n, ∃ j < n, i ≠ j ∧ blockAt s.1 i = blockAt s.1 j} /
      Nat.card (Str (16 * n)) ∧
    (Nat.card {s : Str (16 * n) // ∃ i < n, ∃ j < n, i ≠ j ∧ blockAt s.1 i = blockAt s.1 j} / Nat.card (Str (16 * n)) : ℚ) ≤
      (n : ℚ) * (n - 1) / 2 ^ 129 := by
  have h := C196_share n hn (List.replicate (16 * n) 0) (List.length_replicate ..)
  have e : ∀ s : Str (16 * n), (∃ i < n, ∃ j < n, i ≠ j ∧ blockAt s.1 i = blockAt s.1 j) ↔
      ¬ FitsTo (List.replicate (16 * n) 0) n s.1 := by
    intro s
    have hx : ∀ i < n, xorBytes (blockAt (List.replicate (16 * n) 0) i) (blockAt s.1 i) = blockAt s.1 i := fun i hi => by
      rw [zeros_block n i hi, xor_zeros _ (length_blockAt _ _ (by have := s.2; omega))]
    rw [FitsTo]
    push Not
    constructor
    · rintro ⟨i, hi, j, hj, hij, e⟩
      exact ⟨i, hi, j, hj, hij, by rw [hx i hi, hx j hj, e]⟩
    · rintro ⟨i, hi, j, hj, hij, e⟩
      exact ⟨i, hi, j, hj, hij, by rw [hx i hi, hx j hj] at e; exact e⟩
  rw [Nat.card_congr (Equiv.subtypeEquivRight e)]
  exact h
-- One ciphertext of 2^36 octets is told from random octets with a chance of one in 2^67.
example := (C196_random (2 ^ 32) (by norm_num)).1

end Cryptopy
