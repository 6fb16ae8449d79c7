import Verif.Lemmas.DictionaryGame
import Verif.Props.KeyWork

/-!
C173: what a key derived by `pbkdf2` tells somebody who has a dictionary of passwords.
-/

namespace Cryptopy
open Model (PrfLib dot11PassPhraseToPSK)
open Spec (Str Asker pbT pbU beBytes xorBytes)
open Dict (Pw Big look)
open Prf (cnt)

/-- The class of pseudorandom functions with the values of a table. -/
def bigPrf {n d : ℕ} (F : Big n d) : PrfLib where
  digestSize := d
  prf p x := look F (p, x)

theorem bigPrf_key {n d : ℕ} (hd : 0 < d) (F : Big n d) (p : Pw) (salt : Bytes) (c keySize B : ℕ) (hc : 1 ≤ c)
    (hk' : keySize ≤ 10000) (hB : B = (keySize + d - 1) / d) :
    Model.pbkdf2 true (bigPrf F) p.1 salt c keySize =
      .ok ((Dict.full c B (Dict.one salt) p F).1.take keySize) := by
  subst hB
  rw [C40_pbkdf2_rfc2898 (bigPrf F) p.1 salt c keySize hd (fun x => Dict.length_look F _) p.2 (by omega) (by omega)]
  have e : (bigPrf F).prf p.1 = Chain.ask (Dict.sl F p) := funext fun x => Dict.look_pw F p x
  have e2 : (max (c : ℤ) 1).toNat = c := by omega
  rw [e, e2, Int.toNat_natCast]
  rfl

/-- C173: put random tables in place of the pseudorandom functions under all passwords.  A password is taken at random from
a dictionary `G`, and somebody gets the key that `pbkdf2` derives from it with `c` iterations.  They may then ask for `q`
values of the tables, each password and each string chosen depending on what came before.  Up to the given difference,
what comes out is what comes out for somebody with a random string in place of the key; `B` is the number of blocks. -/
theorem C173_dictionary (n d c keySize B M : ℕ) (hd : 0 < d) (hn : d ≤ n) (hc : 1 ≤ c) (salt : Bytes) (hs : salt.length + 4 ≤ n)
    (hk : 0 < keySize) (hk' : keySize ≤ 10000) (hB : B = (keySize + d - 1) / d) (hM : M = B * c) (G : Finset Pw)
    (hG : G.Nonempty) {R : Type} (accept : Bytes → R → Prop) (D : Bytes → Asker (Bytes × Bytes) Bytes R) (q : ℕ)
    (hq : ∀ key, (D key).CostLe (fun _ => 1) (fun _ => 0) q) :
    |(Nat.card {x : Big n d × G // ∃ key, Model.pbkdf2 true (bigPrf x.1) x.2.1.1 salt c keySize = .ok key ∧
          accept x.2.1.1 ((D key).run (look x.1))} : ℚ) / Nat.card (Big n d × G) -
        (Nat.card {x : Big n d × G × Str keySize // accept x.2.1.1.1 ((D x.2.2.1).run (look x.1))} : ℚ) /
          Nat.card (Big n d × G × Str keySize)| ≤
      q / (c * G.card) + (M * (M - 1) / 2 + (M - 1) * B + M * q) / 256 ^ d := by
  classical
  have hB2 : B = (keySize - 1) / d + 1 := by
    rw [hB, show keySize + d - 1 = keySize - 1 + d by omega, Nat.add_div_right _ hd]
  have hB0 : 0 < B := by rw [hB2]; exact Nat.succ_pos _
  have hB1 : B < 2 ^ 32 := by
    have := Nat.div_le_self (keySize - 1) d
    rw [hB2]
    omega
  have hle : keySize ≤ B * d := by
    have h1 := Nat.mod_add_div (keySize - 1) d
    have h2 := Nat.mod_lt (keySize - 1) hd
    rw [hB2, Nat.succ_mul, Nat.mul_comm]
    omega
  have hN := HmacGame.card_pos d
  have hg : (0 : ℚ) < G.card := by exact_mod_cast hG.card_pos
  have hF : (0 : ℚ) < Fintype.card (Big n d) := by
    have : Nonempty (Big n d) := ⟨fun _ => ⟨List.replicate d 0, by simp⟩⟩
    exact_mod_cast Fintype.card_pos
  have hc0 : (0 : ℚ) < c := by exact_mod_cast hc
  -- the two sides for one password
  let real : Pw → ℚ := fun p => cnt fun F : Big n d => accept p.1 ((D ((Dict.full c B (Dict.one salt) p F).1.take keySize)).run (look F))
  let some : Pw → Bytes → ℚ := fun p t => cnt fun F : Big n d => accept p.1 ((D t).run (look F))
  let bad : Pw → Str (B * d) → ℚ := fun p t =>
    cnt fun F : Big n d => ¬ Dict.Good hn c B (Dict.one salt) (fun _ => hs) p (fun t => D (t.take keySize)) t F
  have hE1 : (Nat.card {x : Big n d × G // ∃ key, Model.pbkdf2 true (bigPrf x.1) x.2.1.1 salt c keySize = .ok key ∧
      accept x.2.1.1 ((D key).run (look x.1))} : ℚ) = ∑ p ∈ G, real p := by
    change ((cnt fun x : Big n d × G => ∃ key, Model.pbkdf2 true (bigPrf x.1) x.2.1.1 salt c keySize = .ok key ∧
      accept x.2.1.1 ((D key).run (look x.1)) : ℕ) : ℚ) = _
    rw [Prf.cnt_prod, Nat.cast_sum, ← Finset.sum_coe_sort G real]
    refine Finset.sum_congr rfl fun p _ => congrArg _ (Prf.cnt_congr fun F => ?_)
    simp only [bigPrf_key hd F p.1 salt c keySize B hc hk' hB]
    constructor
    · rintro ⟨key, h1, h2⟩
      rw [Except.ok.inj h1]
      exact h2
    · exact fun h => ⟨_, rfl, h⟩
  have hE2 : (Nat.card {x : Big n d × G × Str keySize // accept x.2.1.1.1 ((D x.2.2.1).run (look x.1))} : ℚ) =
      ∑ p ∈ G, ∑ t : Str keySize, some p t.1 := by
    change ((cnt fun x : Big n d × G × Str keySize => accept x.2.1.1.1 ((D x.2.2.1).run (look x.1)) : ℕ) : ℚ) = _
    rw [Prf.cnt_prod, Nat.cast_sum, Fintype.sum_prod_type, ← Finset.sum_coe_sort G fun p => ∑ t : Str keySize, some p t.1]
  have hcard1 : (Nat.card (Big n d × G) : ℚ) = Fintype.card (Big n d) * G.card := by
    rw [Nat.card_prod, Nat.card_eq_fintype_card, Nat.card_eq_fintype_card, Fintype.card_coe, Nat.cast_mul]
  have hcard2 : (Nat.card (Big n d × G × Str keySize) : ℚ) = Fintype.card (Big n d) * G.card * Fintype.card (Str keySize) := by
    rw [Nat.card_prod, Nat.card_prod, Nat.card_eq_fintype_card, Nat.card_eq_fintype_card, Nat.card_eq_fintype_card,
      Fintype.card_coe, Nat.cast_mul, Nat.cast_mul, mul_assoc]
  have hpow : (Fintype.card (Str (B * d)) : ℚ) = (Fintype.card (Str d) : ℚ) ^ B := by
    rw [Dict.card_pow, Nat.cast_pow]
  have hBd := HmacGame.card_pos (B * d)
  have hone : ∀ p, |real p - HmacGame.avg keySize (some p)| ≤ (∑ t, bad p t) / Fintype.card (Str (B * d)) := by
    intro p
    have h := Dict.real_ideal hn c B (Dict.one salt) (fun _ => hs) p (fun t => D (t.take keySize)) hc (accept p.1)
    have e : HmacGame.avg keySize (some p) = (∑ t : Str (B * d), some p (t.1.take keySize)) / Fintype.card (Str (B * d)) :=
      (HmacGame.avg_take keySize (B * d) hle (some p)).symm
    have h1 : (Fintype.card (Str (B * d)) : ℚ) * real p ≤ ∑ t : Str (B * d), some p (t.1.take keySize) + ∑ t, bad p t := by
      rw [hpow]
      have h := Nat.cast_le (α := ℚ).mpr h.1
      push_cast at h
      exact h
    have h2 : ∑ t : Str (B * d), some p (t.1.take keySize) ≤ (Fintype.card (Str (B * d)) : ℚ) * real p + ∑ t, bad p t := by
      rw [hpow]
      have h := Nat.cast_le (α := ℚ).mpr h.2
      push_cast at h
      exact h
    rw [e, abs_le]
    constructor
    · rw [← sub_nonneg] at h2 ⊢
      have : real p - (∑ t : Str (B * d), some p (t.1.take keySize)) / Fintype.card (Str (B * d)) -
          -((∑ t, bad p t) / Fintype.card (Str (B * d))) = ((Fintype.card (Str (B * d)) : ℚ) * real p + ∑ t, bad p t -
            ∑ t : Str (B * d), some p (t.1.take keySize)) / Fintype.card (Str (B * d)) := by
        field_simp
        ring
      rw [this]
      exact div_nonneg h2 hBd.le
    · rw [← sub_nonneg] at h1 ⊢
      have : (∑ t, bad p t) / Fintype.card (Str (B * d)) -
          (real p - (∑ t : Str (B * d), some p (t.1.take keySize)) / Fintype.card (Str (B * d))) =
          (∑ t : Str (B * d), some p (t.1.take keySize) + ∑ t, bad p t - (Fintype.card (Str (B * d)) : ℚ) * real p) /
            Fintype.card (Str (B * d)) := by
        field_simp
        ring
      rw [this]
      exact div_nonneg h1 hBd.le
  have hsum : |∑ p ∈ G, real p - ∑ p ∈ G, HmacGame.avg keySize (some p)| ≤
      (G.card * (((B * c - 1 : ℕ) * (B * c) / 2 + (B * c - 1 : ℕ) * B + B * c * q) / Fintype.card (Str d)) + q / c) *
        Fintype.card (Big n d) := by
    rw [← Finset.sum_sub_distrib]
    refine (Finset.abs_sum_le_sum_abs _ _).trans ((Finset.sum_le_sum fun p _ => hone p).trans ?_)
    rw [← Finset.sum_div, Finset.sum_comm, div_le_iff₀ hBd]
    refine (Finset.sum_le_sum fun t _ => Dict.sum_not_good hn c B (Dict.one salt) (fun _ => hs) (fun t => D (t.take keySize)) hc hB0 (Dict.start_inj B salt hs hB1) q
      (fun t => hq _) G t).trans (le_of_eq ?_)
    rw [Finset.sum_const, Finset.card_univ, nsmul_eq_mul, mul_comm]
  have hM1 : ((B * c - 1 : ℕ) : ℚ) = M - 1 := by
    rw [Nat.cast_sub (Nat.mul_pos hB0 hc), ← hM, Nat.cast_one]
  have hM2 : (B : ℚ) * c = M := by rw [hM, Nat.cast_mul]
  have h256 : (Fintype.card (Str d) : ℚ) = 256 ^ d := by
    rw [Cpoly.card_str]
    push_cast
    rfl
  rw [hM1, hM2, h256] at hsum
  have hfin : ∑ p ∈ G, HmacGame.avg keySize (some p) = (∑ p ∈ G, ∑ t : Str keySize, some p t.1) / Fintype.card (Str keySize) := by
    rw [Finset.sum_div]
    rfl
  rw [hfin] at hsum
  rw [hE1, hE2, hcard1, hcard2]
  have hK := HmacGame.card_pos keySize
  have e : (∑ p ∈ G, real p) / ((Fintype.card (Big n d) : ℚ) * G.card) -
      (∑ p ∈ G, ∑ t : Str keySize, some p t.1) / (Fintype.card (Big n d) * G.card * Fintype.card (Str keySize)) =
      (∑ p ∈ G, real p - (∑ p ∈ G, ∑ t : Str keySize, some p t.1) / Fintype.card (Str keySize)) /
        (Fintype.card (Big n d) * G.card) := by
    field_simp
  rw [e, abs_div, abs_of_pos (mul_pos hF hg), div_le_iff₀ (mul_pos hF hg)]
  refine hsum.trans (le_of_eq ?_)
  field_simp
  ring

/-- Two passwords, 4096 iterations, and somebody who asks for one value and compares. -/
example := C173_dictionary 30 20 4096 32 2 8192 (by norm_num) (by norm_num) (by norm_num) [3, 4] (by decide) (by norm_num)
  (by norm_num) (by norm_num) (by norm_num) {⟨[1], by decide⟩, ⟨[2], by decide⟩} (by simp) (fun p r => r = p)
  (fun key => .ask ([1], [3, 4, 0, 0, 0, 1]) fun u => .done (if u = key.take 20 then [1] else [2])) 1
  (fun _ => ⟨show 1 ≤ 1 by decide, fun _ => Nat.zero_le _⟩)

/-- C173: the password is named with a chance of not much more than one for each `c` questions, and one, out of the size of
the dictionary. -/
theorem C173_name_password (n d c keySize B M : ℕ) (hd : 0 < d) (hn : d ≤ n) (hc : 1 ≤ c) (salt : Bytes)
    (hs : salt.length + 4 ≤ n) (hk : 0 < keySize) (hk' : keySize ≤ 10000) (hB : B = (keySize + d - 1) / d) (hM : M = B * c)
    (G : Finset Pw) (hG : G.Nonempty) (D : Bytes → Asker (Bytes × Bytes) Bytes Bytes) (q : ℕ)
    (hq : ∀ key, (D key).CostLe (fun _ => 1) (fun _ => 0) q) :
    (Nat.card {x : Big n d × G // ∃ key, Model.pbkdf2 true (bigPrf x.1) x.2.1.1 salt c keySize = .ok key ∧
          (D key).run (look x.1) = x.2.1.1} : ℚ) / Nat.card (Big n d × G) ≤
      (q / c + 1) / G.card + (M * (M - 1) / 2 + (M - 1) * B + M * q) / 256 ^ d := by
  classical
  have h := C173_dictionary n d c keySize B M hd hn hc salt hs hk hk' hB hM G hG (fun p r => r = p) D q hq
  have hg : (0 : ℚ) < G.card := by exact_mod_cast hG.card_pos
  have hF : (0 : ℚ) < Fintype.card (Big n d) := by
    have : Nonempty (Big n d) := ⟨fun _ => ⟨List.replicate d 0, by simp⟩⟩
    exact_mod_cast Fintype.card_pos
  have hK := HmacGame.card_pos keySize
  have hi : (Nat.card {x : Big n d × G × Str keySize // (D x.2.2.1).run (look x.1) = x.2.1.1.1} : ℚ) /
      Nat.card (Big n d × G × Str keySize) ≤ 1 / G.card := by
    have hcard : (Nat.card (Big n d × G × Str keySize) : ℚ) = G.card * (Nat.card (Big n d × Str keySize) : ℚ) := by
      rw [Nat.card_prod, Nat.card_prod, Nat.card_prod, Nat.card_eq_fintype_card, Nat.card_eq_fintype_card,
        Nat.card_eq_fintype_card, Fintype.card_coe]
      push_cast
      ring
    have hle : Nat.card {x : Big n d × G × Str keySize // (D x.2.2.1).run (look x.1) = x.2.1.1.1} ≤
        Nat.card (Big n d × Str keySize) := by
      refine Nat.card_le_card_of_injective (fun x => (x.1.1, x.1.2.2)) ?_
      rintro ⟨⟨F, p, t⟩, hx⟩ ⟨⟨F', p', t'⟩, hy⟩ e
      obtain ⟨rfl, rfl⟩ := Prod.mk.inj e
      obtain rfl : p = p' := Subtype.ext (Subtype.ext (hx.symm.trans hy))
      rfl
    have hpos : (0 : ℚ) < Nat.card (Big n d × Str keySize) := by
      rw [Nat.card_prod, Nat.card_eq_fintype_card, Nat.card_eq_fintype_card, Nat.cast_mul]
      exact mul_pos hF hK
    rw [hcard, div_le_div_iff₀ (mul_pos hg hpos) hg, one_mul, mul_comm]
    exact mul_le_mul_of_nonneg_left (by exact_mod_cast hle) hg.le
  have h2 := (abs_le.mp h).2
  have e : ((q : ℚ) / c + 1) / G.card = q / (c * G.card) + 1 / G.card := by
    rw [add_div, div_div]
  rw [e]
  linarith

/-- Somebody who tries one of three passwords. -/
example := C173_name_password 30 20 2 20 1 2 (by norm_num) (by norm_num) (by norm_num) [3, 4] (by decide) (by norm_num)
  (by norm_num) (by norm_num) (by norm_num) {⟨[1], by decide⟩, ⟨[2], by decide⟩, ⟨[5], by decide⟩} (by simp)
  (fun key => .ask ([1], [3, 4, 0, 0, 0, 1]) fun u => .ask ([1], u) fun v => .done (if xorBytes u v = key then [1] else [2])) 2
  (fun _ => ⟨show 1 ≤ 2 by decide, fun _ => ⟨show 1 ≤ 1 by decide, fun _ => Nat.zero_le _⟩⟩)

/-- C173: for the pre-shared key of 802.11 and pass phrases of the lengths that are asked for, with up to `2^100` questions
the pass phrase is named with a chance of at most one for each 4096 questions, and one, out of the size of the dictionary,
up to one in `2^46`. -/
theorem C173_psk (n : ℕ) (hn : 20 ≤ n) (ssid : Bytes) (hs : ssid.length + 4 ≤ n) (G : Finset Pw) (hG : G.Nonempty)
    (hp : ∀ p ∈ G, 8 ≤ p.1.length) (D : Bytes → Asker (Bytes × Bytes) Bytes Bytes) (q : ℕ) (hq100 : q ≤ 2 ^ 100)
    (hq : ∀ key, (D key).CostLe (fun _ => 1) (fun _ => 0) q) :
    (Nat.card {x : Big n 20 × G // ∃ key, dot11PassPhraseToPSK true (bigPrf x.1) x.2.1.1 ssid = .ok key ∧
          (D key).run (look x.1) = x.2.1.1} : ℚ) / Nat.card (Big n 20 × G) ≤
      (q / 4096 + 1) / G.card + 1 / 2 ^ 46 := by
  have h := C173_name_password n 20 4096 32 2 8192 (by norm_num) hn (by norm_num) ssid hs (by norm_num) (by norm_num)
    (by norm_num) (by norm_num) G hG D q hq
  have e : ∀ (F : Big n 20) (p : G), dot11PassPhraseToPSK true (bigPrf F) p.1.1 ssid =
      Model.pbkdf2 true (bigPrf F) p.1.1 ssid (4096 : ℕ) (32 : ℕ) := fun F p => by
    rw [dot11PassPhraseToPSK, if_pos ⟨by have := hp p.1 p.2; omega, by have := p.1.2; omega⟩]
    rfl
  simp only [e]
  refine h.trans ?_
  have hq' : (q : ℚ) ≤ 2 ^ 100 := by exact_mod_cast hq100
  have h2 : ((8192 : ℕ) * ((8192 : ℕ) - 1) / 2 + ((8192 : ℕ) - 1) * (2 : ℕ) + (8192 : ℕ) * q) / 256 ^ 20 ≤ (1 : ℚ) / 2 ^ 46 := by
    rw [div_le_iff₀ (by norm_num)]
    norm_num
    linarith
  push_cast at h2 ⊢
  linarith

/-- Two pass phrases, and somebody who names the first. -/
example := C173_psk 40 (by norm_num) [3] (by decide) {⟨List.replicate 8 97, by decide⟩, ⟨List.replicate 9 97, by decide⟩} (by simp)
  (by simp) (fun _ => .done (List.replicate 8 97)) 0 (by norm_num) (fun _ => Nat.zero_le _)

/-- `k` more iterations under a password from the value `u`, with the sum so far; then compare. -/
def tryOne (p : Pw) (wanted : Bytes) (next : Asker (Bytes × Bytes) Bytes Bytes) :
    ℕ → Bytes → Bytes → Asker (Bytes × Bytes) Bytes Bytes
  | 0, _, acc => if acc = wanted then .done p.1 else next
  | k + 1, u, acc => .ask (p.1, u) fun w => tryOne p wanted next k w (xorBytes acc w)

/-- Try one password after the other. -/
def tryAll (salt : Bytes) (c : ℕ) (wanted : Bytes) : List Pw → Asker (Bytes × Bytes) Bytes Bytes
  | [] => .done []
  | p :: L => .ask (p.1, salt ++ beBytes 4 1) fun u => tryOne p wanted (tryAll salt c wanted L) (c - 1) u u

/-- C173: with `c` questions for each password of a list, somebody finds a password in the list whose key begins like the
given one, if the right one is in the list, whatever the functions are. -/
theorem C173_attack (salt : Bytes) (c : ℕ) (hc : 1 ≤ c) (d : ℕ) (hd : 0 < d) (L : List Pw) :
    ∃ D : Bytes → Asker (Bytes × Bytes) Bytes Bytes, (∀ key, (D key).CostLe (fun _ => 1) (fun _ => 0) (c * L.length)) ∧
      ∀ (n : ℕ) (F : Big n d) (keySize : ℕ), d ≤ keySize → keySize ≤ 10000 → ∀ p ∈ L,
        ∃ key, Model.pbkdf2 true (bigPrf F) p.1 salt c keySize = .ok key ∧
          ∃ p' ∈ L, (D key).run (look F) = p'.1 ∧
            ∃ key', Model.pbkdf2 true (bigPrf F) p'.1 salt c keySize = .ok key' ∧ key'.take d = key.take d := by
  refine ⟨fun key => tryAll salt c (key.take d) L, fun key => ?_, ?_⟩
  · have h1 : ∀ (p : Pw) (w : Bytes) (next : Asker (Bytes × Bytes) Bytes Bytes) (q : ℕ),
        next.CostLe (fun _ => 1) (fun _ => 0) q → ∀ (k : ℕ) (u acc : Bytes),
          (tryOne p w next k u acc).CostLe (fun _ => 1) (fun _ => 0) (k + q) := by
      intro p w next q hn k
      induction k with
      | zero =>
        intro u acc
        rw [tryOne, Nat.zero_add]
        split
        · exact Nat.zero_le _
        · exact hn
      | succ k ih =>
        intro u acc
        refine ⟨show 1 ≤ k + 1 + q by omega, fun w' => ?_⟩
        have := ih w' (xorBytes acc w')
        rw [show k + q = k + 1 + q - 1 by omega] at this
        exact this
    change (tryAll salt c (key.take d) L).CostLe _ _ _
    generalize key.take d = w
    induction L with
    | nil => exact Nat.zero_le _
    | cons p L ih =>
      have e : c * (p :: L).length = c - 1 + c * L.length + 1 := by
        rw [List.length_cons, Nat.mul_succ]
        omega
      rw [e]
      exact ⟨show 1 ≤ _ by omega, fun u => h1 p w _ _ ih (c - 1) u u⟩
  · intro n F keySize hk hk' p hp
    have hB : (keySize + d - 1) / d = (keySize - 1) / d + 1 := by
      rw [show keySize + d - 1 = keySize - 1 + d by omega, Nat.add_div_right _ hd]
    have hkey : ∀ p : Pw, ∃ key, Model.pbkdf2 true (bigPrf F) p.1 salt c keySize = .ok key ∧
        key.take d = pbT (Chain.ask (Dict.sl F p)) salt 1 (c - 1) := by
      intro p
      refine ⟨_, bigPrf_key hd F p salt c keySize ((keySize - 1) / d + 1) hc hk' hB.symm, ?_⟩
      rw [List.take_take, Nat.min_eq_left hk]
      change ((List.range ((keySize - 1) / d + 1)).flatMap (Dict.blk c (Dict.one salt) p F)).take d = _
      rw [List.range_succ_eq_map, List.flatMap_cons, List.take_left' (Dict.length_blk c (Dict.one salt) p F 0)]
      rfl
    have hone : ∀ (p : Pw) (w : Bytes) (next : Asker (Bytes × Bytes) Bytes Bytes) (k m : ℕ),
        (tryOne p w next k (pbU (Chain.ask (Dict.sl F p)) salt 1 m) (pbT (Chain.ask (Dict.sl F p)) salt 1 m)).run (look F) =
          if pbT (Chain.ask (Dict.sl F p)) salt 1 (m + k) = w then p.1 else next.run (look F) := by
      intro p w next k
      induction k with
      | zero =>
        intro m
        rw [tryOne, Nat.add_zero]
        split <;> rfl
      | succ k ih =>
        intro m
        rw [tryOne, Asker.run, Dict.look_pw, show m + (k + 1) = m + 1 + k by omega, ← ih (m + 1)]
        rfl
    obtain ⟨key, h1, h2⟩ := hkey p
    refine ⟨key, h1, ?_⟩
    clear h1
    induction L with
    | nil => exact absurd hp (by simp)
    | cons p' L ih =>
      have hrun : (tryAll salt c (key.take d) (p' :: L)).run (look F) =
          if pbT (Chain.ask (Dict.sl F p')) salt 1 (c - 1) = key.take d then p'.1
            else (tryAll salt c (key.take d) L).run (look F) := by
        have := hone p' (key.take d) (tryAll salt c (key.take d) L) (c - 1) 0
        rw [Nat.zero_add] at this
        rw [tryAll, Asker.run, Dict.look_pw]
        exact this
      rw [hrun]
      by_cases hw : pbT (Chain.ask (Dict.sl F p')) salt 1 (c - 1) = key.take d
      · obtain ⟨key', h3, h4⟩ := hkey p'
        rw [if_pos hw]
        exact ⟨p', List.mem_cons_self, rfl, key', h3, h4.trans hw⟩
      · rw [if_neg hw]
        have hpL : p ∈ L := by
          rcases List.mem_cons.mp hp with rfl | h
          · exact absurd h2.symm hw
          · exact h
        obtain ⟨p'', h3, h4⟩ := ih hpL
        exact ⟨p'', List.mem_cons_of_mem _ h3, h4⟩

/-- Two passwords and three iterations. -/
example := C173_attack [3] 3 (by norm_num) 20 (by norm_num) [⟨[1], by decide⟩, ⟨[2], by decide⟩]

end Cryptopy
