import Verif.Lemmas.DictionarySalt
import Verif.Props.Dictionary

/-!
C190: what the salt of `pbkdf2` is good for.
-/

namespace Cryptopy
open Model (PrfLib)
open Spec (Str Asker pbT pbU beBytes xorBytes)
open Dict (Pw Big look)
open Prf (cnt)

namespace Dict
open Core (andThen andThen_run)

/-- The real key and a random key, for one password and given chains. -/
theorem one_password {n d : ℕ} (hn : d ≤ n) (c B keySize : ℕ) (hc : 1 ≤ c) (hle : keySize ≤ B * d) (σ : ℕ → Bytes × ℕ)
    (hs : ∀ i, (σ i).1.length + 4 ≤ n) (p : Pw) {R : Type} (A : R → Prop) (D : Bytes → Asker (Bytes × Bytes) Bytes R) :
    |(cnt (fun F : Big n d => A ((D ((full c B σ p F).1.take keySize)).run (look F))) : ℚ) -
        HmacGame.avg keySize (fun t => cnt fun F : Big n d => A ((D t).run (look F)))| ≤
      (∑ t, (cnt (fun F : Big n d => ¬ Good hn c B σ hs p (fun t => D (t.take keySize)) t F) : ℚ)) /
        Fintype.card (Str (B * d)) := by
  have hBd := HmacGame.card_pos (B * d)
  have hpow : (Fintype.card (Str (B * d)) : ℚ) = (Fintype.card (Str d) : ℚ) ^ B := by
    rw [Dict.card_pow, Nat.cast_pow]
  have h := real_ideal hn c B σ hs p (fun t => D (t.take keySize)) hc A
  rw [← HmacGame.avg_take keySize (B * d) hle (fun t => cnt fun F : Big n d => A ((D t).run (look F)))]
  rw [HmacGame.avg]
  have h1 := Nat.cast_le (α := ℚ).mpr h.1
  have h2 := Nat.cast_le (α := ℚ).mpr h.2
  push_cast at h1 h2
  rw [← hpow] at h1 h2
  generalize (cnt (fun F : Big n d => A ((D ((full c B σ p F).1.take keySize)).run (look F))) : ℚ) = x at h1 h2 ⊢
  generalize (∑ t : Str (B * d), (cnt (fun F : Big n d => A ((D (t.1.take keySize)).run (look F))) : ℚ)) = y at h1 h2 ⊢
  generalize (∑ t, (cnt (fun F : Big n d => ¬ Good hn c B σ hs p (fun t => D (t.take keySize)) t F) : ℚ)) = z at h1 h2 ⊢
  have e : x - y / (Fintype.card (Str (B * d)) : ℚ) = (Fintype.card (Str (B * d)) * x - y) / Fintype.card (Str (B * d)) := by
    field_simp
  rw [e, abs_div, abs_of_pos hBd]
  refine div_le_div_of_nonneg_right ?_ hBd.le
  rw [abs_le]
  constructor <;> linarith

end Dict

/-- C190: put random tables in place of the pseudorandom functions under all passwords.  Somebody asks for `q1` values of the
tables.  Then a password is taken at random from a dictionary `G` and a salt from a set `S`, and they get the salt and the
key that `pbkdf2` derives with `c` iterations.  They may then ask for `q2` more values.  Up to the given difference, what
comes out is what comes out for somebody with a random string in place of the key; `B` is the number of blocks. -/
theorem C190_salt (n d c keySize B M : ℕ) (hd : 0 < d) (hn : d ≤ n) (hc : 1 ≤ c) (hk : 0 < keySize) (hk' : keySize ≤ 10000)
    (hB : B = (keySize + d - 1) / d) (hM : M = B * c) (S : Finset Bytes) (hS : S.Nonempty)
    (hs : ∀ salt ∈ S, salt.length + 4 ≤ n) (G : Finset Pw) (hG : G.Nonempty) {X R : Type} (accept : Bytes → R → Prop)
    (D1 : Asker (Bytes × Bytes) Bytes X) (D2 : Bytes → Bytes → X → Asker (Bytes × Bytes) Bytes R) (q1 q2 : ℕ)
    (h1 : D1.CostLe (fun _ => 1) (fun _ => 0) q1)
    (h2 : ∀ salt key x, (D2 salt key x).CostLe (fun _ => 1) (fun _ => 0) q2) :
    |(Nat.card {x : Big n d × S × G // ∃ key, Model.pbkdf2 true (bigPrf x.1) x.2.2.1.1 x.2.1.1 c keySize = .ok key ∧
          accept x.2.2.1.1 ((D2 x.2.1.1 key (D1.run (look x.1))).run (look x.1))} : ℚ) / Nat.card (Big n d × S × G) -
        (Nat.card {x : Big n d × (S × G) × Str keySize //
            accept x.2.1.2.1.1 ((D2 x.2.1.1.1 x.2.2.1 (D1.run (look x.1))).run (look x.1))} : ℚ) /
          Nat.card (Big n d × (S × G) × Str keySize)| ≤
      q2 / (c * G.card) + q1 / (S.card * G.card) +
        (M * (M - 1) / 2 + (M - 1) * B + M * (2 * q1 + q2)) / 256 ^ d := by
  classical
  have hB2 : B = (keySize - 1) / d + 1 := by
    rw [hB, show keySize + d - 1 = keySize - 1 + d by omega, Nat.add_div_right _ hd]
  have hB0 : 0 < B := by rw [hB2]; exact Nat.succ_pos _
  have hB1 : B < 2 ^ 32 := by
    have := Nat.div_le_self (keySize - 1) d
    rw [hB2]
    omega
  have hle : keySize ≤ B * d := by
    have h1 := Nat.mod_add_div (keySize - 1) d
    have h2 := Nat.mod_lt (keySize - 1) hd
    rw [hB2, Nat.succ_mul, Nat.mul_comm]
    omega
  have hg : (0 : ℚ) < G.card := by exact_mod_cast hG.card_pos
  have hS0 : (0 : ℚ) < S.card := by exact_mod_cast hS.card_pos
  have hF : (0 : ℚ) < Fintype.card (Big n d) := by
    have : Nonempty (Big n d) := ⟨fun _ => ⟨List.replicate d 0, by simp⟩⟩
    exact_mod_cast Fintype.card_pos
  have hc0 : (0 : ℚ) < c := by exact_mod_cast hc
  have hBd := HmacGame.card_pos (B * d)
  -- the two phases as one strategy
  let D : Bytes → Bytes → Asker (Bytes × Bytes) Bytes R := fun salt key => Core.andThen D1 (D2 salt key)
  let real : S → Pw → ℚ := fun s p =>
    cnt fun F : Big n d => accept p.1 ((D s.1 ((Dict.full c B (Dict.one s.1) p F).1.take keySize)).run (look F))
  let some : S → Pw → Bytes → ℚ := fun s p t => cnt fun F : Big n d => accept p.1 ((D s.1 t).run (look F))
  have hE1 : (Nat.card {x : Big n d × S × G // ∃ key,
      Model.pbkdf2 true (bigPrf x.1) x.2.2.1.1 x.2.1.1 c keySize = .ok key ∧
        accept x.2.2.1.1 ((D2 x.2.1.1 key (D1.run (look x.1))).run (look x.1))} : ℚ) = ∑ s : S, ∑ p ∈ G, real s p := by
    change ((cnt fun x : Big n d × S × G => ∃ key, Model.pbkdf2 true (bigPrf x.1) x.2.2.1.1 x.2.1.1 c keySize = .ok key ∧
      accept x.2.2.1.1 ((D2 x.2.1.1 key (D1.run (look x.1))).run (look x.1)) : ℕ) : ℚ) = _
    rw [Prf.cnt_prod, Nat.cast_sum, Fintype.sum_prod_type]
    refine Finset.sum_congr rfl fun s _ => ?_
    rw [← Finset.sum_coe_sort G (real s)]
    refine Finset.sum_congr rfl fun p _ => congrArg _ (Prf.cnt_congr fun F => ?_)
    simp only [bigPrf_key hd F p.1 s.1 c keySize B hc hk' hB, D, Core.andThen_run]
    constructor
    · rintro ⟨key, h1, h2⟩
      rw [Except.ok.inj h1]
      exact h2
    · exact fun h => ⟨_, rfl, h⟩
  have hE2 : (Nat.card {x : Big n d × (S × G) × Str keySize //
      accept x.2.1.2.1.1 ((D2 x.2.1.1.1 x.2.2.1 (D1.run (look x.1))).run (look x.1))} : ℚ) =
      ∑ s : S, ∑ p ∈ G, ∑ t : Str keySize, some s p t.1 := by
    change ((cnt fun x : Big n d × (S × G) × Str keySize =>
      accept x.2.1.2.1.1 ((D2 x.2.1.1.1 x.2.2.1 (D1.run (look x.1))).run (look x.1)) : ℕ) : ℚ) = _
    rw [Prf.cnt_prod, Nat.cast_sum, Fintype.sum_prod_type, Fintype.sum_prod_type]
    refine Finset.sum_congr rfl fun s _ => ?_
    rw [← Finset.sum_coe_sort G fun p => ∑ t : Str keySize, some s p t.1]
    refine Finset.sum_congr rfl fun p _ => Finset.sum_congr rfl fun t _ => congrArg _ (Prf.cnt_congr fun F => ?_)
    simp only [D, Core.andThen_run]
  have hcard1 : (Nat.card (Big n d × S × G) : ℚ) = Fintype.card (Big n d) * (S.card * G.card) := by
    rw [Nat.card_prod, Nat.card_prod, Nat.card_eq_fintype_card, Nat.card_eq_fintype_card, Nat.card_eq_fintype_card,
      Fintype.card_coe, Fintype.card_coe, Nat.cast_mul, Nat.cast_mul]
  have hcard2 : (Nat.card (Big n d × (S × G) × Str keySize) : ℚ) =
      Fintype.card (Big n d) * (S.card * G.card) * Fintype.card (Str keySize) := by
    rw [Nat.card_prod, Nat.card_prod, Nat.card_prod, Nat.card_eq_fintype_card, Nat.card_eq_fintype_card,
      Nat.card_eq_fintype_card, Nat.card_eq_fintype_card, Fintype.card_coe, Fintype.card_coe, Nat.cast_mul, Nat.cast_mul,
      Nat.cast_mul]
    ring
  have hM1 : ((B * c - 1 : ℕ) : ℚ) = M - 1 := by
    rw [Nat.cast_sub (Nat.mul_pos hB0 hc), ← hM, Nat.cast_one]
  have hM2 : (B : ℚ) * c = M := by rw [hM, Nat.cast_mul]
  have h256 : (Fintype.card (Str d) : ℚ) = 256 ^ d := by
    rw [Cpoly.card_str]
    push_cast
    rfl
  have hsum : |∑ s : S, ∑ p ∈ G, real s p - ∑ s : S, ∑ p ∈ G, HmacGame.avg keySize (some s p)| ≤
      (S.card * (G.card * ((M * (M - 1) / 2 + (M - 1) * B + M * (2 * q1 + q2)) / 256 ^ d) + q2 / c) + q1) *
        Fintype.card (Big n d) := by
    rw [← Finset.sum_sub_distrib]
    have hone (s : S) : |∑ p ∈ G, real s p - ∑ p ∈ G, HmacGame.avg keySize (some s p)| ≤
        (G.card * ((M * (M - 1) / 2 + (M - 1) * B + M * (2 * q1 + q2)) / 256 ^ d) + q2 / c) * Fintype.card (Big n d) +
          ∑ p ∈ G, (cnt (fun F : Big n d => Dict.Begun B (Dict.start (Dict.one s.1) (fun _ => hs s.1 s.2)) p D1 F) : ℚ) := by
      rw [← Finset.sum_sub_distrib]
      refine (Finset.abs_sum_le_sum_abs _ _).trans ((Finset.sum_le_sum fun p _ =>
        Dict.one_password hn c B keySize hc hle (Dict.one s.1) (fun _ => hs s.1 s.2) p (accept p.1) (D s.1)).trans ?_)
      rw [← Finset.sum_div, Finset.sum_comm, div_le_iff₀ hBd]
      refine (Finset.sum_le_sum fun t _ => Dict.sum_two hn c B s.1 (hs s.1 s.2) D1 (fun t => D2 s.1 (t.take keySize)) hc hB0 hB1
        q1 q2 h1 (fun t => h2 _ _) G t).trans (le_of_eq ?_)
      rw [Finset.sum_const, Finset.card_univ, nsmul_eq_mul, mul_comm, hM1, hM2, h256, mul_comm (M - 1 : ℚ) (M : ℚ)]
    refine (Finset.abs_sum_le_sum_abs _ _).trans ((Finset.sum_le_sum fun s _ => hone s).trans ?_)
    rw [Finset.sum_add_distrib, Finset.sum_const, Finset.card_univ, Fintype.card_coe, nsmul_eq_mul, add_mul _ (q1 : ℚ), mul_assoc (S.card : ℚ)]
    refine add_le_add_right ?_ _
    have := Dict.sum_begun (d := d) B D1 q1 h1 G S hs
    exact_mod_cast this
  have hfin : ∑ s : S, ∑ p ∈ G, HmacGame.avg keySize (some s p) =
      (∑ s : S, ∑ p ∈ G, ∑ t : Str keySize, some s p t.1) / Fintype.card (Str keySize) := by
    rw [Finset.sum_div]
    refine Finset.sum_congr rfl fun s _ => ?_
    rw [Finset.sum_div]
    rfl
  rw [hfin] at hsum
  rw [hE1, hE2, hcard1, hcard2]
  have hK := HmacGame.card_pos keySize
  have hGS : (0 : ℚ) < Fintype.card (Big n d) * (S.card * G.card) := mul_pos hF (mul_pos hS0 hg)
  rw [mul_comm _ (Fintype.card (Str keySize) : ℚ), ← div_div (∑ s : S, ∑ p ∈ G, ∑ t : Str keySize, some s p t.1), ← sub_div, abs_div, abs_of_pos hGS, div_le_iff₀ hGS]
  refine hsum.trans (le_of_eq ?_)
  generalize (M * (M - 1) / 2 + (M - 1) * B + M * (2 * q1 + q2) : ℚ) / 256 ^ d = y
  field_simp
  ring

/-- Two passwords, two salts, 4096 iterations, and somebody who asks for one value in advance and one afterwards. -/
example := C190_salt 30 20 4096 32 2 8192 (by norm_num) (by norm_num) (by norm_num) (by norm_num) (by norm_num) (by norm_num)
  (by norm_num) {[3, 4], [5]} (by simp) (by simp) {⟨[1], by decide⟩, ⟨[2], by decide⟩} (by simp) (fun p r => r = p)
  (.ask ([1], [3, 4, 0, 0, 0, 1]) fun u => .done u)
  (fun salt key u => .ask ([1], salt ++ [0, 0, 0, 1]) fun v => .done (if u = key.take 20 ∨ v = key.take 20 then [1] else [2])) 1 1
  ⟨show 1 ≤ 1 by decide, fun _ => Nat.zero_le _⟩ (fun _ _ _ => ⟨show 1 ≤ 1 by decide, fun _ => Nat.zero_le _⟩)

/-- C190: the password is named with a chance of not much more than one for each `c` questions after the salt is known, one
for each `|S|` questions before, and one, out of the size of the dictionary. -/
theorem C190_name_password (n d c keySize B M : ℕ) (hd : 0 < d) (hn : d ≤ n) (hc : 1 ≤ c) (hk : 0 < keySize)
    (hk' : keySize ≤ 10000) (hB : B = (keySize + d - 1) / d) (hM : M = B * c) (S : Finset Bytes) (hS : S.Nonempty)
    (hs : ∀ salt ∈ S, salt.length + 4 ≤ n) (G : Finset Pw) (hG : G.Nonempty) {X : Type}
    (D1 : Asker (Bytes × Bytes) Bytes X) (D2 : Bytes → Bytes → X → Asker (Bytes × Bytes) Bytes Bytes) (q1 q2 : ℕ)
    (h1 : D1.CostLe (fun _ => 1) (fun _ => 0) q1)
    (h2 : ∀ salt key x, (D2 salt key x).CostLe (fun _ => 1) (fun _ => 0) q2) :
    (Nat.card {x : Big n d × S × G // ∃ key, Model.pbkdf2 true (bigPrf x.1) x.2.2.1.1 x.2.1.1 c keySize = .ok key ∧
          (D2 x.2.1.1 key (D1.run (look x.1))).run (look x.1) = x.2.2.1.1} : ℚ) / Nat.card (Big n d × S × G) ≤
      (q2 / c + q1 / S.card + 1) / G.card + (M * (M - 1) / 2 + (M - 1) * B + M * (2 * q1 + q2)) / 256 ^ d := by
  classical
  have h := C190_salt n d c keySize B M hd hn hc hk hk' hB hM S hS hs G hG (fun p r => r = p) D1 D2 q1 q2 h1 h2
  have hg : (0 : ℚ) < G.card := by exact_mod_cast hG.card_pos
  have hS0 : (0 : ℚ) < S.card := by exact_mod_cast hS.card_pos
  have hF : (0 : ℚ) < Fintype.card (Big n d) := by
    have : Nonempty (Big n d) := ⟨fun _ => ⟨List.replicate d 0, by simp⟩⟩
    exact_mod_cast Fintype.card_pos
  have hK := HmacGame.card_pos keySize
  have hi : (Nat.card {x : Big n d × (S × G) × Str keySize //
        (D2 x.2.1.1.1 x.2.2.1 (D1.run (look x.1))).run (look x.1) = x.2.1.2.1.1} : ℚ) /
      Nat.card (Big n d × (S × G) × Str keySize) ≤ 1 / G.card := by
    have hcard : (Nat.card (Big n d × (S × G) × Str keySize) : ℚ) = G.card * (Nat.card (Big n d × S × Str keySize) : ℚ) := by
      rw [Nat.card_prod, Nat.card_prod, Nat.card_prod, Nat.card_prod, Nat.card_prod, Nat.card_eq_fintype_card (α := G),
        Fintype.card_coe]
      push_cast
      ring
    have hle : Nat.card {x : Big n d × (S × G) × Str keySize //
        (D2 x.2.1.1.1 x.2.2.1 (D1.run (look x.1))).run (look x.1) = x.2.1.2.1.1} ≤ Nat.card (Big n d × S × Str keySize) := by
      refine Nat.card_le_card_of_injective (fun x => (x.1.1, x.1.2.1.1, x.1.2.2)) ?_
      rintro ⟨⟨F, ⟨s, p⟩, t⟩, hx⟩ ⟨⟨F', ⟨s', p'⟩, t'⟩, hy⟩ e
      obtain ⟨rfl, e⟩ := Prod.mk.inj e
      obtain ⟨rfl, rfl⟩ := Prod.mk.inj e
      obtain rfl : p = p' := Subtype.ext (Subtype.ext (hx.symm.trans hy))
      rfl
    have hpos : (0 : ℚ) < Nat.card (Big n d × S × Str keySize) := by
      rw [Nat.card_prod, Nat.card_prod, Nat.card_eq_fintype_card, Nat.card_eq_fintype_card, Nat.card_eq_fintype_card,
        Fintype.card_coe, Nat.cast_mul, Nat.cast_mul]
      exact mul_pos hF (mul_pos hS0 hK)
    rw [hcard, div_le_div_iff₀ (mul_pos hg hpos) hg, one_mul, mul_comm]
    exact mul_le_mul_of_nonneg_left (by exact_mod_cast hle) hg.le
  have h3 := (abs_le.mp h).2
  have e : ((q2 : ℚ) / c + q1 / S.card + 1) / G.card = q2 / (c * G.card) + q1 / (S.card * G.card) + 1 / G.card := by
    rw [add_div, add_div, div_div, div_div]
  rw [e]
  linarith

/-- Somebody who tries one of two passwords with one of two salts in advance. -/
example := C190_name_password 30 20 1 20 1 1 (by norm_num) (by norm_num) (by norm_num) (by norm_num) (by norm_num) (by norm_num)
  (by norm_num) {[3, 4], [5]} (by simp) (by simp) {⟨[1], by decide⟩, ⟨[2], by decide⟩} (by simp)
  (.ask ([1], [3, 4, 0, 0, 0, 1]) fun u => .done u) (fun _ key u => .done (if u = key then [1] else [2])) 1 0
  ⟨show 1 ≤ 1 by decide, fun _ => Nat.zero_le _⟩ (fun _ _ _ => Nat.zero_le _)

/-- `k` more iterations under a password from the value `u`, with the sum so far; then go on. -/
def chainOf {X : Type} (p : Pw) (next : Bytes → Asker (Bytes × Bytes) Bytes X) :
    ℕ → Bytes → Bytes → Asker (Bytes × Bytes) Bytes X
  | 0, _, acc => next acc
  | k + 1, u, acc => .ask (p.1, u) fun w => chainOf p next k w (xorBytes acc w)

/-- The first blocks of the keys of all passwords of a list. -/
def keyTable (salt : Bytes) (c : ℕ) : List Pw → Asker (Bytes × Bytes) Bytes (List (Pw × Bytes))
  | [] => .done []
  | p :: L => .ask (p.1, salt ++ beBytes 4 1) fun u =>
      chainOf p (fun t => Core.andThen (keyTable salt c L) fun l => .done ((p, t) :: l)) (c - 1) u u

private theorem chainOf_run {n d : ℕ} (F : Big n d) (salt : Bytes) (p : Pw) {X : Type}
    (next : Bytes → Asker (Bytes × Bytes) Bytes X) (k m : ℕ) :
    (chainOf p next k (pbU (Chain.ask (Dict.sl F p)) salt 1 m) (pbT (Chain.ask (Dict.sl F p)) salt 1 m)).run (look F) =
      (next (pbT (Chain.ask (Dict.sl F p)) salt 1 (m + k))).run (look F) := by
  induction k generalizing m with
  | zero => rfl
  | succ k ih =>
    rw [chainOf, Asker.run, Dict.look_pw, show m + (k + 1) = m + 1 + k by omega, ← ih (m + 1)]
    rfl

private theorem keyTable_run {n d : ℕ} (F : Big n d) (salt : Bytes) (c : ℕ) (L : List Pw) :
    (keyTable salt c L).run (look F) = L.map fun p => (p, pbT (Chain.ask (Dict.sl F p)) salt 1 (c - 1)) := by
  induction L with
  | nil => rfl
  | cons p L ih =>
    have h := chainOf_run F salt p (fun t => Core.andThen (keyTable salt c L) fun l => .done ((p, t) :: l)) (c - 1) 0
    rw [Nat.zero_add, Core.andThen_run, ih] at h
    rw [keyTable, Asker.run, Dict.look_pw]
    exact h

private theorem keyTable_cost (salt : Bytes) (c : ℕ) (hc : 1 ≤ c) (L : List Pw) :
    (keyTable salt c L).CostLe (fun _ => 1) (fun _ => 0) (c * L.length) := by
  induction L with
  | nil => exact Nat.zero_le _
  | cons p L ih =>
    have h1 : ∀ (k : ℕ) (u acc : Bytes), (chainOf p (fun t => Core.andThen (keyTable salt c L) fun l =>
        Asker.done ((p, t) :: l)) k u acc).CostLe (fun _ => 1) (fun _ => 0) (k + c * L.length) := by
      intro k
      induction k with
      | zero =>
        intro u acc
        rw [chainOf, Nat.zero_add]
        exact Core.andThen_cost (b' := 0) _ _ _ ih fun _ => Nat.zero_le _
      | succ k ih =>
        intro u acc
        refine ⟨show 1 ≤ k + 1 + c * L.length by omega, fun w => ?_⟩
        have := ih w (xorBytes acc w)
        rw [show k + c * L.length = k + 1 + c * L.length - 1 by omega] at this
        exact this
    have e : c * (p :: L).length = c - 1 + c * L.length + 1 := by
      rw [List.length_cons, Nat.mul_succ]
      omega
    rw [e]
    exact ⟨show 1 ≤ _ by omega, fun u => h1 (c - 1) u u⟩

/-- C190: if the salt is known in advance, `c` questions in advance for each password of a list make a table in which the
password is found for every key without any further question, if it is in the list: a password whose key begins like the
given one, whatever the functions are. -/
theorem C190_table (salt : Bytes) (c : ℕ) (hc : 1 ≤ c) (d : ℕ) (hd : 0 < d) (L : List Pw) :
    ∃ (D1 : Asker (Bytes × Bytes) Bytes (List (Pw × Bytes))) (find : Bytes → List (Pw × Bytes) → Bytes),
      D1.CostLe (fun _ => 1) (fun _ => 0) (c * L.length) ∧
      ∀ (n : ℕ) (F : Big n d) (keySize : ℕ), d ≤ keySize → keySize ≤ 10000 → ∀ p ∈ L,
        ∃ key, Model.pbkdf2 true (bigPrf F) p.1 salt c keySize = .ok key ∧
          ∃ p' ∈ L, find key (D1.run (look F)) = p'.1 ∧
            ∃ key', Model.pbkdf2 true (bigPrf F) p'.1 salt c keySize = .ok key' ∧ key'.take d = key.take d := by
  refine ⟨keyTable salt c L, fun key l => match l.find? fun e => e.2 = key.take d with
    | some e => e.1.1
    | none => [], keyTable_cost salt c hc L, ?_⟩
  intro n F keySize hk hk' p hp
  have hB : (keySize + d - 1) / d = (keySize - 1) / d + 1 := by
    rw [show keySize + d - 1 = keySize - 1 + d by omega, Nat.add_div_right _ hd]
  have hkey : ∀ p : Pw, ∃ key, Model.pbkdf2 true (bigPrf F) p.1 salt c keySize = .ok key ∧
      key.take d = pbT (Chain.ask (Dict.sl F p)) salt 1 (c - 1) := by
    intro p
    refine ⟨_, bigPrf_key hd F p salt c keySize ((keySize - 1) / d + 1) hc hk' hB.symm, ?_⟩
    rw [List.take_take, Nat.min_eq_left hk]
    change ((List.range ((keySize - 1) / d + 1)).flatMap (Dict.blk c (Dict.one salt) p F)).take d = _
    rw [List.range_succ_eq_map, List.flatMap_cons, List.take_left' (Dict.length_blk c (Dict.one salt) p F 0)]
    rfl
  obtain ⟨key, h1, h2⟩ := hkey p
  refine ⟨key, h1, ?_⟩
  rw [keyTable_run]
  cases hf : (L.map fun p => (p, pbT (Chain.ask (Dict.sl F p)) salt 1 (c - 1))).find? fun e => e.2 = key.take d with
  | none =>
    have := List.find?_eq_none.mp hf _ (List.mem_map.mpr ⟨p, hp, rfl⟩)
    exact absurd h2.symm (by simpa using this)
  | some e =>
    have he := List.find?_some hf
    obtain ⟨p', hp', rfl⟩ := List.mem_map.mp (List.mem_of_find?_eq_some hf)
    obtain ⟨key', h3, h4⟩ := hkey p'
    exact ⟨p', hp', by simp only [hf], key', h3, h4.trans (by simpa using he)⟩

/-- Two passwords and three iterations. -/
example := C190_table [3] 3 (by norm_num) 20 (by norm_num) [⟨[1], by decide⟩, ⟨[2], by decide⟩]

end Cryptopy
