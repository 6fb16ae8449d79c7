import Verif.Props.ChaChaRounds

/-!
C185: the bound for the block function of ChaCha20 can be reached up to a factor of about two.
-/

namespace Cryptopy
open Model (ChaCha)
open Spec (Str State Word Asker)
open Prf (cnt cnt_congr cnt_equiv)
open Cpoly (Table Place look nonceBits)

namespace Core
open PermGame

/-- The rounds of all states of a list. -/
def askAll {R : Type} : List State → (List State → R) → Asker CoreAsk (State ⊕ Py Bytes) R
  | [], k => .done (k [])
  | s :: l, k => .ask (.rounds s) fun a => askAll l fun ts => k (a.elim id (fun _ => s) :: ts)

theorem askAll_run {R : Type} (rand key : Bytes) (π : Equiv.Perm State) (block : ChaCha → Bytes) (l : List State)
    (k : List State → R) : (askAll l k).run (coreAnswers rand key π block) = k (l.map π) := by
  induction l generalizing k with
  | nil => rfl
  | cons s l ih => exact ih _

theorem askAll_rounds {R : Type} (l : List State) (k : List State → R) :
    (askAll l k).CostLe CoreAsk.isRounds (fun _ => 0) l.length := by
  induction l generalizing k with
  | nil => exact Nat.zero_le _
  | cons s l ih => exact ⟨Nat.succ_le_succ (Nat.zero_le _), fun a => ih _⟩

theorem askAll_blocks {R : Type} (l : List State) (k : List State → R) :
    (askAll l k).CostLe CoreAsk.isBlock (fun _ => 0) 0 := by
  induction l generalizing k with
  | nil => exact Nat.zero_le _
  | cons s l ih => exact ⟨Nat.zero_le _, fun a => ih _⟩

/-- The nonce of the attack. -/
def zeroNonce : Str 12 := ⟨List.replicate 12 0, rfl⟩

/-- The place of the block. -/
def zeroPlace : Place := (0, nonceBits zeroNonce.1)

/-- The attack: one block, and the rounds for each key of a list. -/
def trials (T : List (Str 32)) : Asker CoreAsk (State ⊕ Py Bytes) ((State ⊕ Py Bytes) × List State) :=
  .ask (.block zeroNonce 0) fun a => askAll (T.map fun k => start k zeroPlace) fun ts => (a, ts)

/-- The key was tried and the block is the one that it gives. -/
noncomputable def matched (T : List (Str 32)) (k : Str 32) (r : (State ⊕ Py Bytes) × List State) : Prop :=
  ∃ j < T.length, T[j]? = some k ∧ r.1 = .inr (.ok (octets (start k zeroPlace + r.2.getD j 0)).1)

theorem matched_iff (T : List (Str 32)) (k : Str 32) (π : Equiv.Perm State) (a : Str 64) :
    matched T k (.inr (.ok a.1), (T.map fun k => start k zeroPlace).map π) ↔
      k ∈ T ∧ a = octets (start k zeroPlace + π (start k zeroPlace)) := by
  have val (j : ℕ) (h : T[j]? = some k) : (((T.map fun k => start k zeroPlace).map π).getD j 0) = π (start k zeroPlace) := by
    rw [List.getD_eq_getElem?_getD, List.getElem?_map, List.getElem?_map, h]
    rfl
  constructor
  · rintro ⟨j, hj, h, e⟩
    refine ⟨List.mem_of_getElem? h, Subtype.ext ?_⟩
    rw [val j h] at e
    exact Except.ok.inj (Sum.inr.inj e)
  · rintro ⟨h, rfl⟩
    obtain ⟨j, hj, e⟩ := List.mem_iff_getElem.mp h
    have e' : T[j]? = some k := by rw [List.getElem?_eq_getElem hj, e]
    exact ⟨j, hj, e', by rw [val j e']⟩

/-- One value of a table. -/
theorem pinned {Y : Type} (P : Y → Prop) (v : Y → Str 64) (x : Place) :
    Nat.card {w : Y × Table // P w.1 ∧ w.2 x = v w.1} * Nat.card (Str 64) = Nat.card {y // P y} * Nat.card Table := by
  classical
  rw [← Nat.card_prod, ← Nat.card_prod]
  refine Nat.card_congr ⟨fun w => (⟨w.1.1.1, w.1.2.1⟩, Function.update w.1.1.2 x w.2),
    fun w => (⟨(w.1.1, Function.update w.2 x (v w.1.1)), w.1.2, Function.update_self ..⟩, w.2 x), ?_, ?_⟩
  · rintro ⟨⟨⟨y, f⟩, h, e⟩, b⟩
    dsimp only at e ⊢
    congr 3
    · rw [Function.update_idem, ← e, Function.update_eq_self]
    · exact Function.update_self ..
  · rintro ⟨⟨y, h⟩, f⟩
    dsimp only
    rw [Function.update_idem, Function.update_eq_self]

end Core

/-- C185: the bound can not be made smaller than about half of it: for one block and any number `p` of questions for the
rounds, trying `p` keys makes a difference of `p / 2^256 (1 - 1 / 2^512)`. -/
theorem C185_sharp (rand key : Bytes) (hk : key.length = 32) (p : ℕ) (hp : p ≤ 2 ^ 256) :
    ∃ (R : Type) (accept : Str 32 → R → Prop) (D : Asker CoreAsk (State ⊕ Py Bytes) R),
      D.CostLe CoreAsk.isRounds (fun _ => 0) p ∧ D.CostLe CoreAsk.isBlock (fun _ => 0) 1 ∧
      (Nat.card {w : Str 32 × Equiv.Perm State //
            accept w.1 (D.run (coreAnswers rand w.1.1 w.2 (ChaCha.blockWith (asRounds w.2))))} : ℚ) /
          Nat.card (Str 32 × Equiv.Perm State) -
        (Nat.card {w : Str 32 × Table × Equiv.Perm State // accept w.1 (D.run (coreAnswers rand key w.2.2 (look w.2.1)))} : ℚ) /
          Nat.card (Str 32 × Table × Equiv.Perm State) =
        p / 2 ^ 256 * (1 - 1 / 2 ^ 512) := by
  classical
  have cs : Fintype.card (Str 32) = 2 ^ 256 := by rw [Cpoly.card_str, show (256 ^ 32 : ℕ) = 2 ^ 256 by norm_num]
  obtain ⟨A, hA⟩ : ∃ A : Finset (Str 32), A.card = p := by
    obtain ⟨A, -, h⟩ := Finset.exists_subset_card_eq (s := (Finset.univ : Finset (Str 32))) (n := p)
      (by rw [Finset.card_univ, cs]; exact hp)
    exact ⟨A, h⟩
  have hT : A.toList.length = p := by rw [Finset.length_toList, hA]
  refine ⟨_, Core.matched A.toList, Core.trials A.toList, ?_, ?_, ?_⟩
  · refine ⟨Nat.zero_le _, fun a => ?_⟩
    have := Core.askAll_rounds (A.toList.map fun k => Core.start k Core.zeroPlace) fun ts => (a, ts)
    rwa [List.length_map, hT] at this
  · exact ⟨le_refl 1, fun a => Core.askAll_blocks _ _⟩
  have hP : (Nat.card (Equiv.Perm State) : ℚ) ≠ 0 := by
    have : Nonempty (Equiv.Perm State) := ⟨1⟩
    exact Nat.cast_ne_zero.mpr Nat.card_pos.ne'
  have hF : (Nat.card Table : ℚ) ≠ 0 := by
    have : Nonempty Table := ⟨fun _ => ⟨List.replicate 64 0, by simp⟩⟩
    exact Nat.cast_ne_zero.mpr Nat.card_pos.ne'
  have tried : Nat.card {w : Str 32 × Equiv.Perm State // w.1 ∈ A} = p * Nat.card (Equiv.Perm State) := by
    rw [← hA, ← Fintype.card_coe, ← Nat.card_eq_fintype_card, ← Nat.card_prod]
    exact Nat.card_congr ⟨fun w => (⟨w.1.1, w.2⟩, w.1.2), fun w => ⟨(w.1.1, w.2), w.1.2⟩, fun _ => rfl, fun _ => rfl⟩
  have real : Nat.card {w : Str 32 × Equiv.Perm State // Core.matched A.toList w.1
      ((Core.trials A.toList).run (coreAnswers rand w.1.1 w.2 (ChaCha.blockWith (asRounds w.2))))} =
      p * Nat.card (Equiv.Perm State) := by
    rw [← tried]
    refine cnt_congr fun w => ?_
    have e := congrFun (Core.answers_real rand w.1 w.2) (.block Core.zeroNonce 0)
    rw [Core.trials, Asker.run, Core.askAll_run, e]
    refine (Core.matched_iff A.toList w.1 w.2 _).trans ?_
    rw [Finset.mem_toList]
    exact and_iff_left rfl
  have ideal : Nat.card {w : Str 32 × Table × Equiv.Perm State // Core.matched A.toList w.1
      ((Core.trials A.toList).run (coreAnswers rand key w.2.2 (look w.2.1)))} * Nat.card (Str 64) =
      p * Nat.card (Equiv.Perm State) * Nat.card Table := by
    have h := Core.pinned (fun y : Str 32 × Equiv.Perm State => y.1 ∈ A)
      (fun y => Core.octets (Core.start y.1 Core.zeroPlace + y.2 (Core.start y.1 Core.zeroPlace))) Core.zeroPlace
    rw [tried] at h
    rw [← h]
    refine congrArg (· * Nat.card (Str 64)) ?_
    refine (cnt_equiv (⟨fun w => (w.1.1, w.2, w.1.2), fun w => ((w.1, w.2.2), w.2.1), fun _ => rfl, fun _ => rfl⟩ :
      (Str 32 × Equiv.Perm State) × Table ≃ Str 32 × Table × Equiv.Perm State) _).symm.trans (cnt_congr fun w => ?_)
    have e := congrFun (Core.answers_ideal rand key hk w.2 w.1.2) (.block Core.zeroNonce 0)
    dsimp only [Equiv.coe_fn_mk]
    rw [Core.trials, Asker.run, Core.askAll_run, e]
    refine (Core.matched_iff A.toList w.1.1 w.1.2 _).trans ?_
    rw [Finset.mem_toList]
    refine and_congr_right fun _ => ?_
    rw [Core.toQuery, PermGame.ideal, Equiv.apply_symm_apply]
    rfl
  have ideal' : (Nat.card {w : Str 32 × Table × Equiv.Perm State // Core.matched A.toList w.1
      ((Core.trials A.toList).run (coreAnswers rand key w.2.2 (look w.2.1)))} : ℚ) =
      p * Nat.card (Equiv.Perm State) * Nat.card Table / 2 ^ 512 := by
    rw [eq_div_iff (by positivity)]
    have c64 : (Nat.card (Str 64) : ℚ) = 2 ^ 512 := by
      rw [Nat.card_eq_fintype_card, Cpoly.card_str, show 256 = 2 ^ 8 from rfl, ← pow_mul, Nat.cast_pow, Nat.cast_ofNat]
    have := congrArg (Nat.cast (R := ℚ)) ideal
    rwa [Nat.cast_mul, Nat.cast_mul, Nat.cast_mul, c64] at this
  rw [real, ideal', Nat.card_prod, Nat.card_prod, Nat.card_prod, Nat.card_eq_fintype_card (α := Str 32), cs]
  simp only [Nat.cast_mul, Nat.cast_pow, Nat.cast_ofNat]
  generalize (2 : ℚ) ^ 512 = x
  generalize (2 : ℚ) ^ 256 = y
  rw [mul_div_mul_right _ _ hP, mul_sub, mul_one]
  refine congrArg (fun t => (p : ℚ) / y - t) ?_
  rw [div_div, mul_one_div, div_div, mul_assoc, mul_comm x, mul_assoc, mul_comm (Nat.card Table : ℚ), mul_comm _ x,
    ← mul_assoc y x, mul_div_mul_right _ _ (mul_ne_zero hP hF)]

example := C185_sharp [] (List.replicate 32 0) rfl (2 ^ 200) (Nat.pow_le_pow_right (by decide) (by decide))

end Cryptopy
