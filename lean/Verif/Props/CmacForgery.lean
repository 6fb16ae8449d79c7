import Verif.Lemmas.CmacPrf

/-!
C161: tags of `aes_cmac` can not be guessed if the cipher is a random function.
-/

namespace Cryptopy
open Model (CipherLib aesCmac)
open Spec Prf

/-- A cipher module that is a table of 128-bit blocks. -/
def tableLib (keyOk : Bytes → Bool) (f : BitVec 128 → BitVec 128) : CipherLib where
  keyOk := keyOk
  blockSize := 16
  enc _ s := ofBits (f (toBits s))

/-- The number of blocks of a message, with the empty message as one block. -/
def cmacBlocks (M : Bytes) : Nat := max 1 ((M.length + 15) / 16)

/-- A strategy ends with a message it did not ask for and the tag of this message. -/
def Forges (g : Bytes → Py Bytes) (D : Asker Bytes (Py Bytes) (Bytes × Bytes)) : Prop :=
  (D.run g).1 ∉ D.asked g ∧ g (D.run g).1 = .ok (D.run g).2

theorem tableLib_lawful (keyOk : Bytes → Bool) (f : BitVec 128 → BitVec 128) : LawfulCipher (tableLib keyOk f) :=
  ⟨rfl, fun _ _ _ => length_ofBits _⟩

section
variable {keyOk : Bytes → Bool} {key : Bytes} (hk : keyOk key = true)

/-- Does `aes_cmac` raise an exception for this message, if it does so for whole blocks and for others? -/
private def err (e : Bool × Bool) (M : Bytes) : Bool := if M.length ≠ 0 ∧ M.length % 16 = 0 then e.1 else e.2

/-- Are the subkeys too small? -/
private def cls (f : Blk → Blk) : Bool × Bool :=
  (decide ((cmacK1 (onBytes f)).toNat < 2 ^ 120), decide ((cmacK2 (onBytes f)).toNat < 2 ^ 120))

/-- The module as a function on blocks with xor as addition. -/
private def blkLib (keyOk : Bytes → Bool) (f : Blk → Blk) : CipherLib where
  keyOk := keyOk
  blockSize := 16
  enc _ := onBytes f

include hk in
private theorem value (f : Blk → Blk) (M : Bytes) :
    aesCmac (blkLib keyOk f) (blkLib keyOk f) key M =
      if err (cls f) M then .error .assertion else .ok (ofBlk (f (arg cmacMasks f (place [] M)))) := by
  have lawful : LawfulCipher (blkLib keyOk f) := ⟨rfl, fun _ _ _ => length_ofBlk _⟩
  rw [aesCmac_eq _ _ lawful lawful key M hk hk, ← cmac_place]
  refine if_congr ?_ rfl rfl
  rw [err]
  split
  · exact (decide_eq_true_iff (p := (cmacK1 (onBytes f)).toNat < 2 ^ 120)).symm
  · exact (decide_eq_true_iff (p := (cmacK2 (onBytes f)).toNat < 2 ^ 120)).symm

/-- A strategy against `aes_cmac` as a strategy against CMAC, if it is known which messages raise an exception. -/
private def sim (e : Bool × Bool) : List Bytes → Asker Bytes (Py Bytes) (Bytes × Bytes) → Asker Bytes Blk Bool
  | seen, .done r =>
    if err e r.1 ∨ r.1 ∈ seen then .done false else .ask r.1 fun b => .done (decide (ofBlk b = r.2))
  | seen, .ask M next =>
    if err e M then sim e seen (next (.error .assertion))
    else .ask M fun b => sim e (M :: seen) (next (.ok (ofBlk b)))

private theorem sim_run (e : Bool × Bool) (g : Bytes → Py Bytes) (h : Bytes → Blk)
    (hg : ∀ M, g M = if err e M then .error .assertion else .ok (ofBlk (h M)))
    (D : Asker Bytes (Py Bytes) (Bytes × Bytes)) (seen : List Bytes) (hD : Forges g D) (hs : (D.run g).1 ∉ seen) :
    (sim e seen D).run h = true := by
  induction D generalizing seen with
  | done r =>
    have h2 : g r.1 = .ok r.2 := hD.2
    rw [hg] at h2
    have he : ¬ err e r.1 = true := fun he => by rw [if_pos he] at h2; cases h2
    rw [if_neg he, Except.ok.injEq] at h2
    rw [sim, if_neg (by rintro (h | h); exacts [he h, hs h])]
    exact decide_eq_true h2
  | ask M next ih =>
    obtain ⟨h1, h2⟩ := hD
    change (Asker.run g (next (g M))).1 ∉ M :: Asker.asked g (next (g M)) at h1
    change g (Asker.run g (next (g M))).1 = .ok (Asker.run g (next (g M))).2 at h2
    change (Asker.run g (next (g M))).1 ∉ seen at hs
    rw [List.mem_cons, not_or] at h1
    rw [sim]
    have hM := hg M
    by_cases he : err e M = true
    · rw [if_pos he] at hM ⊢
      rw [hM] at h1 h2 hs
      exact ih _ _ ⟨h1.2, h2⟩ hs
    · rw [if_neg he] at hM ⊢
      rw [hM] at h1 h2 hs
      change Asker.run h (sim e (M :: seen) (next (.ok (ofBlk (h M))))) = true
      exact ih _ _ ⟨h1.2, h2⟩ (by rw [List.mem_cons, not_or]; exact ⟨h1.1, hs⟩)

private theorem costLe_mono {M T R : Type} {cost : M → Nat} {last : R → Nat} {D : Asker M T R} {c c' : Nat} (h : c ≤ c')
    (hc : D.CostLe cost last c) : D.CostLe cost last c' := by
  induction D generalizing c c' with
  | done r => exact Nat.le_trans hc h
  | ask m next ih => exact ⟨Nat.le_trans hc.1 h, fun t => ih t (by omega) (hc.2 t)⟩

private theorem blocks_place (M : Bytes) : (place [] M).w.length + 1 = cmacBlocks M := by
  rw [place_length, cmacBlocks]
  simp only [List.length_nil]
  omega

private theorem sim_cost (e : Bool × Bool) (D : Asker Bytes (Py Bytes) (Bytes × Bytes)) (seen : List Bytes) (c : Nat)
    (hc : D.CostLe cmacBlocks (fun r => cmacBlocks r.1) c) :
    (sim e seen D).CostLe (fun M => (place [] M).w.length + 1) (fun _ => 0) c := by
  induction D generalizing seen c with
  | done r =>
    rw [sim]
    split
    · exact Nat.zero_le _
    · refine ⟨?_, fun _ => Nat.zero_le _⟩
      beta_reduce
      rw [blocks_place]
      exact hc
  | ask M next ih =>
    rw [sim]
    split
    · exact ih _ _ _ (costLe_mono (Nat.sub_le _ _) (hc.2 _))
    · refine ⟨?_, fun b => ?_⟩
      · beta_reduce
        rw [blocks_place]
        exact hc.1
      · beta_reduce
        rw [blocks_place]
        exact ih _ _ _ (hc.2 _)

private theorem within_mono {M T R : Type} {S S' : M → Prop} {D : Asker M T R} (h : ∀ m, S m → S' m) (hD : D.Within S) :
    D.Within S' := by
  induction D with
  | done r => trivial
  | ask m next ih => exact ⟨h m hD.1, fun t => ih t (hD.2 t)⟩

private theorem exists_within {R : Type} (D : Asker Bytes Blk R) : ∃ S : Finset Bytes, D.Within (· ∈ S) := by
  classical
  induction D with
  | done r => exact ⟨∅, trivial⟩
  | ask m next ih =>
    choose S hS using ih
    refine ⟨insert m (Finset.univ.biUnion S), Finset.mem_insert_self _ _, fun t => within_mono (fun m' hm' => ?_) (hS t)⟩
    exact Finset.mem_insert_of_mem (Finset.mem_biUnion.mpr ⟨t, Finset.mem_univ _, hm'⟩)

/-- Nobody guesses a value of a random function more often than once in `2^128`. -/
private theorem guess (e : Bool × Bool) (S : Finset Bytes) (D : Asker Bytes (Py Bytes) (Bytes × Bytes)) (seen : List Bytes)
    (τ : Bytes → Blk) (hs : seen.toFinset ⊆ S) (hw : (sim e seen D).Within (· ∈ S)) :
    Fintype.card Blk ^ (seen.toFinset.card + 1) * cnt (fun ρ : S → Blk =>
      (∀ m ∈ seen.toFinset, ext S ρ m = τ m) ∧ (sim e seen D).run (ext S ρ) = true) ≤ Fintype.card (S → Blk) := by
  induction D generalizing seen τ with
  | done r =>
    rw [sim] at hw ⊢
    split at hw
    · next h =>
      rw [if_pos h, cnt_false]
      · simp
      · rintro ρ ⟨-, h⟩
        cases h
    · next h =>
      rw [if_neg h]
      rw [not_or] at h
      have hr : r.1 ∉ seen.toFinset := fun h' => h.2 (List.mem_toFinset.mp h')
      have key := card_ext (Function.update τ r.1 (toBlk r.2)) S (insert r.1 seen.toFinset)
        (Finset.insert_subset hw.1 hs)
      rw [Finset.card_insert_of_notMem hr] at key
      refine le_trans (Nat.mul_le_mul_left _ (cnt_mono ?_)) key.le
      rintro ρ ⟨h1, h2⟩ m hm
      have h2 : ofBlk (ext S ρ r.1) = r.2 := of_decide_eq_true h2
      rcases Finset.mem_insert.mp hm with rfl | hm
      · rw [Function.update_self, ← h2, toBlk_ofBlk]
      · rw [h1 m hm, Function.update_of_ne]
        rintro rfl
        exact hr hm
  | ask M next ih =>
    rw [sim] at hw ⊢
    split at hw
    · next h =>
      rw [if_pos h]
      exact ih _ _ _ hs hw
    · next h =>
      rw [if_neg h]
      obtain ⟨hw1, hw2⟩ := hw
      by_cases hM : M ∈ seen.toFinset
      · have hl : (M :: seen).toFinset = seen.toFinset := by rw [List.toFinset_cons, Finset.insert_eq_of_mem hM]
        have := ih (.ok (ofBlk (τ M))) (M :: seen) τ (by rw [hl]; exact hs) (hw2 (τ M))
        rw [hl] at this
        refine le_trans (Nat.mul_le_mul_left _ (cnt_mono ?_)) this
        rintro ρ ⟨h1, h2⟩
        rw [run_ask, h1 M hM] at h2
        exact ⟨h1, h2⟩
      · have hN : 0 < Fintype.card Blk := Fintype.card_pos_iff.mpr ⟨0⟩
        have hl : (M :: seen).toFinset = insert M seen.toFinset := List.toFinset_cons
        have h2 : ∀ t, _ := fun t => ih (.ok (ofBlk t)) (M :: seen) (Function.update τ M t)
          (by rw [hl]; exact Finset.insert_subset hw1 hs) (hw2 t)
        rw [hl, Finset.card_insert_of_notMem hM] at h2
        have h3 := Finset.sum_le_sum fun t (_ : t ∈ (Finset.univ : Finset Blk)) => h2 t
        rw [← Finset.mul_sum, Finset.sum_const, Finset.card_univ, smul_eq_mul, pow_succ', mul_assoc] at h3
        refine le_trans (Nat.mul_le_mul_left _ ?_) (Nat.le_of_mul_le_mul_left h3 hN)
        rw [cnt_split _ fun ρ => ext S ρ M]
        refine Finset.sum_le_sum fun t _ => cnt_mono ?_
        rintro ρ ⟨⟨h1, h2⟩, rfl⟩
        refine ⟨fun m hm => ?_, h2⟩
        rcases Finset.mem_insert.mp hm with rfl | hm'
        · rw [Function.update_self]
        · rw [h1 m hm', Function.update_of_ne]
          rintro rfl
          exact hM hm'

/-- The bound for one of the cases which subkeys are too small. -/
private theorem forgery_one (e : Bool × Bool) (D : Asker Bytes (Py Bytes) (Bytes × Bytes)) (c : Nat)
    (hc : D.CostLe cmacBlocks (fun r => cmacBlocks r.1) c) :
    Fintype.card Blk * cnt (fun f : Blk → Blk =>
      (sim e [] D).run (fun M => f (arg cmacMasks f (place [] M))) = true) ≤
      ((c + 1).choose 2 + 1) * Fintype.card (Blk → Blk) := by
  obtain ⟨S, hS⟩ := exists_within (sim e [] D)
  have h1 := card_run_start cmacMasks (place []) (place_t []) place_injective S (· = true) (sim e [] D) c
    (sim_cost e D [] c hc) hS
  have h2 := guess e S D [] (fun _ => 0) (by simp) hS
  simp only [List.toFinset_nil, Finset.card_empty, zero_add, pow_one, Finset.notMem_empty, false_implies, implies_true,
    true_and] at h2
  have hpos : 0 < Fintype.card (S → Blk) := Fintype.card_pos_iff.mpr ⟨fun _ => 0⟩
  refine Nat.le_of_mul_le_mul_right (h1.trans ?_) hpos
  rw [add_mul, add_mul, one_mul, add_comm]
  refine Nat.add_le_add_left ?_ _
  rw [mul_comm (Fintype.card (Blk → Blk))]
  exact Nat.mul_le_mul_right _ h2

/-- A strategy against `aes_cmac` that raises no exception. -/
private def simOk {R : Type} : Asker Bytes (Py Bytes) R → Asker Bytes Blk R
  | .done r => .done r
  | .ask M next => .ask M fun b => simOk (next (.ok (ofBlk b)))

private theorem simOk_run {R : Type} (g : Bytes → Py Bytes) (h : Bytes → Blk) (S : Bytes → Prop)
    (hg : ∀ M, S M → g M = .ok (ofBlk (h M))) (D : Asker Bytes (Py Bytes) R) (hw : D.Within S) :
    (simOk D).run h = D.run g := by
  induction D with
  | done r => rfl
  | ask M next ih =>
    change Asker.run h (simOk (next (.ok (ofBlk (h M))))) = Asker.run g (next (g M))
    rw [hg M hw.1]
    exact ih _ (hw.2 _)

private theorem simOk_cost {R : Type} (D : Asker Bytes (Py Bytes) R) (c : Nat)
    (hc : D.CostLe cmacBlocks (fun _ => 0) c) :
    (simOk D).CostLe (fun M => (place [] M).w.length + 1) (fun _ => 0) c := by
  induction D generalizing c with
  | done r => exact Nat.zero_le _
  | ask M next ih =>
    rw [simOk]
    refine ⟨?_, fun b => ?_⟩
    · beta_reduce
      rw [blocks_place]
      exact hc.1
    · beta_reduce
      rw [blocks_place]
      exact ih _ _ (hc.2 _)

private theorem simOk_within {R : Type} {S : Bytes → Prop} (D : Asker Bytes (Py Bytes) R) (hw : D.Within S) :
    (simOk D).Within S := by
  induction D with
  | done r => trivial
  | ask M next ih => exact ⟨hw.1, fun b => ih _ (hw.2 _)⟩

/-- How many functions have a property that depends on the value at zero only. -/
theorem funs_zero (P : Blk → Prop) :
    Fintype.card Blk * cnt (fun f : Blk → Blk => P (f 0)) = cnt P * Fintype.card (Blk → Blk) := by
  classical
  rw [cnt_split _ fun f : Blk → Blk => f 0, Finset.mul_sum, cnt_eq P, ← smul_eq_mul, ← Finset.sum_const,
    Finset.sum_filter]
  refine Finset.sum_congr rfl fun b _ => ?_
  split
  · next h =>
    rw [← card_zero b]
    congr 1
    exact cnt_congr fun f => ⟨fun h => h.2, fun e => ⟨e ▸ h, e⟩⟩
  · next h =>
    rw [cnt_false, mul_zero]
    rintro f ⟨h', rfl⟩
    exact h h'

theorem blk_less (k : Nat) (hk : k ≤ 2 ^ 128) : cnt (fun b : Blk => BitVec.toNat (w := 128) b < k) = k := by
  have e : {b : Blk // BitVec.toNat (w := 128) b < k} ≃ Fin k :=
    { toFun := fun b => ⟨BitVec.toNat (w := 128) b.1, b.2⟩
      invFun := fun i => ⟨BitVec.ofNat 128 i, by
        rw [BitVec.toNat_ofNat, Nat.mod_eq_of_lt (lt_of_lt_of_le i.2 hk)]
        exact i.2⟩
      left_inv := fun b => Subtype.ext (BitVec.eq_of_toNat_eq (n := 128) (by
        rw [BitVec.toNat_ofNat]
        exact Nat.mod_eq_of_lt (lt_of_lt_of_le b.2 hk)))
      right_inv := fun i => Fin.ext (by
        change (BitVec.ofNat 128 i).toNat = i
        rw [BitVec.toNat_ofNat, Nat.mod_eq_of_lt (lt_of_lt_of_le i.2 hk)]) }
  rw [cnt, Nat.card_congr e, Nat.card_eq_fintype_card, Fintype.card_fin]

theorem blk_double (P : Blk → Prop) : cnt (fun b => P (dblHom b)) = cnt P := by
  have hb : Function.Bijective dblHom := (Finite.injective_iff_bijective).mp fun a b => dblHom_inj
  exact Nat.card_congr ((Equiv.ofBijective _ hb).subtypeEquiv fun b => Iff.rfl)

theorem blk_neither (P Q : Blk → Prop) :
    cnt (fun b => ¬ P b ∧ ¬ Q b) + (cnt P + cnt Q) = Fintype.card Blk + cnt (fun b => P b ∧ Q b) := by
  classical
  have h1 := Finset.card_union_add_card_inter (Finset.univ.filter P) (Finset.univ.filter Q)
  have h2 := Finset.card_compl_add_card (Finset.univ.filter P ∪ Finset.univ.filter Q)
  have h3 : (Finset.univ.filter P ∪ Finset.univ.filter Q)ᶜ = Finset.univ.filter fun b => ¬ P b ∧ ¬ Q b := by
    ext b
    simp
  rw [h3] at h2
  rw [← Finset.filter_and] at h1
  have h4 := cnt_eq fun b => ¬ P b ∧ ¬ Q b
  have h5 := cnt_eq fun b => P b ∧ Q b
  have h6 := cnt_eq P
  have h7 := cnt_eq Q
  have h8 : (Finset.univ.filter fun b => ¬ P b ∧ ¬ Q b).card = cnt fun b => ¬ P b ∧ ¬ Q b := by
    rw [h4]
    congr
  have h9 : (Finset.univ.filter fun b => P b ∧ Q b).card = cnt fun b => P b ∧ Q b := by
    rw [h5]
    congr
  rw [h8] at h2
  rw [h9] at h1
  omega

theorem blk_both_small (b : Blk) :
    (BitVec.toNat (w := 128) b < 2 ^ 120 ∧ BitVec.toNat (w := 128) (dblHom b) < 2 ^ 120) ↔
      BitVec.toNat (w := 128) b < 2 ^ 119 := by
  have key (b : BitVec 128) (h : b.toNat < 2 ^ 120) : (dblBits b).toNat = 2 * b.toNat := by
    have : b.msb = false := by
      rw [BitVec.msb_eq_decide]
      refine decide_eq_false ?_
      omega
    rw [dblBits, this, if_neg (by decide), BitVec.toNat_shiftLeft, Nat.shiftLeft_eq, Nat.mod_eq_of_lt (by omega)]
    omega
  change (_ ∧ (dblBits b).toNat < 2 ^ 120) ↔ _
  constructor
  · rintro ⟨h1, h2⟩
    rw [key b h1] at h2
    omega
  · intro h
    have h1 : BitVec.toNat (w := 128) b < 2 ^ 120 := by omega
    refine ⟨h1, ?_⟩
    rw [key b h1]
    omega

private theorem scale {a b k m n : Nat} (hm : 0 < m) (h : a * m * n = k * m * b) : a * n = k * b := by
  refine Nat.eq_of_mul_eq_mul_left hm ?_
  linarith

end

/-- C161: whatever messages are chosen, one after the other depending on the tags (or exceptions) before, at most
`3 * (c * (c + 1) / 2 + 1)` in `2^128` of all functions in place of AES allow to give a message that was not asked for
together with its tag, if all messages together have at most `c` blocks. -/
theorem C161_forgery (keyOk : Bytes → Bool) (key : Bytes) (hk : keyOk key = true)
    (D : Asker Bytes (Py Bytes) (Bytes × Bytes)) (c : Nat) (hc : D.CostLe cmacBlocks (fun r => cmacBlocks r.1) c) :
    2 ^ 128 * Nat.card {f : BitVec 128 → BitVec 128 // Forges (aesCmac (tableLib keyOk f) (tableLib keyOk f) key) D} ≤
      3 * ((c + 1).choose 2 + 1) * Nat.card (BitVec 128 → BitVec 128) := by
  have key : Fintype.card Blk * cnt (fun f : Blk → Blk => Forges (aesCmac (blkLib keyOk f) (blkLib keyOk f) key) D) ≤
      3 * ((c + 1).choose 2 + 1) * Fintype.card (Blk → Blk) := by
    have one : ∀ e, Fintype.card Blk * cnt (fun f : Blk → Blk =>
        Forges (aesCmac (blkLib keyOk f) (blkLib keyOk f) key) D ∧ cls f = e) ≤
        ((c + 1).choose 2 + 1) * Fintype.card (Blk → Blk) := by
      intro e
      refine le_trans (Nat.mul_le_mul_left _ (cnt_mono ?_)) (forgery_one e D c hc)
      rintro f ⟨h, rfl⟩
      exact sim_run (cls f) _ _ (value hk f) D [] h (by simp)
    have none : cnt (fun f : Blk → Blk =>
        Forges (aesCmac (blkLib keyOk f) (blkLib keyOk f) key) D ∧ cls f = (true, true)) = 0 := by
      refine cnt_false ?_
      rintro f ⟨h, hf⟩
      have := h.2
      rw [value hk f, hf, if_pos (by simp [err])] at this
      cases this
    rw [cnt_split _ cls, Fintype.sum_prod_type, Fintype.sum_bool, Fintype.sum_bool, Fintype.sum_bool, none]
    have h1 := one (true, false)
    have h2 := one (false, true)
    have h3 := one (false, false)
    rw [mul_add, mul_add, mul_add, mul_zero]
    linarith
  rw [card_blk] at key
  rw [← Nat.card_eq_fintype_card] at key
  exact key
/-- The number on the right is not zero. -/
example : 0 < Nat.card (BitVec 128 → BitVec 128) := by
  have : Finite (BitVec 128) := inferInstanceAs (Finite Blk)
  exact Nat.card_pos
/-- A strategy with 4 blocks: it asks for the tag of one octet, then for that of the first 16 octets of the answer (or of
an empty message if there was an exception), and claims that the second answer is the tag of 17 zero octets. -/
example : (Asker.ask [7] fun t => .ask ((t.toOption.getD []).take 16) fun t' =>
      .done (List.replicate 17 0, t'.toOption.getD []) :
    Asker Bytes (Py Bytes) (Bytes × Bytes)).CostLe cmacBlocks (fun r => cmacBlocks r.1) 4 := by
  have h1 : cmacBlocks [7] = 1 := by decide
  have h2 (t : Bytes) : cmacBlocks (t.take 16) = 1 := by
    rw [cmacBlocks, List.length_take]
    omega
  refine ⟨by rw [h1]; decide, fun t => ⟨by rw [h1, h2]; decide, fun t' => ?_⟩⟩
  rw [h1, h2]
  change cmacBlocks (List.replicate 17 0) ≤ _
  decide

/-- C161: as long as no exception is raised, whatever can be found out about `aes_cmac` by asking for tags of at most `c`
blocks is found out as often about a random function on the messages, up to `c * (c + 1) / 2` in `2^128`. -/
theorem C161_random_function (keyOk : Bytes → Bool) (key : Bytes) (hk : keyOk key = true) {R : Type}
    (D : Asker Bytes (Py Bytes) R) (accept : R → Prop) (c : Nat) (hc : D.CostLe cmacBlocks (fun _ => 0) c)
    (S : Finset Bytes) (hS : D.Within (· ∈ S)) :
    2 ^ 128 * Nat.card {f : BitVec 128 → BitVec 128 //
        (∀ M, ∃ t, aesCmac (tableLib keyOk f) (tableLib keyOk f) key M = .ok t) ∧
          accept (D.run (aesCmac (tableLib keyOk f) (tableLib keyOk f) key))} * Nat.card (S → BitVec 128) ≤
      2 ^ 128 * Nat.card {r : S → BitVec 128 //
          accept (D.run fun M => if h : M ∈ S then .ok (ofBits (r ⟨M, h⟩)) else .error .value)} *
        Nat.card (BitVec 128 → BitVec 128) +
      (c + 1).choose 2 * Nat.card (BitVec 128 → BitVec 128) * Nat.card (S → BitVec 128) := by
  have key : 2 ^ 128 * cnt (fun f : Blk → Blk => (∀ M, ∃ t, aesCmac (blkLib keyOk f) (blkLib keyOk f) key M = .ok t) ∧
        accept (D.run (aesCmac (blkLib keyOk f) (blkLib keyOk f) key))) * Nat.card (S → Blk) ≤
      2 ^ 128 * cnt (fun r : S → Blk =>
          accept (D.run fun M => if h : M ∈ S then .ok (ofBlk (r ⟨M, h⟩)) else .error .value)) * Nat.card (Blk → Blk) +
      (c + 1).choose 2 * Nat.card (Blk → Blk) * Nat.card (S → Blk) := by
    have h := card_run_start cmacMasks (place []) (place_t []) place_injective S accept (simOk D) c (simOk_cost D c hc)
      (simOk_within D hS)
    rw [card_blk, ← Nat.card_eq_fintype_card, ← Nat.card_eq_fintype_card] at h
    refine le_trans (Nat.mul_le_mul_right _ (Nat.mul_le_mul_left _ (cnt_mono ?_))) (h.trans (Nat.add_le_add_right
      (Nat.mul_le_mul_right _ (Nat.mul_le_mul_left _ (cnt_mono ?_))) _))
    · rintro f ⟨h1, h2⟩
      rw [simOk_run _ (fun M => f (arg cmacMasks f (place [] M))) (· ∈ S) (fun M _ => ?_) D hS]
      · exact h2
      · obtain ⟨t, ht⟩ := h1 M
        have hv := value hk f M
        rw [ht] at hv
        rw [ht]
        split at hv
        · cases hv
        · exact hv
    · intro r h
      rw [simOk_run _ (ext S r) (· ∈ S) (fun M hM => ?_) D hS] at h
      · exact h
      · rw [dif_pos hM, ext, dif_pos hM]
  exact key

/-- A strategy with 3 blocks and its set of messages: are the tags of one octet and of two blocks equal? -/
example : (Asker.ask [7] fun t => .ask (List.replicate 32 0) fun t' => .done (t == t') :
      Asker Bytes (Py Bytes) Bool).CostLe cmacBlocks (fun _ => 0) 3 ∧
    (Asker.ask [7] fun t => .ask (List.replicate 32 0) fun t' => .done (t == t') :
      Asker Bytes (Py Bytes) Bool).Within (· ∈ ({[7], List.replicate 32 0} : Finset Bytes)) :=
  ⟨⟨by decide, fun _ => ⟨by decide, fun _ => Nat.zero_le _⟩⟩, by decide, fun _ => ⟨by decide, fun _ => trivial⟩⟩

/-- C161: for every message exactly one in 256 functions in place of AES makes `aes_cmac` raise `AssertionError`; one in 512
makes it raise for all messages, and 509 in 512 for no message. -/
theorem C161_raises (keyOk : Bytes → Bool) (key : Bytes) (hk : keyOk key = true) :
    (∀ M, 256 * Nat.card {f : BitVec 128 → BitVec 128 //
        aesCmac (tableLib keyOk f) (tableLib keyOk f) key M = .error .assertion} = Nat.card (BitVec 128 → BitVec 128)) ∧
      512 * Nat.card {f : BitVec 128 → BitVec 128 //
        ∀ M, aesCmac (tableLib keyOk f) (tableLib keyOk f) key M = .error .assertion} =
          Nat.card (BitVec 128 → BitVec 128) ∧
      512 * Nat.card {f : BitVec 128 → BitVec 128 //
        ∀ M, ∃ t, aesCmac (tableLib keyOk f) (tableLib keyOk f) key M = .ok t} =
          509 * Nat.card (BitVec 128 → BitVec 128) := by
  have class1 (f : Blk → Blk) : (cls f).1 = true ↔ BitVec.toNat (w := 128) (dblHom (f 0)) < 2 ^ 120 := by
    rw [← onBytes_K1]
    exact decide_eq_true_iff
  have class2 (f : Blk → Blk) : (cls f).2 = true ↔ BitVec.toNat (w := 128) (dblHom (dblHom (f 0))) < 2 ^ 120 := by
    rw [← onBytes_K2]
    exact decide_eq_true_iff
  have raises (f : Blk → Blk) (M : Bytes) :
      aesCmac (blkLib keyOk f) (blkLib keyOk f) key M = .error .assertion ↔ err (cls f) M = true := by
    rw [value hk f M]
    split
    · next h => exact ⟨fun _ => h, fun _ => rfl⟩
    · next h => exact ⟨fun h' => (nomatch h'), fun h' => absurd h' h⟩
  have returns (f : Blk → Blk) (M : Bytes) :
      (∃ t, aesCmac (blkLib keyOk f) (blkLib keyOk f) key M = .ok t) ↔ ¬ err (cls f) M = true := by
    rw [value hk f M]
    split
    · next h => exact ⟨fun ⟨_, h'⟩ => (nomatch h'), fun h' => absurd h h'⟩
    · next h => exact ⟨fun _ => h, fun _ => ⟨_, rfl⟩⟩
  have one : cnt (fun b : Blk => BitVec.toNat (w := 128) (dblHom b) < 2 ^ 120) = 2 ^ 120 := by
    rw [blk_double fun b : Blk => BitVec.toNat (w := 128) b < 2 ^ 120, blk_less _ (by decide)]
  have two : cnt (fun b : Blk => BitVec.toNat (w := 128) (dblHom (dblHom b)) < 2 ^ 120) = 2 ^ 120 := by
    rw [blk_double fun b : Blk => BitVec.toNat (w := 128) (dblHom b) < 2 ^ 120, one]
  have both : cnt (fun b : Blk => BitVec.toNat (w := 128) (dblHom b) < 2 ^ 120 ∧
      BitVec.toNat (w := 128) (dblHom (dblHom b)) < 2 ^ 120) = 2 ^ 119 := by
    rw [blk_double fun b : Blk => BitVec.toNat (w := 128) b < 2 ^ 120 ∧ BitVec.toNat (w := 128) (dblHom b) < 2 ^ 120,
      cnt_congr blk_both_small, blk_less _ (by decide)]
  have neither : cnt (fun b : Blk => ¬ BitVec.toNat (w := 128) (dblHom b) < 2 ^ 120 ∧
      ¬ BitVec.toNat (w := 128) (dblHom (dblHom b)) < 2 ^ 120) = 509 * 2 ^ 119 := by
    have h := blk_neither (fun b : Blk => BitVec.toNat (w := 128) (dblHom b) < 2 ^ 120)
      (fun b : Blk => BitVec.toNat (w := 128) (dblHom (dblHom b)) < 2 ^ 120)
    rw [one, two, both, card_blk] at h
    exact Nat.add_right_cancel (h.trans (by decide +kernel : 2 ^ 128 + 2 ^ 119 = 509 * 2 ^ 119 + (2 ^ 120 + 2 ^ 120)))
  have key1 (M : Bytes) : 256 * cnt (fun f : Blk → Blk =>
      aesCmac (blkLib keyOk f) (blkLib keyOk f) key M = .error .assertion) = Nat.card (Blk → Blk) := by
    rw [cnt_congr fun f => raises f M, Nat.card_eq_fintype_card, ← one_mul (Fintype.card (Blk → Blk))]
    refine scale (m := 2 ^ 120) (by decide) ?_
    have h256 : 256 * 2 ^ 120 = Fintype.card Blk := by rw [card_blk]; decide +kernel
    rw [h256, one_mul]
    by_cases hM : M.length ≠ 0 ∧ M.length % 16 = 0
    · rw [← one, ← funs_zero fun b : Blk => BitVec.toNat (w := 128) (dblHom b) < 2 ^ 120]
      congr 1
      refine cnt_congr fun f => ?_
      rw [err, if_pos hM]
      exact class1 f
    · rw [← two, ← funs_zero fun b : Blk => BitVec.toNat (w := 128) (dblHom (dblHom b)) < 2 ^ 120]
      congr 1
      refine cnt_congr fun f => ?_
      rw [err, if_neg hM]
      exact class2 f
  have e1 (e : Bool × Bool) : err e (List.replicate 16 0) = e.1 := rfl
  have e2 (e : Bool × Bool) : err e [] = e.2 := rfl
  have key2 : 512 * cnt (fun f : Blk → Blk =>
      ∀ M, aesCmac (blkLib keyOk f) (blkLib keyOk f) key M = .error .assertion) = Nat.card (Blk → Blk) := by
    rw [Nat.card_eq_fintype_card, ← one_mul (Fintype.card (Blk → Blk))]
    refine scale (m := 2 ^ 119) (by decide) ?_
    have h512 : 512 * 2 ^ 119 = Fintype.card Blk := by rw [card_blk]; decide +kernel
    rw [h512, one_mul, ← both, ← funs_zero fun b : Blk => BitVec.toNat (w := 128) (dblHom b) < 2 ^ 120 ∧
      BitVec.toNat (w := 128) (dblHom (dblHom b)) < 2 ^ 120]
    congr 1
    refine cnt_congr fun f => ?_
    rw [← class1, ← class2]
    constructor
    · intro h
      have h1 := (raises f _).mp (h (List.replicate 16 0))
      have h2 := (raises f _).mp (h [])
      rw [e1] at h1
      rw [e2] at h2
      exact ⟨h1, h2⟩
    · rintro ⟨h1, h2⟩ M
      refine (raises f M).mpr ?_
      rw [err]
      split
      · exact h1
      · exact h2
  have key3 : 512 * cnt (fun f : Blk → Blk =>
      ∀ M, ∃ t, aesCmac (blkLib keyOk f) (blkLib keyOk f) key M = .ok t) = 509 * Nat.card (Blk → Blk) := by
    rw [Nat.card_eq_fintype_card]
    refine scale (m := 2 ^ 119) (by decide) ?_
    have h512 : 512 * 2 ^ 119 = Fintype.card Blk := by rw [card_blk]; decide +kernel
    rw [h512, ← neither, ← funs_zero fun b : Blk => ¬ BitVec.toNat (w := 128) (dblHom b) < 2 ^ 120 ∧
      ¬ BitVec.toNat (w := 128) (dblHom (dblHom b)) < 2 ^ 120]
    congr 1
    refine cnt_congr fun f => ?_
    rw [← class1, ← class2]
    constructor
    · intro h
      have h1 := (returns f _).mp (h (List.replicate 16 0))
      have h2 := (returns f _).mp (h [])
      rw [e1] at h1
      rw [e2] at h2
      exact ⟨h1, h2⟩
    · rintro ⟨h1, h2⟩ M
      refine (returns f M).mpr ?_
      rw [err]
      split
      · exact h1
      · exact h2
  exact ⟨key1, key2, key3⟩
/-- The function that maps everything to zero raises for all messages; that with the only value `2^124` for none. -/
example : aesCmac (tableLib (fun _ => true) fun _ => 0) (tableLib (fun _ => true) fun _ => 0) [] [1] = .error .assertion ∧
    (aesCmac (tableLib (fun _ => true) fun _ => 2 ^ 124) (tableLib (fun _ => true) fun _ => 2 ^ 124) []
      [1]).toBool = true := by
  decide +kernel

end Cryptopy
