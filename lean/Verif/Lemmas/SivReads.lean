import Verif.Lemmas.Switch
import Verif.Lemmas.SivPrf

/-!
How many values of the cipher CMAC and S2V use: used for C166.
-/

namespace Cryptopy.Prf
open Spec S2vTags
open Model (CipherLib aesCmac)

variable {P : (Blk → Blk) → Prop}

theorem chain_reads (w : List Blk) : Reads P w.length fun f => chain f w := by
  induction w with
  | nil => exact ⟨.done 0, Nat.zero_le _, fun _ _ => rfl⟩
  | cons b w ih => exact Reads.bind (E' := fun x f => f (b + x)) ih fun x => Reads.value _ _

/-- CMAC uses one value for each block if the value at zero is known. -/
theorem cmacBlk_reads {L : Blk} (hP : ∀ f, P f → f 0 = L) (M : Bytes) : Reads P (blocks M) fun f => cmacBlk f M := by
  refine (Reads.bind (E' := fun x f => f ((place [] M).b + x + cmacMasks.m (place [] M).t L))
    (chain_reads (place [] M).w) fun x => Reads.value _ _).congr fun f hf => ?_
  rw [cmacBlk, arg, hP f hf]

theorem cmacList_reads {L : Blk} (hP : ∀ f, P f → f 0 = L) (l : List Bytes) :
    Reads P (l.map blocks).sum fun f => l.map (cmacBlk f) := by
  induction l generalizing P with
  | nil => exact ⟨.done [], Nat.zero_le _, fun _ _ => rfl⟩
  | cons M t ih =>
    exact Reads.bind (E' := fun x f => x :: t.map (cmacBlk f)) (cmacBlk_reads hP M) fun x =>
      (ih fun f hf => hP f hf.1).of fun f f' _ _ e => by rw [e]

/-- S2V uses one value for each block if the value at zero and the tag of the zero block are known. -/
theorem s2vBlk_reads {L Z : Blk} (hP : ∀ f, P f → f 0 = L ∧ cmacBlk f zeroBlock = Z) (v : Box) :
    Reads P (boxBlocks v) fun f => cmacBlk f (locS (cmacBlk f) v) := by
  refine (cmacList_reads (fun f hf => (hP f hf).1) v.1).after fun l => ?_
  by_cases h : ∃ f, P f ∧ v.1.map (cmacBlk f) = l
  · obtain ⟨f0, h1, h2⟩ := h
    have hr := cmacBlk_reads (P := fun f => P f ∧ v.1.map (cmacBlk f) = l) (fun f hf => (hP f hf.1).1)
      (locS (cmacBlk f0) v)
    rw [blocks_locS] at hr
    refine hr.congr fun f hf => congrArg (cmacBlk f) (locS_congr ?_ fun m hm => ?_)
    · rw [(hP f0 h1).2, (hP f hf.1).2]
    · exact List.map_inj_left.mp (h2.trans hf.2.symm) m hm
  · exact (Reads.known fun f _ hf _ => absurd ⟨f, hf⟩ h).mono (Nat.zero_le _)

theorem subErr_zero (f : Blk → Blk) : subErr (onBytes f) =
    (decide ((show BitVec 128 from dblHom (f 0)).toNat < 2 ^ 120),
      decide ((show BitVec 128 from dblHom (dblHom (f 0))).toNat < 2 ^ 120)) := by
  rw [subErr, onBytes_K1, onBytes_K2]

theorem subErr_of_zero {f f' : Blk → Blk} (h : f 0 = f' 0) : subErr (onBytes f) = subErr (onBytes f') := by
  rw [subErr_zero, subErr_zero, h]

section
variable {lib : (Blk → Blk) → CipherLib} {key : Bytes} (hl : ∀ f, LawfulCipher (lib f)) (hk : ∀ f, (lib f).keyOk key = true)
  (he : ∀ f, (lib f).enc key = onBytes f)
include hl hk he

theorem lib_cmac (f : Blk → Blk) (M : Bytes) : aesCmac (lib f) (lib f) key M =
    if cmacErr (subErr (onBytes f)) M then .error .assertion else .ok (ofBlk (cmacBlk f M)) := by
  rw [cmac_err _ (hl f) key M (hk f), he, cmac_place]
  rfl

theorem lib_s2v (f : Blk → Blk) (ads : List Bytes) (pt : Bytes) : Model.s2v (lib f) key (ads ++ [pt]) =
    if boxErr (subErr (onBytes f)) (ads, pt) then .error .assertion
    else .ok (ofBlk (cmacBlk f (locS (cmacBlk f) (ads, pt)))) :=
  s2v_err (lib f) key _ (cmacBlk f) (lib_cmac hl hk he f) ads pt

theorem aesCmac_reads {L : Blk} (hP : ∀ f, P f → f 0 = L) (M : Bytes) :
    Reads P (blocks M) fun f => aesCmac (lib f) (lib f) key M :=
  have : Nonempty (Py Bytes) := ⟨.ok []⟩
  (cmacBlk_reads hP M).of fun f f' h h' e => by
    rw [lib_cmac hl hk he, lib_cmac hl hk he, e, subErr_of_zero ((hP f h).trans (hP f' h').symm)]

theorem s2v_reads {L Z : Blk} (hP : ∀ f, P f → f 0 = L ∧ cmacBlk f zeroBlock = Z) (v : Box) :
    Reads P (boxBlocks v) fun f => Model.s2v (lib f) key (v.1 ++ [v.2]) :=
  have : Nonempty (Py Bytes) := ⟨.ok []⟩
  (s2vBlk_reads hP v).of fun f f' h h' e => by
    rw [lib_s2v hl hk he, lib_s2v hl hk he, e, subErr_of_zero ((hP f h).1.trans (hP f' h').1.symm)]

/-- Whether there are exceptions depends on one value. -/
theorem quiet_of_zero {f f' : Blk → Blk} (h : f 0 = f' 0) :
    (∀ M, ∃ t, aesCmac (lib f) (lib f) key M = .ok t) = ∀ M, ∃ t, aesCmac (lib f') (lib f') key M = .ok t := by
  have (f : Blk → Blk) : (∀ M, ∃ t, aesCmac (lib f) (lib f) key M = .ok t) =
      ∀ M, ¬ cmacErr (subErr (onBytes f)) M = true := by
    refine propext (forall_congr' fun M => ?_)
    rw [lib_cmac hl hk he]
    split
    · next h => exact ⟨fun ⟨_, ht⟩ => (nomatch ht), fun h' => absurd h h'⟩
    · next h => exact ⟨fun _ => h, fun _ => ⟨_, rfl⟩⟩
  rw [this, this, subErr_of_zero h]

end

/-- The octets of the key stream. -/
theorem stream_reads {lib : (Blk → Blk) → CipherLib} {key : Bytes} (he : ∀ f, (lib f).enc key = onBytes f)
    (iv : Bytes) (i n : ℕ) (x : Bytes) : Reads P n fun f => Model.sivStream (lib f) key iv i n x := by
  induction n generalizing P i x with
  | zero => exact ⟨.done (.ok x), Nat.zero_le _, fun _ _ => rfl⟩
  | succ n ih =>
    cases hb : Model.sivCounterBlock iv i with
    | error e =>
      refine ⟨.done (.error e), Nat.zero_le _, fun f _ => ?_⟩
      beta_reduce
      rw [Model.sivStream.eq_def]
      simp only [hb]
      rfl
    | ok b =>
      refine ((Reads.bind (E' := fun y f => Model.sivStream (lib f) key iv (i + 1) n (x ++ ofBlk y))
        (Reads.value P (toBlk b)) fun y => ih _ _).mono (Nat.add_comm 1 n).le).congr fun f _ => ?_
      rw [Model.sivStream.eq_def _ _ _ i (n + 1)]
      simp only [hb, he]
      rfl

theorem blocks_zeroBlock : blocks zeroBlock = 1 := by
  rw [blocks, place_length]
  rfl

/-- The value at zero. -/
theorem perms_zero (E : Blk → Prop) :
    Fintype.card Blk * cnt (fun π : Equiv.Perm Blk => E (π 0)) = cnt E * Fintype.card (Equiv.Perm Blk) := by
  classical
  have each (y : Blk) : cnt (fun π : Equiv.Perm Blk => π 0 = y) = cnt fun π : Equiv.Perm Blk => π 0 = 0 := by
    have := perms_same [] (0 : Blk) y 0 (by simp) (by simp)
    have t (y : Blk) (f : Blk → Blk) : Agrees [(0, y)] f ↔ f 0 = y := by
      rw [agrees_cons]
      exact ⟨fun h => h.2, fun h => ⟨fun p hp => absurd hp List.not_mem_nil, h⟩⟩
    simpa only [t] using this
  have all : Fintype.card (Equiv.Perm Blk) = Fintype.card Blk * cnt fun π : Equiv.Perm Blk => π 0 = 0 := by
    rw [← cnt_true, cnt_split _ fun π : Equiv.Perm Blk => π 0]
    simp only [true_and, each]
    rw [Finset.sum_const, Finset.card_univ, smul_eq_mul]
  have some : cnt (fun π : Equiv.Perm Blk => E (π 0)) = cnt E * cnt fun π : Equiv.Perm Blk => π 0 = 0 := by
    rw [cnt_split _ fun π : Equiv.Perm Blk => π 0, cnt_eq E, Finset.card_filter, Finset.sum_mul]
    refine Finset.sum_congr rfl fun y _ => ?_
    by_cases h : E y
    · rw [if_pos h, one_mul, ← each y]
      exact cnt_congr fun π => ⟨fun h => h.2, fun e => ⟨e ▸ h, e⟩⟩
    · rw [if_neg h, zero_mul]
      exact cnt_false fun π hπ => h (hπ.2 ▸ hπ.1)
  rw [some, all]
  ring

end Cryptopy.Prf
