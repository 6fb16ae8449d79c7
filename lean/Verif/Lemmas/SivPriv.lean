import Verif.Lemmas.CtrGame
import Verif.Lemmas.SivPrf

/-!
The counter blocks and the octets of SIV ciphertexts: used for C165.
-/

namespace Cryptopy.Prf
open Finset Function Spec

/-- A counter block. -/
def ctrBits (t : BitVec 128) (k : ℕ) : BitVec 128 := sivQ (ofBits t) + BitVec.ofNat 128 k

theorem ctrBits_inj (t : BitVec 128) (k k' : ℕ) (hk : k < 2 ^ 128) (hk' : k' < 2 ^ 128) (h : ctrBits t k = ctrBits t k') :
    k = k' := by
  rw [ctrBits, ctrBits, BitVec.add_right_inj] at h
  have := congrArg BitVec.toNat h
  rwa [BitVec.toNat_ofNat, BitVec.toNat_ofNat, Nat.mod_eq_of_lt hk, Nat.mod_eq_of_lt hk'] at this

theorem ctrBits_four (t t' : BitVec 128) (k : ℕ) (h : ctrBits t k = ctrBits t' k)
    (h1 : t.getLsbD 31 = t'.getLsbD 31) (h2 : t.getLsbD 63 = t'.getLsbD 63) : t = t' := by
  rw [ctrBits, ctrBits, BitVec.add_left_inj, sivQ, sivQ, toBits_ofBits, toBits_ofBits] at h
  apply BitVec.eq_of_getLsbD_eq
  intro i hi
  by_cases e1 : i = 31
  · rw [e1, h1]
  by_cases e2 : i = 63
  · rw [e2, h2]
  have := congrArg (fun x : BitVec 128 => x.getLsbD i) h
  simp only [BitVec.getLsbD_and, BitVec.getLsbD_not, BitVec.getLsbD_twoPow] at this
  simpa [hi, Ne.symm e1, Ne.symm e2] using this

/-- The same for blocks with xor as addition. -/
def ctrBlk (t : Blk) (k : ℕ) : Blk := ctrBits t k

theorem ctrBlk_hits (k : ℕ) (b : Blk) : (univ.filter fun t : Blk => ctrBlk t k = b).card ≤ 2 * 2 := by
  have : (univ : Finset (Bool × Bool)).card = 2 * 2 := rfl
  rw [← this]
  refine card_le_card_of_injOn (fun t : Blk => (BitVec.getLsbD (w := 128) t 31, BitVec.getLsbD (w := 128) t 63))
    (fun _ _ => mem_coe.mpr (mem_univ _)) ?_
  intro t ht t' ht' e
  rw [mem_coe, mem_filter] at ht ht'
  rw [Prod.mk.injEq] at e
  exact ctrBits_four t t' k (ht.2.trans ht'.2.symm) e.1 e.2

/-- The number of blocks of the key stream. -/
def nb (v : Box) : ℕ := (v.2.length + 15) / 16

/-- The ciphertext for the synthetic IV and the key stream. -/
def outS (v : Box) (l : List Blk) : Py Bytes := .ok (xorBytes (List.replicate 16 0 ++ v.2) (l.flatMap ofBlk))

theorem xorBytes_append {a b c d : Bytes} (h : a.length = c.length) :
    xorBytes (a ++ b) (c ++ d) = xorBytes a c ++ xorBytes b d := List.zipWith_append h

theorem xorBytes_zeros (a : Bytes) (m : ℕ) (h : a.length = m) : xorBytes (List.replicate m 0) a = a := by
  subst h
  induction a with
  | nil => rfl
  | cons x a ih =>
    rw [List.length_cons, List.replicate_succ]
    change (0 ^^^ x) :: xorBytes _ _ = _
    rw [ih]
    simp

theorem xorBytes_assoc (a b c : Bytes) : xorBytes (xorBytes a b) c = xorBytes a (xorBytes b c) := by
  induction a generalizing b c with
  | nil => simp [xorBytes]
  | cons x a ih =>
    cases b with
    | nil => simp [xorBytes]
    | cons y b =>
      cases c with
      | nil => simp [xorBytes]
      | cons z c =>
        have := ih b c
        simp only [xorBytes, List.zipWith_cons_cons] at this ⊢
        rw [this, UInt8.xor_assoc]

theorem ofBlk_add (a b : Blk) : ofBlk (a + b) = xorBytes (ofBlk a) (ofBlk b) := by
  refine toBlk_inj (by simp) (by simp [length_xorBytes]) ?_
  rw [toBlk_xor (by simp) (by simp), toBlk_ofBlk, toBlk_ofBlk, toBlk_ofBlk]

theorem length_flat (m : ℕ) (a : ℕ → Blk) : ((List.range m).flatMap fun i => ofBlk (a i)).length = 16 * m := by
  induction m with
  | zero => rfl
  | succ m ih =>
    rw [List.range_succ, List.flatMap_append, List.length_append, ih]
    simp
    omega

theorem flat_add (m : ℕ) (a b : ℕ → Blk) : (List.range m).flatMap (fun i => ofBlk (a i + b i)) =
      xorBytes ((List.range m).flatMap fun i => ofBlk (a i)) ((List.range m).flatMap fun i => ofBlk (b i)) := by
  induction m with
  | zero => rfl
  | succ m ih =>
    rw [List.range_succ, List.flatMap_append, List.flatMap_append, List.flatMap_append, ih,
      xorBytes_append (by rw [length_flat, length_flat])]
    simp [ofBlk_add]

theorem ofBlk_toBlk {s : Bytes} (h : s.length = 16) : ofBlk (toBlk s) = s :=
  toBlk_inj (by simp) h (toBlk_ofBlk _)

theorem flat_cut (m : ℕ) (L : Bytes) (h : L.length = 16 * m) :
    ((List.range m).flatMap fun i => ofBlk (toBlk ((L.drop (16 * i)).take 16))) = L := by
  induction m generalizing L with
  | zero =>
    rw [List.length_eq_zero_iff.mp (by omega : L.length = 0)]
    rfl
  | succ m ih =>
    rw [List.range_succ_eq_map, List.flatMap_cons, List.flatMap_map]
    have h1 := ih (L.drop 16) (by rw [List.length_drop]; omega)
    have e : ∀ i, (L.drop 16).drop (16 * i) = L.drop (16 * (i + 1)) := fun i => by
      rw [List.drop_drop]
      congr 1
      omega
    simp only [e] at h1
    rw [h1, Nat.mul_zero, List.drop_zero, ofBlk_toBlk (by rw [List.length_take]; omega), List.take_append_drop]

/-- The pieces of the queries. -/
def pieces (S : Finset Box) : Finset (Box × ℕ) := S.biUnion fun v => (range (nb v + 1)).image fun i => (v, i)

theorem mem_pieces {S : Finset Box} {v : Box} {i : ℕ} : (v, i) ∈ pieces S ↔ v ∈ S ∧ i < nb v + 1 := by
  rw [pieces, mem_biUnion]
  constructor
  · rintro ⟨w, hw, h⟩
    obtain ⟨j, hj, e⟩ := mem_image.mp h
    rw [Prod.mk.injEq] at e
    obtain ⟨rfl, rfl⟩ := e
    exact ⟨hw, mem_range.mp hj⟩
  · rintro ⟨h1, h2⟩
    exact ⟨v, h1, mem_image_of_mem _ (mem_range.mpr h2)⟩

theorem onBytes_ofBlk (f : Blk → Blk) (b : Blk) : onBytes f (ofBlk b) = ofBlk (f b) := by rw [onBytes, toBlk_ofBlk]

theorem onBytes_ctr (f : Blk → Blk) (t : Blk) (i : ℕ) :
    onBytes f (ofBits (sivQ (ofBlk t) + BitVec.ofNat 128 i)) = ofBlk (f (ctrBlk t i)) := onBytes_ofBlk f (ctrBlk t i)

theorem outS_piece (S : Finset Box) (g : S ⊕ Blk → Blk) (v : Box) :
    outS v ((List.range (nb v + 1)).map fun i => piece S ctrBlk g (v, i)) =
      .ok (ofBlk (start S g v) ++ xorBytes v.2 (ctrStream (onBytes fun b => g (.inr b)) (sivQ (ofBlk (start S g v)))
        ((v.2.length + 15) / 16))) := by
  rw [outS, List.range_succ_eq_map, List.map_cons, List.map_map, List.flatMap_cons, List.flatMap_map,
    xorBytes_append (by simp)]
  have e : ∀ i, ofBlk (piece S ctrBlk g (v, i + 1)) =
      onBytes (fun b => g (.inr b)) (ofBits (sivQ (ofBlk (start S g v)) + BitVec.ofNat 128 i)) := fun i => by
    rw [onBytes_ctr]
    rfl
  have e0 : piece S ctrBlk g (v, 0) = start S g v := rfl
  rw [e0, xorBytes_zeros _ _ (by simp), ctrStream, nb]
  simp only [comp_apply, Nat.succ_eq_add_one, e]

/-- The strings of the length of the ciphertext. -/
abbrev Ct (v : Box) : Type := {s : Bytes // s.length = 16 + v.2.length}

instance (v : Box) : Finite (Ct v) := by
  have : Finite UInt8 := Finite.of_injective (fun x => x.toFin) fun a b h => UInt8.toFin_inj.mp h
  exact (List.finite_length_eq UInt8 (16 + v.2.length)).to_subtype

noncomputable instance (v : Box) : Fintype (Ct v) := Fintype.ofFinite _

theorem flat_long (v : Box) (a : ℕ → Blk) :
    16 + v.2.length ≤ ((List.range (nb v + 1)).flatMap fun i => ofBlk (a i)).length := by
  rw [length_flat, nb]
  omega

/-- The ciphertexts for random blocks. -/
noncomputable def cts (S : Finset Box) (ρ : pieces S → Blk) (v : S) : Ct v.1 :=
  ⟨xorBytes (List.replicate 16 0 ++ v.1.2) ((List.range (nb v.1 + 1)).flatMap fun i => ofBlk (ext (pieces S) ρ (v.1, i))), by
    have := flat_long v.1 fun i => ext (pieces S) ρ (v.1, i)
    rw [length_xorBytes, List.length_append, List.length_replicate]
    omega⟩

/-- Every choice of ciphertexts is equally frequent. -/
theorem cts_shift (S : Finset Box) (y y' : (v : S) → Ct v.1) :
    ∃ d : pieces S → Blk, ∀ ρ, cts S ρ = y → cts S (ρ + d) = y' := by
  let L : S → Bytes := fun v => xorBytes (y v).1 (y' v).1 ++ List.replicate (16 * (nb v.1 + 1) - (16 + v.1.2.length)) 0
  have hL : ∀ v, (L v).length = 16 * (nb v.1 + 1) := by
    intro v
    have h1 := (y v).2
    have h2 := (y' v).2
    have h3 := flat_long v.1 fun _ => 0
    rw [length_flat] at h3
    simp only [L, List.length_append, length_xorBytes, List.length_replicate, h1, h2]
    omega
  refine ⟨fun p => if h : p.1.1 ∈ S then toBlk (((L ⟨p.1.1, h⟩).drop (16 * p.1.2)).take 16) else 0, fun ρ hρ => ?_⟩
  subst hρ
  funext v
  refine Subtype.ext ?_
  have e : ∀ i ∈ List.range (nb v.1 + 1), ofBlk (ext (pieces S) (ρ + fun p : pieces S =>
        if h : p.1.1 ∈ S then toBlk (((L ⟨p.1.1, h⟩).drop (16 * p.1.2)).take 16) else 0) (v.1, i)) =
      ofBlk (ext (pieces S) ρ (v.1, i) + toBlk (((L v).drop (16 * i)).take 16)) := by
    intro i hi
    have hm : (v.1, i) ∈ pieces S := mem_pieces.mpr ⟨v.2, List.mem_range.mp hi⟩
    rw [ext, dif_pos hm, ext, dif_pos hm, Pi.add_apply]
    simp only
    rw [dif_pos v.2]
  have h1 := (y' v).2
  have h2 := (cts S ρ v).2
  change xorBytes _ _ = (y' v).1
  rw [List.flatMap_congr e, flat_add, flat_cut _ _ (hL v), ← xorBytes_assoc]
  change xorBytes (cts S ρ v).1 (xorBytes (cts S ρ v).1 (y' v).1 ++ _) = _
  have h4 : ∀ a b c : Bytes, a.length = b.length → xorBytes a (b ++ c) = xorBytes a b := fun a b c h => by
    have := xorBytes_append (b := []) (d := c) h
    simpa [xorBytes] using this
  rw [h4 _ _ _ (by rw [length_xorBytes, h1, h2]; omega), ← xorBytes_assoc]
  have h3 : ∀ a b : Bytes, a.length = b.length → xorBytes (xorBytes a a) b = b := by
    intro a b hab
    induction a generalizing b with
    | nil =>
      rw [List.length_eq_zero_iff.mp hab.symm]
      rfl
    | cons x a ih =>
      cases b with
      | nil => simp at hab
      | cons z b =>
        have := ih b (by simpa using hab)
        simp only [xorBytes, List.zipWith_cons_cons] at this ⊢
        rw [this]
        simp
  exact h3 _ _ (by rw [h1, h2])

end Cryptopy.Prf
