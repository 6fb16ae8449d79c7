import Verif.Lemmas.PrfGame
import Verif.Lemmas.Gf128
import Verif.Props.S2vTags
import Mathlib.RingTheory.Coprime.Lemmas
import Mathlib.Algebra.Ring.GeomSum
import Mathlib.Algebra.Field.ZMod
import Mathlib.Data.Fintype.EquivFin

/-!
CMAC as a chained function with subkeys: used for C161.
-/

namespace Cryptopy.Prf
open Spec Polynomial S2vTags

/-- Blocks of 128 bits with xor as addition. -/
def Blk : Type := BitVec 128

instance : DecidableEq Blk := inferInstanceAs (DecidableEq (BitVec 128))

instance : Zero Blk := ⟨0#128⟩
instance : Add Blk := ⟨fun a b => (show BitVec 128 from a) ^^^ (show BitVec 128 from b)⟩
instance : Neg Blk := ⟨fun a => a⟩

instance : AddCommGroup Blk where
  add_assoc a b c := BitVec.xor_assoc (x := a) (y := b) (z := c)
  zero_add a := BitVec.zero_xor (x := a)
  add_zero a := BitVec.xor_zero (x := a)
  neg_add_cancel a := BitVec.xor_self (x := a)
  add_comm a b := BitVec.xor_comm (x := a) (y := b)
  nsmul := nsmulRec
  zsmul := zsmulRec

/-- Bit strings and numbers. -/
def blkEquiv : Blk ≃ Fin (2 ^ 128) where
  toFun a := BitVec.toFin (w := 128) a
  invFun a := BitVec.ofFin a
  left_inv _ := rfl
  right_inv _ := rfl

instance : Finite Blk := Finite.of_equiv _ blkEquiv.symm

noncomputable instance : Fintype Blk := Fintype.ofFinite Blk

theorem card_blk : Fintype.card Blk = 2 ^ 128 := by
  rw [Fintype.card_congr blkEquiv, Fintype.card_fin]

theorem blk_sub (a b : Blk) : a - b = a + b := rfl

theorem add_self (a : Blk) : a + a = 0 := BitVec.xor_self (x := a)

/-- Doubling. -/
def dblHom : Blk →+ Blk where
  toFun a := dblBits a
  map_zero' := by
    change dblBits 0#128 = 0#128
    decide +kernel
  map_add' a b := dbl_xor a b

theorem dblHom_inj {a b : Blk} (h : dblHom a = dblHom b) : a = b := dblBits_injective h

theorem one_add_inj {a : Blk} (h : a + dblHom a = 0) : a = 0 := by
  refine dbl_fixed a ?_
  have : dblHom a = -a := (neg_eq_of_add_eq_zero_right h).symm
  exact this

theorem bitPoly_coeff (k n i : Nat) (hi : i < k) : (bitPoly k n).coeff i = if n.testBit i then 1 else 0 := by
  rw [bitPoly, finsetSum_coeff, Finset.sum_eq_single i]
  · split <;> simp
  · intro j _ hj
    split
    · rw [coeff_X_pow, if_neg (Ne.symm hj)]
    · simp
  · intro h
    exact absurd (Finset.mem_range.mpr hi) h

theorem bitPoly_eq_zero (a : BitVec 128) (h : bitPoly 128 a.toNat = 0) : a = 0#128 := by
  apply BitVec.eq_of_getLsbD_eq
  intro i hi
  have := bitPoly_coeff 128 a.toNat i hi
  rw [h, coeff_zero] at this
  rw [← BitVec.testBit_toNat]
  by_cases ht : a.toNat.testBit i
  · rw [if_pos ht] at this
    exact absurd this (by decide)
  · simpa using ht

theorem gf128_coprime : IsCoprime (X ^ 2 + X + 1 : (ZMod 2)[X]) gf128 := by
  have two : (2 : (ZMod 2)[X]) = 0 := by
    have := CharTwo.two_eq_zero (R := (ZMod 2)[X])
    exact this
  have dv : ∀ n : ℕ, (X ^ 3 - 1 : (ZMod 2)[X]) ∣ (X ^ 3) ^ n - 1 := fun n => by
    have := sub_dvd_pow_sub_pow (X ^ 3 : (ZMod 2)[X]) 1 n
    rwa [one_pow] at this
  obtain ⟨q, hq⟩ := dv 42
  obtain ⟨r, hr⟩ := dv 2
  refine ⟨(X - 1) * (X ^ 2 * q + X * r), 1, ?_⟩
  unfold gf128
  linear_combination (-X ^ 2) * hq - X * hr + (X ^ 128 + X ^ 7) * two

theorem gf128_degree : gf128.degree = (128 : ℕ) := by
  have hg : gf128 = X ^ 128 + bitPoly 128 0x87 := by unfold gf128; rw [bitPoly_const]
  have h := bitPoly_degree_lt 128 0x87
  generalize 128 = n at *
  rw [hg, degree_add_eq_left_of_degree_lt (by rwa [degree_X_pow]), degree_X_pow]

theorem dbl_trinomial (a : BitVec 128) (h : a ^^^ dblBits a ^^^ dblBits (dblBits a) = 0#128) : a = 0#128 := by
  have dv : ∀ b : BitVec 128, gf128 ∣ X * bitPoly 128 b.toNat - bitPoly 128 (dblBits b).toNat := fun b => by
    rw [bitPoly_dblBits]
    exact ⟨_, by rw [sub_eq_iff_eq_add, add_comm, modByMonic_add_div]⟩
  have h1 : bitPoly 128 a.toNat + bitPoly 128 (dblBits a).toNat + bitPoly 128 (dblBits (dblBits a)).toNat = 0 := by
    rw [← bitPoly_xor, ← bitPoly_xor, ← BitVec.toNat_xor, ← BitVec.toNat_xor, h]
    simp [bitPoly]
  have h2 : gf128 ∣ (X ^ 2 + X + 1) * bitPoly 128 a.toNat := by
    obtain ⟨u, hu⟩ := dv a
    obtain ⟨v, hv⟩ := dv (dblBits a)
    refine ⟨u + X * u + v, ?_⟩
    linear_combination hu + X * hu + hv + h1
  have h5 := bitPoly_degree_lt 128 a.toNat
  refine bitPoly_eq_zero a ?_
  clear h1 dv h
  generalize bitPoly 128 a.toNat = P at *
  have hc := gf128_coprime
  have h6 := gf128_degree
  generalize gf128 = g at *
  generalize 128 = n at *
  have h3 := hc.symm.dvd_of_dvd_mul_left h2
  by_contra hne
  have := degree_le_of_dvd h3 hne
  rw [h6] at this
  exact absurd (lt_of_le_of_lt this h5) (lt_irrefl _)

theorem trinomial_inj {a : Blk} (h : a + dblHom a + dblHom (dblHom a) = 0) : a = 0 := dbl_trinomial a h

theorem inj_of_zero (g : Blk →+ Blk) (h : ∀ a, g a = 0 → a = 0) : Function.Injective g := (injective_iff_map_eq_zero g).mpr h

/-- The subkeys of CMAC: `some true` for the one used with complete blocks. -/
def maskHom : Option Bool → Blk →+ Blk
  | none => 0
  | some true => dblHom
  | some false => dblHom.comp dblHom

/-- The same with what is asked of them. -/
def cmacMasks : Masks Blk where
  m := maskHom
  none_eq := rfl
  diff := by
    have d1 : ∀ a : Blk, dblHom a = 0 → a = 0 := fun a h => dblHom_inj (h.trans (map_zero _).symm)
    have d2 : ∀ a : Blk, dblHom (dblHom a) = 0 → a = 0 := fun a h => d1 a (d1 _ h)
    have d3 : ∀ a : Blk, dblHom a + dblHom (dblHom a) = 0 → a = 0 := fun a h => d1 a (one_add_inj h)
    intro t t' hne
    refine inj_of_zero (maskHom t - maskHom t') fun a h => ?_
    replace h : maskHom t a + maskHom t' a = 0 := h
    rcases t with _ | _ | _ <;> rcases t' with _ | _ | _
    · exact absurd rfl hne
    · exact d2 a ((zero_add _).symm.trans h)
    · exact d1 a ((zero_add _).symm.trans h)
    · exact d2 a ((add_zero _).symm.trans h)
    · exact absurd rfl hne
    · exact d3 a ((add_comm _ _).trans h)
    · exact d1 a ((add_zero _).symm.trans h)
    · exact d3 a h
    · exact absurd rfl hne
  step := by
    have s1 : ∀ a : Blk, a + dblHom a = 0 → a = 0 := fun a h => one_add_inj h
    have s2 : ∀ a : Blk, a + dblHom (dblHom a) = 0 → a = 0 := fun a h => by
      have e : (a + dblHom a) + dblHom (a + dblHom a) = 0 := by
        rw [map_add, add_assoc, ← add_assoc (dblHom a), add_self, zero_add, h]
      exact s1 a (s1 _ e)
    intro t t'
    refine inj_of_zero (AddMonoidHom.id Blk + maskHom t - maskHom t') fun a h => ?_
    replace h : a + maskHom t a + maskHom t' a = 0 := h
    rcases t with _ | _ | _ <;> rcases t' with _ | _ | _
    · exact (add_zero a).symm.trans ((add_zero _).symm.trans h)
    · rw [show maskHom none a = 0 from rfl, add_zero] at h
      exact s2 a h
    · rw [show maskHom none a = 0 from rfl, add_zero] at h
      exact s1 a h
    · exact s2 a ((add_zero _).symm.trans h)
    · rwa [add_assoc, add_self, add_zero] at h
    · rw [add_right_comm] at h
      exact trinomial_inj h
    · exact s1 a ((add_zero _).symm.trans h)
    · exact trinomial_inj h
    · rwa [add_assoc, add_self, add_zero] at h

/-- 16 octets as a block. -/
def toBlk (s : Bytes) : Blk := toBits s

/-- A block as 16 octets. -/
def ofBlk (b : Blk) : Bytes := ofBits b

theorem toBlk_inj {a b : Bytes} (ha : a.length = 16) (hb : b.length = 16) (h : toBlk a = toBlk b) : a = b :=
  toBits_inj ha hb h

theorem toBlk_ofBlk (b : Blk) : toBlk (ofBlk b) = b := toBits_ofBits b

theorem ofBlk_inj {a b : Blk} (h : ofBlk a = ofBlk b) : a = b := by rw [← toBlk_ofBlk a, h, toBlk_ofBlk]

theorem toBlk_xor {a b : Bytes} (ha : a.length = 16) (hb : b.length = 16) : toBlk (xorBytes a b) = toBlk a + toBlk b :=
  toBits_xor ha hb

@[simp] theorem length_ofBlk (b : Blk) : (ofBlk b).length = 16 := length_ofBits b

theorem toBlk_zero : toBlk (List.replicate 16 0) = 0 := by
  change toBits (List.replicate 16 0) = 0#128
  decide +kernel

theorem ofBlk_zero : ofBlk 0 = List.replicate 16 0 := by
  change ofBits 0#128 = _
  decide +kernel

private theorem add_mix {A : Type} [AddCommGroup A] (a b c : A) : a + (b + c) = b + a + c := by abel

/-- The place where the cipher is applied last for a message, after some blocks. -/
def place (w : List Blk) (M : Bytes) : Pt Blk :=
  if M.length < 16 then ⟨w, toBlk (pad10 M), some false⟩
  else if M.length = 16 then ⟨w, toBlk M, some true⟩
  else place (toBlk (M.take 16) :: w) (M.drop 16)
termination_by M.length
decreasing_by simp; omega

theorem place_t (w : List Blk) (M : Bytes) : (place w M).t ≠ none := by
  induction hn : M.length using Nat.strong_induction_on generalizing w M with
  | _ n ih =>
    rw [place]
    split
    · simp
    · split
      · simp
      · exact ih (n - 16) (by omega) _ _ (by simp; omega)

theorem place_length (w : List Blk) (M : Bytes) : (place w M).w.length = w.length + (M.length - 1) / 16 := by
  induction hn : M.length using Nat.strong_induction_on generalizing w M with
  | _ n ih =>
    rw [place]
    split
    · simp
      omega
    · split
      · simp
        omega
      · rw [ih (n - 16) (by omega) _ _ (by simp; omega), List.length_cons]
        omega

theorem place_inj (w w' : List Blk) (M M' : Bytes) (hl : w.length = w'.length) (h : place w M = place w' M') :
    w = w' ∧ M = M' := by
  induction hn : M.length using Nat.strong_induction_on generalizing w w' M M' with
  | _ n ih =>
    have hlen := congrArg (fun p => p.w.length) h
    simp only [place_length] at hlen
    rw [place.eq_def w M, place.eq_def w' M'] at h
    by_cases h1 : M.length ≤ 16
    · have h1' : M'.length ≤ 16 := by omega
      by_cases h2 : M.length < 16
      · by_cases h2' : M'.length < 16
        · rw [if_pos h2, if_pos h2', Pt.mk.injEq] at h
          exact ⟨h.1, pad10_inj (toBlk_inj (length_pad10 _ h2) (length_pad10 _ h2') h.2.1)⟩
        · rw [if_pos h2, if_neg h2', if_pos (by omega), Pt.mk.injEq] at h
          simp at h
      · by_cases h2' : M'.length < 16
        · rw [if_neg h2, if_pos (by omega), if_pos h2', Pt.mk.injEq] at h
          simp at h
        · rw [if_neg h2, if_pos (by omega), if_neg h2', if_pos (by omega), Pt.mk.injEq] at h
          exact ⟨h.1, toBlk_inj (by omega) (by omega) h.2.1⟩
    · have h1' : ¬ M'.length ≤ 16 := by omega
      rw [if_neg (by omega), if_neg (by omega), if_neg (by omega), if_neg (by omega)] at h
      obtain ⟨e1, e2⟩ := ih (n - 16) (by omega) _ _ _ _ (by simp [hl]) h (by simp; omega)
      rw [List.cons.injEq] at e1
      have e3 := toBlk_inj (by simp; omega) (by simp; omega) e1.1
      refine ⟨e1.2, ?_⟩
      rw [← List.take_append_drop 16 M, ← List.take_append_drop 16 M', e3, e2]

theorem place_injective : Function.Injective (place []) := fun M M' h => (place_inj [] [] M M' rfl h).2

/-- A function on bit strings as a function on octet strings. -/
def onBytes (f : Blk → Blk) (s : Bytes) : Bytes := ofBlk (f (toBlk s))

theorem onBytes_K1 (f : Blk → Blk) : cmacK1 (onBytes f) = dblHom (f 0) := by
  have h : toBits (onBytes f (List.replicate 16 0)) = f 0 := by
    rw [onBytes, toBlk_zero]
    exact toBlk_ofBlk _
  rw [cmacK1, h]
  rfl

theorem onBytes_K2 (f : Blk → Blk) : cmacK2 (onBytes f) = dblHom (dblHom (f 0)) := by
  rw [cmacK2, onBytes_K1]
  rfl

theorem cmacFrom_place (f : Blk → Blk) (w : List Blk) (M : Bytes) :
    cmacFrom (onBytes f) (cmacK1 (onBytes f)) (cmacK2 (onBytes f)) (ofBlk (chain f w)) M =
      ofBlk (f (arg cmacMasks f (place w M))) := by
  have h1 : ofBits (cmacK1 (onBytes f)) = ofBlk (dblHom (f 0)) := congrArg ofBits (onBytes_K1 f)
  have h2 : ofBits (cmacK2 (onBytes f)) = ofBlk (dblHom (dblHom (f 0))) := congrArg ofBits (onBytes_K2 f)
  induction hn : M.length using Nat.strong_induction_on generalizing w M with
  | _ n ih =>
    rw [cmacFrom, place]
    by_cases h : M.length < 16
    · rw [if_pos h, if_pos h, onBytes, h2, toBlk_xor (by simp) (by simp [length_xorBytes, length_pad10 _ h]),
        toBlk_xor (length_pad10 _ h) (by simp), toBlk_ofBlk, toBlk_ofBlk, add_mix]
      rfl
    · rw [if_neg h, if_neg h]
      by_cases h' : M.length = 16
      · rw [if_pos h', if_pos h', onBytes, h1, toBlk_xor (by simp) (by simp [length_xorBytes, h']), toBlk_xor h' (by simp),
          toBlk_ofBlk, toBlk_ofBlk, add_mix]
        rfl
      · rw [if_neg h', if_neg h', ← ih (n - 16) (by omega) _ _ (by simp; omega)]
        congr 1
        rw [onBytes, toBlk_xor (by simp) (by simp; omega), toBlk_ofBlk, chain, add_comm]

/-- CMAC is the chained function. -/
theorem cmac_place (f : Blk → Blk) (M : Bytes) :
    cmac (onBytes f) M = ofBlk (f (arg cmacMasks f (place [] M))) := by
  rw [← cmacFrom_place, cmac, chain, ofBlk_zero]

end Cryptopy.Prf
