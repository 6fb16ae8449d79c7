import Verif.Lemmas.Gf128Field
import Verif.Props.S2vTags

/-!
C162: `dbl` is the multiplication by a generator of a field with `2^128` elements.
-/

namespace Cryptopy
open Model (dbl)
open Spec Polynomial Gf S2vTags

/-- `dbl` applied `n` times. -/
def dblTimes : Nat → Bytes → Py Bytes
  | 0, s => .ok s
  | n + 1, s => match dblTimes n s with
    | .error e => .error e
    | .ok r => dbl r

theorem dblTimes_eq (n : Nat) (s : Bytes) (h : s.length = 16) : dblTimes n s = .ok (ofBits (dblBits^[n] (toBits s))) := by
  induction n with
  | zero => rw [dblTimes, Function.iterate_zero_apply, ofBits_toBits h]
  | succ n ih =>
    rw [dblTimes, ih]
    simp only
    rw [dbl_eq _ (by simp), toBits_ofBits, Function.iterate_succ_apply']

theorem val_iterate (n : Nat) (b : BitVec 128) :
    val (dblBits^[n] b).toNat = AdjoinRoot.root gf128 ^ n * val b.toNat := by
  induction n with
  | zero => rw [Function.iterate_zero_apply, pow_zero, one_mul]
  | succ n ih =>
    rw [Function.iterate_succ_apply', ← dblInt_eq, val_dbl _ (BitVec.isLt _), ih]
    ring

theorem val_toNat_inj {a b : BitVec 128} (h : val a.toNat = val b.toNat) : a = b :=
  BitVec.eq_of_toNat_eq (val_inj a.isLt b.isLt h)

theorem val_ne {b : BitVec 128} (hb : b ≠ 0#128) : val b.toNat ≠ 0 := fun h =>
  hb (val_toNat_inj (h.trans (by rw [BitVec.toNat_zero, val_zero])))

theorem iterate_eq_self_iff (n : Nat) (b : BitVec 128) (hb : b ≠ 0#128) : dblBits^[n] b = b ↔ 2 ^ 128 - 1 ∣ n := by
  rw [← order_root, orderOf_dvd_iff_pow_eq_one]
  constructor
  · intro h
    have := val_iterate n b
    rw [h] at this
    exact (mul_right_cancel₀ (val_ne hb) (this.symm.trans (one_mul _).symm))
  · intro h
    refine val_toNat_inj ?_
    rw [val_iterate, h, one_mul]

private theorem toBits_ne {s : Bytes} (h : s.length = 16) (hz : s ≠ List.replicate 16 0) : toBits s ≠ 0#128 := by
  intro e
  refine hz (toBits_inj h (by simp) ?_)
  rw [e]
  decide +kernel

private theorem orbit (a b : BitVec 128) (ha : a ≠ 0#128) (hb : b ≠ 0#128) : ∃ n, n < 2 ^ 128 - 1 ∧ dblBits^[n] a = b := by
  have hfin : Finite (BitVec 128) := Finite.of_injective BitVec.toFin fun _ _ h => BitVec.toFin_inj.mp h
  have hcard : Nat.card (BitVec 128) = 2 ^ 128 := by
    rw [Nat.card_congr (⟨BitVec.toFin, BitVec.ofFin, fun _ => rfl, fun _ => rfl⟩ : BitVec 128 ≃ Fin (2 ^ 128)),
      Nat.card_eq_fintype_card, Fintype.card_fin]
  have hne : ∀ n, dblBits^[n] a ≠ 0#128 := by
    intro n h
    have := val_iterate n a
    rw [h, BitVec.toNat_zero, val_zero] at this
    have hr : AdjoinRoot.root gf128 ≠ 0 := by
      rw [← val_two, ← val_zero]
      intro h
      exact absurd (val_inj (by decide) (by decide) h) (by decide)
    exact mul_ne_zero (pow_ne_zero n hr) (val_ne ha) this.symm
  let F : Fin (2 ^ 128 - 1) → {x : BitVec 128 // x ≠ 0#128} := fun n => ⟨dblBits^[n.1] a, hne n.1⟩
  have hinj : Function.Injective F := by
    intro i j h
    have h1 : dblBits^[i.1] a = dblBits^[j.1] a := congrArg Subtype.val h
    have h2 := congrArg (fun b => val b.toNat) h1
    simp only [val_iterate] at h2
    have h3 := mul_right_cancel₀ (val_ne ha) h2
    refine Fin.ext (pow_injOn_Iio_orderOf ?_ ?_ h3)
    · rw [order_root]
      exact i.2
    · rw [order_root]
      exact j.2
  have hsub : Nat.card {x : BitVec 128 // x ≠ 0#128} ≤ Nat.card (Fin (2 ^ 128 - 1)) := by
    have : Fintype (BitVec 128) := Fintype.ofFinite _
    rw [Nat.card_eq_fintype_card, Fintype.card_subtype_compl, Nat.card_eq_fintype_card, Fintype.card_fin,
      ← Nat.card_eq_fintype_card, hcard, Fintype.card_subtype_eq]
  obtain ⟨n, hn⟩ := (hinj.bijective_of_nat_card_le hsub).2 ⟨b, hb⟩
  exact ⟨n.1, n.2, congrArg Subtype.val hn⟩

private theorem foldr_xor (l : List Nat) (b : BitVec 128) :
    val (l.foldr (fun j x => dblBits^[j] b ^^^ x) 0#128).toNat =
      (l.map fun j => AdjoinRoot.root gf128 ^ j).sum * val b.toNat := by
  induction l with
  | nil => rw [List.foldr_nil, BitVec.toNat_zero, val_zero, List.map_nil, List.sum_nil, zero_mul]
  | cons j l ih =>
    rw [List.foldr_cons, BitVec.toNat_xor, val_xor, ih, val_iterate, List.map_cons, List.sum_cons, add_mul]

/-- C162: the polynomial behind `dbl` is irreducible, so that the 16 octet strings are a field with `dbl` as the
multiplication by `x`. -/
theorem C162_field : Irreducible gf128 := gf128_irreducible

/-- C162: whatever string other than zero one starts with, doubling comes back to it after `2^128 - 1` steps and not
before. -/
theorem C162_period (s : Bytes) (h : s.length = 16) (hz : s ≠ List.replicate 16 0) (n : Nat) :
    dblTimes n s = .ok s ↔ 2 ^ 128 - 1 ∣ n := by
  rw [dblTimes_eq n s h, Except.ok.injEq, ← iterate_eq_self_iff n (toBits s) (toBits_ne h hz)]
  constructor
  · intro e
    have := congrArg toBits e
    rwa [toBits_ofBits] at this
  · intro e
    rw [e, ofBits_toBits h]
example : (List.replicate 15 0 ++ [1] : Bytes) ≠ List.replicate 16 0 ∧
    dblTimes 129 (List.replicate 15 0 ++ [1]) = .ok (List.replicate 14 0 ++ [1, 0x0e]) := by decide +kernel

/-- C162: doubling leads from every string other than zero to every other one. -/
theorem C162_orbit (s t : Bytes) (hs : s.length = 16) (ht : t.length = 16) (hz : s ≠ List.replicate 16 0)
    (hz' : t ≠ List.replicate 16 0) : ∃ n, n < 2 ^ 128 - 1 ∧ dblTimes n s = .ok t := by
  obtain ⟨n, hn, e⟩ := orbit _ _ (toBits_ne hs hz) (toBits_ne ht hz')
  exact ⟨n, hn, by rw [dblTimes_eq n s hs, e, ofBits_toBits ht]⟩
example : ∃ n, n < 2 ^ 128 - 1 ∧ dblTimes n (List.replicate 15 0 ++ [1]) = .ok (List.replicate 16 0xff) :=
  C162_orbit _ _ (by decide) (by decide) (by decide) (by decide)

/-- C162: different numbers of doublings below 128 never cancel: the xor of some of the strings `s`, `dbl(s)`,
`dbl(dbl(s))`, … (at least one of the first 128) is not zero. -/
theorem C162_independent (s : Bytes) (h : s.length = 16) (hz : s ≠ List.replicate 16 0) (l : List Nat) (hl : l ≠ [])
    (hd : l.Nodup) (hb : ∀ j ∈ l, j < 128) (rs : List Bytes) (hr : l.map (dblTimes · s) = rs.map .ok) :
    rs.foldr xorBytes (List.replicate 16 0) ≠ List.replicate 16 0 := by
  have hrs : rs = l.map fun j => ofBits (dblBits^[j] (toBits s)) := by
    refine List.map_injective_iff.mpr (fun a b h => Except.ok.inj h : Function.Injective (Except.ok (ε := PyErr))) ?_
    rw [← hr, List.map_map]
    exact List.map_congr_left fun j _ => dblTimes_eq j s h
  have fold : ∀ l : List Nat, (l.map fun j => ofBits (dblBits^[j] (toBits s))).foldr xorBytes (List.replicate 16 0) =
      ofBits (l.foldr (fun j x => dblBits^[j] (toBits s) ^^^ x) 0#128) := by
    intro l
    induction l with
    | nil =>
      rw [List.map_nil, List.foldr_nil, List.foldr_nil]
      decide +kernel
    | cons j l ih =>
      rw [List.map_cons, List.foldr_cons, ih, List.foldr_cons]
      refine toBits_inj (by rw [length_xorBytes, length_ofBits, length_ofBits]; rfl) (by simp) ?_
      rw [toBits_xor (by simp) (by simp), toBits_ofBits, toBits_ofBits, toBits_ofBits]
  rw [hrs, fold]
  intro e
  have h1 := congrArg toBits e
  rw [toBits_ofBits, show toBits (List.replicate 16 0) = 0#128 by decide +kernel] at h1
  have h2 := foldr_xor l (toBits s)
  rw [h1, BitVec.toNat_zero, val_zero] at h2
  have h3 : (l.map fun j => AdjoinRoot.root gf128 ^ j).sum = 0 :=
    (mul_eq_zero.mp h2.symm).resolve_right (val_ne (toBits_ne h hz))
  rw [← List.sum_toFinset _ hd] at h3
  exact sum_pow_ne l.toFinset ((List.exists_mem_of_ne_nil l hl).imp fun j hj => List.mem_toFinset.mpr hj) (fun j hj => hb j (List.mem_toFinset.mp hj)) h3
example : [0, 7, 127].map (dblTimes · (List.replicate 15 0 ++ [1])) =
    [List.replicate 15 0 ++ [1], List.replicate 15 0 ++ [0x80], 0x80 :: List.replicate 15 0].map .ok := by decide +kernel

end Cryptopy
