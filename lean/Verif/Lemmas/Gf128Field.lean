import Verif.Lemmas.Gf128
import Verif.Lemmas.PrimeCert
import Mathlib.RingTheory.AdjoinRoot
import Mathlib.FieldTheory.Finite.Extension
import Mathlib.GroupTheory.OrderOfElement
import Mathlib.Tactic.NormNum.Prime

/-!
The polynomial `x^128 + x^7 + x^2 + x + 1` is irreducible and `x` generates the field: used for C162 and C163.
-/

namespace Cryptopy.Gf
open Model Spec Polynomial

/-- Multiplication by Horner's rule on the lowest `k` bits of `a`. -/
def mulNat : Nat → Nat → Nat → Nat → Nat
  | 0, _, _, acc => acc
  | k + 1, a, b, acc => mulNat k a b (dblInt acc ^^^ if a.testBit k then b else 0)

/-- Repeated squaring. -/
def sqNat : Nat → Nat → Nat
  | 0, a => a
  | n + 1, a => sqNat n (mulNat 128 a a 0)

/-- Powers with exponents below `2^fuel`. -/
def powNat : Nat → Nat → Nat → Nat → Nat
  | 0, _, _, acc => acc
  | fuel + 1, a, e, acc => powNat fuel (mulNat 128 a a 0) (e / 2) (if e % 2 = 1 then mulNat 128 a acc 0 else acc)

/-- The ring of polynomials modulo `x^128 + x^7 + x^2 + x + 1`. -/
abbrev K := AdjoinRoot gf128

/-- A number as an element of this ring. -/
noncomputable def val (n : Nat) : K := AdjoinRoot.mk gf128 (bitPoly 128 n)

theorem val_xor (a b : Nat) : val (a ^^^ b) = val a + val b := by
  rw [val, val, val, bitPoly_xor, map_add]

theorem val_zero : val 0 = 0 := by
  rw [val]
  simp [bitPoly]

theorem gf128_monic : gf128.Monic := by
  have hg : gf128 = X ^ 128 + bitPoly 128 0x87 := by unfold gf128; rw [bitPoly_const]
  rw [hg]
  exact monic_X_pow_add (bitPoly_degree_lt _ _)

theorem gf128_degree : gf128.degree = (128 : ℕ) := by
  have hg : gf128 = X ^ 128 + bitPoly 128 0x87 := by unfold gf128; rw [bitPoly_const]
  have h := bitPoly_degree_lt 128 0x87
  generalize 128 = n at *
  rw [hg, degree_add_eq_left_of_degree_lt (by rwa [degree_X_pow]), degree_X_pow]

theorem val_dbl (a : Nat) (h : a < 2 ^ 128) : val (dblInt a) = AdjoinRoot.root gf128 * val a := by
  have e : dblInt a = (dblBits (BitVec.ofNat 128 a)).toNat := by
    rw [← dblInt_eq, BitVec.toNat_ofNat, Nat.mod_eq_of_lt h]
  rw [val, e, bitPoly_dblBits, BitVec.toNat_ofNat, Nat.mod_eq_of_lt h, val, ← AdjoinRoot.mk_X, ← map_mul,
    AdjoinRoot.mk_eq_mk]
  refine ⟨-((X * bitPoly 128 a) /ₘ gf128), ?_⟩
  have := modByMonic_add_div (X * bitPoly 128 a) gf128
  linear_combination this

theorem dblInt_lt (a : Nat) (h : a < 2 ^ 128) : dblInt a < 2 ^ 128 := by
  have e : dblInt a = (dblBits (BitVec.ofNat 128 a)).toNat := by
    rw [← dblInt_eq, BitVec.toNat_ofNat, Nat.mod_eq_of_lt h]
  rw [e]
  exact BitVec.isLt _

theorem bitPoly_succ (k n : Nat) : bitPoly (k + 1) n = bitPoly k n + if n.testBit k then X ^ k else 0 := by
  rw [bitPoly, Finset.sum_range_succ, ← bitPoly]

theorem mulNat_spec (k a b acc : Nat) (hb : b < 2 ^ 128) (hacc : acc < 2 ^ 128) :
    mulNat k a b acc < 2 ^ 128 ∧
      val (mulNat k a b acc) = AdjoinRoot.root gf128 ^ k * val acc + AdjoinRoot.mk gf128 (bitPoly k a) * val b := by
  induction k generalizing acc with
  | zero =>
    refine ⟨hacc, ?_⟩
    simp [mulNat, bitPoly]
  | succ k ih =>
    have hite : (if a.testBit k then b else 0) < 2 ^ 128 := by
      split
      · exact hb
      · exact Nat.two_pow_pos 128
    have hlt := Nat.xor_lt_two_pow (dblInt_lt acc hacc) hite
    obtain ⟨h1, h2⟩ := ih _ hlt
    refine ⟨h1, ?_⟩
    rw [mulNat, h2, val_xor, val_dbl acc hacc, bitPoly_succ, map_add]
    split
    · rw [map_pow, AdjoinRoot.mk_X]
      ring
    · rw [map_zero, val_zero]
      ring

theorem mul_spec (a b : Nat) (hb : b < 2 ^ 128) : mulNat 128 a b 0 < 2 ^ 128 ∧ val (mulNat 128 a b 0) = val a * val b := by
  obtain ⟨h1, h2⟩ := mulNat_spec 128 a b 0 hb (Nat.two_pow_pos 128)
  refine ⟨h1, ?_⟩
  rw [h2, val_zero, mul_zero, zero_add, val.eq_def a]

theorem sqNat_spec (n a : Nat) (ha : a < 2 ^ 128) : val (sqNat n a) = val a ^ 2 ^ n := by
  induction n generalizing a with
  | zero => simp [sqNat]
  | succ n ih =>
    obtain ⟨h1, h2⟩ := mul_spec a a ha
    rw [sqNat, ih _ h1, h2, ← pow_two, ← pow_mul, pow_succ']

theorem powNat_spec (fuel a e acc : Nat) (he : e < 2 ^ fuel) (ha : a < 2 ^ 128) (hacc : acc < 2 ^ 128) :
    val (powNat fuel a e acc) = val a ^ e * val acc := by
  induction fuel generalizing a e acc with
  | zero =>
    have : e = 0 := by simpa using he
    simp [powNat, this]
  | succ fuel ih =>
    obtain ⟨h1, h2⟩ := mul_spec a a ha
    obtain ⟨h3, h4⟩ := mul_spec a acc hacc
    have hlt : (if e % 2 = 1 then mulNat 128 a acc 0 else acc) < 2 ^ 128 := by
      split
      · exact h3
      · exact hacc
    rw [powNat, ih _ _ _ (by omega) h1 hlt, h2, ← pow_two, ← pow_mul]
    split
    · next h =>
      rw [h4, ← mul_assoc, ← pow_succ, show 2 * (e / 2) + 1 = e by omega]
    · next h => rw [show 2 * (e / 2) = e by omega]

theorem val_one : val 1 = 1 := by
  have : bitPoly 128 1 = 1 := by
    rw [bitPoly, Finset.sum_eq_single 0]
    · simp
    · intro i _ hi
      rw [if_neg]
      rw [Nat.testBit_one_eq_true_iff_self_eq_zero]
      exact hi
    · intro h
      exact absurd (Finset.mem_range.mpr (by decide)) h
  rw [val, this, map_one]

theorem val_two : val 2 = AdjoinRoot.root gf128 := by
  have h := val_dbl 1 (by decide)
  rw [val_one, mul_one] at h
  exact h

private theorem sq0 : sqNat 8 2 = 16405 := by decide +kernel
private theorem sq8 : sqNat 8 16405 = 21272841581577792734377501409119104880 := by decide +kernel
private theorem sq16 : sqNat 8 21272841581577792734377501409119104880 = 265807388946362947165055761130818848797 := by decide +kernel
private theorem sq24 : sqNat 8 265807388946362947165055761130818848797 = 159741227827866894033846763158209103146 := by decide +kernel
private theorem sq32 : sqNat 8 159741227827866894033846763158209103146 = 32339339626698503367513300576590613010 := by decide +kernel
private theorem sq40 : sqNat 8 32339339626698503367513300576590613010 = 301852678830317075984151617556076790269 := by decide +kernel
private theorem sq48 : sqNat 8 301852678830317075984151617556076790269 = 154202500596702199027624208412024772979 := by decide +kernel
private theorem sq56 : sqNat 8 154202500596702199027624208412024772979 = 129460184901158119860735353079755610614 := by decide +kernel
private theorem sq64 : sqNat 8 129460184901158119860735353079755610614 = 269818012861271281423176274446422361113 := by decide +kernel
private theorem sq72 : sqNat 8 269818012861271281423176274446422361113 = 161687256048543766767383987762312963194 := by decide +kernel
private theorem sq80 : sqNat 8 161687256048543766767383987762312963194 = 195068410978310211650239904624548258566 := by decide +kernel
private theorem sq88 : sqNat 8 195068410978310211650239904624548258566 = 86248589110002907259851524152594849147 := by decide +kernel
private theorem sq96 : sqNat 8 86248589110002907259851524152594849147 = 33205950964766484238866480871644341798 := by decide +kernel
private theorem sq104 : sqNat 8 33205950964766484238866480871644341798 = 265151192445743918497476159262292403413 := by decide +kernel
private theorem sq112 : sqNat 8 265151192445743918497476159262292403413 = 10807226621238021931262095742919972793 := by decide +kernel
private theorem sq120 : sqNat 8 10807226621238021931262095742919972793 = 2 := by decide +kernel

theorem sqNat_add (m n a : Nat) : sqNat (m + n) a = sqNat n (sqNat m a) := by
  induction m generalizing a with
  | zero => rw [Nat.zero_add, sqNat]
  | succ m ih => rw [Nat.succ_add, sqNat, ih, ← sqNat]

/-- The value of `x^(2^64)`. -/
def mid : Nat := 129460184901158119860735353079755610614

theorem sq_mid : sqNat 64 2 = mid := by
  rw [show 64 = 8 + (8 + (8 + (8 + (8 + (8 + (8 + 8)))))) by norm_num, sqNat_add, sqNat_add, sqNat_add, sqNat_add, sqNat_add,
    sqNat_add, sqNat_add, sq0, sq8, sq16, sq24, sq32, sq40, sq48, sq56, mid]

theorem frobenius : sqNat 128 2 = 2 := by
  rw [show 128 = 64 + (8 + (8 + (8 + (8 + (8 + (8 + (8 + 8))))))) by norm_num, sqNat_add, sq_mid, mid, sqNat_add, sqNat_add,
    sqNat_add, sqNat_add, sqNat_add, sqNat_add, sqNat_add, sq64, sq72, sq80, sq88, sq96, sq104, sq112, sq120]

theorem half : mulNat 128 210407306859290181404817842025723703320 (mid ^^^ 2) 0 = 1 := by decide +kernel

theorem sqNat_lt (n a : Nat) (ha : a < 2 ^ 128) : sqNat n a < 2 ^ 128 := by
  induction n generalizing a with
  | zero => exact ha
  | succ n ih => exact ih _ (mul_spec a a ha).1

theorem frobenius_dvd (n : Nat) (h : n = 128) : gf128 ∣ X ^ 2 ^ n - X := by
  have h' := sqNat_spec n 2 (by decide)
  have e : sqNat n 2 = 2 := by rw [h, frobenius]
  rw [e, val_two, ← AdjoinRoot.mk_X, ← map_pow, eq_comm, AdjoinRoot.mk_eq_mk] at h'
  exact h'

theorem half_dvd (n : Nat) (h : n = 64) : ∃ u, gf128 ∣ u * (X ^ 2 ^ n + X) - 1 := by
  have e : sqNat n 2 = mid := by rw [h, sq_mid]
  have h' := (mul_spec 210407306859290181404817842025723703320 (mid ^^^ 2) (Nat.xor_lt_two_pow (by decide) (by decide))).2
  rw [half, val_one, val_xor, ← e, sqNat_spec n 2 (by decide), val_two] at h'
  refine ⟨bitPoly 128 210407306859290181404817842025723703320, ?_⟩
  rw [← AdjoinRoot.mk_eq_mk, map_mul, map_add, map_pow, AdjoinRoot.mk_X, map_one, h', val]

/-- The polynomial is irreducible, by Rabin's test. -/
theorem gf128_irreducible : Irreducible gf128 := by
  have hd := gf128_degree
  obtain ⟨n, hn⟩ : ∃ n, n = 128 := ⟨_, rfl⟩
  obtain ⟨m, hm⟩ : ∃ m, m = 64 := ⟨_, rfl⟩
  rw [← hn] at hd
  have hN : gf128.natDegree = n := natDegree_eq_of_degree_eq_some hd
  have hfrob := frobenius_dvd n hn
  obtain ⟨u, hu⟩ := half_dvd m hm
  have hm0 := gf128_monic
  generalize gf128 = g at *
  obtain ⟨h, hi, hdv⟩ := WfDvdMonoid.exists_irreducible_factor (not_isUnit_of_degree_pos g (by
    rw [hd, Nat.cast_pos]
    omega)) hm0.ne_zero
  have hcard : Nat.card (ZMod 2) = 2 := Nat.card_zmod 2
  have h1 := hi.natDegree_dvd_of_dvd_X_pow_card_pow_sub_X (n := n) (by rw [hcard]; exact hdv.trans hfrob)
  have h2 : h.natDegree = n := by
    rw [hn, show 128 = 2 ^ 7 by norm_num] at h1 ⊢
    obtain ⟨k, hk, e⟩ := (Nat.dvd_prime_pow Nat.prime_two).mp h1
    rcases Nat.lt_or_ge k 7 with hlt | hge
    · exfalso
      have h3 : h.natDegree ∣ m := by
        rw [e, hm, show 64 = 2 ^ 6 by norm_num]
        exact pow_dvd_pow 2 (by omega)
      have h4 := hi.natDegree_dvd_iff_dvd_X_pow_card_pow_sub_X.mp h3
      rw [hcard, CharTwo.sub_eq_add] at h4
      have h5 := dvd_sub (Dvd.dvd.mul_left h4 u) (hdv.trans hu)
      rw [sub_sub_cancel] at h5
      exact hi.not_isUnit (isUnit_of_dvd_one h5)
    · rw [e, show k = 7 by omega]
  have h3 : Associated h g := by
    obtain ⟨v, hv⟩ := hdv
    have hne : h ≠ 0 := hi.ne_zero
    have hvne : v ≠ 0 := fun e => hm0.ne_zero (by rw [hv, e, mul_zero])
    have hdeg := natDegree_mul hne hvne
    rw [← hv, hN, h2] at hdeg
    have hv0 : v.natDegree = 0 := by omega
    rw [natDegree_eq_zero] at hv0
    obtain ⟨c, rfl⟩ := hv0
    refine ⟨(isUnit_C.mpr (isUnit_iff_ne_zero.mpr fun e => hvne (by rw [e, C_0]))).unit, hv.symm⟩
  exact h3.irreducible hi

instance : Fact (Irreducible gf128) := ⟨gf128_irreducible⟩

theorem val_inj {a b : Nat} (ha : a < 2 ^ 128) (hb : b < 2 ^ 128) (h : val a = val b) : a = b := by
  rw [val, val, AdjoinRoot.mk_eq_mk, CharTwo.sub_eq_add, ← bitPoly_xor] at h
  have hlt := bitPoly_degree_lt 128 (a ^^^ b)
  have hd := gf128_degree
  have h0 : bitPoly 128 (a ^^^ b) = 0 := by
    generalize gf128 = g at *
    generalize bitPoly 128 (a ^^^ b) = P at *
    generalize 128 = n at *
    by_contra hne
    have := degree_le_of_dvd h hne
    rw [hd] at this
    exact absurd (lt_of_le_of_lt this hlt) (lt_irrefl _)
  have hx : a ^^^ b = 0 := by
    refine Nat.eq_of_testBit_eq fun i => ?_
    rw [Nat.zero_testBit]
    by_cases hi : i < 128
    · have h1 : (bitPoly 128 (a ^^^ b)).coeff i = if (a ^^^ b).testBit i then 1 else 0 := by
        rw [bitPoly, finsetSum_coeff, Finset.sum_eq_single i]
        · split <;> simp
        · intro j _ hj
          split
          · rw [coeff_X_pow, if_neg (Ne.symm hj)]
          · simp
        · intro h
          exact absurd (Finset.mem_range.mpr hi) h
      rw [h0, coeff_zero] at h1
      by_contra ht
      rw [if_pos (by simpa using ht)] at h1
      exact absurd h1 (by decide)
    · exact Nat.testBit_lt_two_pow (lt_of_lt_of_le (Nat.xor_lt_two_pow ha hb) (Nat.pow_le_pow_right (by decide) (by omega)))
  have := congrArg (· ^^^ b) hx
  simpa [Nat.xor_assoc] using this

/-- The number `c` is a power of `x`. -/
def Pw (c e : Nat) : Prop := c < 2 ^ 128 ∧ val c = AdjoinRoot.root gf128 ^ e

/-- Some steps of exponentiation, with the lowest `k` bits of `d`. -/
def horner : Nat → Nat → Nat → Nat → Nat
  | 0, _, _, c => c
  | k + 1, d, b, c => horner k d b (if d.testBit k then mulNat 128 b (mulNat 128 c c 0) 0 else mulNat 128 c c 0)

theorem pw_mul {a b e f : Nat} (ha : Pw a e) (hb : Pw b f) : Pw (mulNat 128 a b 0) (e + f) := by
  obtain ⟨h1, h2⟩ := mul_spec a b hb.1
  exact ⟨h1, by rw [h2, ha.2, hb.2, pow_add]⟩

theorem horner_pw (k d b c r e f : Nat) (hb : Pw b e) (hc : Pw c f) (hd : d < 2 ^ k) (h : horner k d b c = r) :
    Pw r (f * 2 ^ k + e * d) := by
  have gen : ∀ k c f, Pw c f → Pw (horner k d b c) (f * 2 ^ k + e * (d % 2 ^ k)) := by
    intro k
    induction k with
    | zero =>
      intro c f hc
      rw [pow_zero, Nat.mod_one, mul_zero, mul_one, add_zero]
      exact hc
    | succ k ih =>
      intro c f hc
      have hd2 : d % 2 ^ (k + 1) = (if d.testBit k then 2 ^ k else 0) + d % 2 ^ k := by
        rw [Nat.mod_pow_succ, Nat.add_comm, Nat.testBit_eq_decide_div_mod_eq]
        rcases Nat.mod_two_eq_zero_or_one (d / 2 ^ k) with h | h <;> simp [h]
      have hsq := pw_mul hc hc
      rw [horner]
      split
      · next ht =>
        have := ih _ _ (pw_mul hb hsq)
        rw [hd2, if_pos ht]
        convert this using 1
        ring
      · next ht =>
        have := ih _ _ hsq
        rw [hd2, if_neg ht]
        convert this using 1
        ring
  have := gen k c f hc
  rw [h, Nat.mod_eq_of_lt hd] at this
  exact this

private theorem pw_x : Pw 2 1 := ⟨by decide, by rw [val_two, pow_one]⟩

private theorem pa0 : Pw 8 3 :=
  horner_pw 1 1 2 2 8 1 1 pw_x pw_x (by decide +kernel) (by decide +kernel)
private theorem pa1 : Pw 32768 15 :=
  horner_pw 2 1 8 8 32768 3 3 pa0 pa0 (by decide +kernel) (by decide +kernel)
private theorem pa2 : Pw 170141183460469231731687303715884113993 255 :=
  horner_pw 4 1 32768 32768 170141183460469231731687303715884113993 15 15 pa1 pa1 (by decide +kernel) (by decide +kernel)
private theorem pa3 : Pw 10636420790788896367188750704559552440 65535 :=
  horner_pw 8 1 170141183460469231731687303715884113993 170141183460469231731687303715884113993 10636420790788896367188750704559552440 255 255 pa2 pa2 (by decide +kernel) (by decide +kernel)
private theorem pa4_0 : Pw 205648457113675314159778437181790045971 16776960 :=
  horner_pw 8 0 10636420790788896367188750704559552440 10636420790788896367188750704559552440 205648457113675314159778437181790045971 65535 65535 pa3 pa3 (by decide +kernel) (by decide +kernel)
private theorem pa4 : Pw 79870613913933447016923381579104551573 4294967295 :=
  horner_pw 8 1 10636420790788896367188750704559552440 205648457113675314159778437181790045971 79870613913933447016923381579104551573 65535 16776960 pa3 pa4_0 (by decide +kernel) (by decide +kernel)
private theorem pa5_0 : Pw 133766899459677270398717198050786829283 1099511627520 :=
  horner_pw 8 0 79870613913933447016923381579104551573 79870613913933447016923381579104551573 133766899459677270398717198050786829283 4294967295 4294967295 pa4 pa4 (by decide +kernel) (by decide +kernel)
private theorem pa5_1 : Pw 92821825245198355747086827102139649894 281474976645120 :=
  horner_pw 8 0 79870613913933447016923381579104551573 133766899459677270398717198050786829283 92821825245198355747086827102139649894 4294967295 1099511627520 pa4 pa5_0 (by decide +kernel) (by decide +kernel)
private theorem pa5_2 : Pw 113317467256716113833156323083556246848 72057594021150720 :=
  horner_pw 8 0 79870613913933447016923381579104551573 92821825245198355747086827102139649894 113317467256716113833156323083556246848 4294967295 281474976645120 pa4 pa5_1 (by decide +kernel) (by decide +kernel)
private theorem pa5 : Pw 64730092450579059930367676539877805307 18446744073709551615 :=
  horner_pw 8 1 79870613913933447016923381579104551573 113317467256716113833156323083556246848 64730092450579059930367676539877805307 4294967295 72057594021150720 pa4 pa5_2 (by decide +kernel) (by decide +kernel)
private theorem q274177_0 : Pw 149552281078399336687965984044561133400 4925280667680450281205 :=
  horner_pw 8 11 64730092450579059930367676539877805307 64730092450579059930367676539877805307 149552281078399336687965984044561133400 18446744073709551615 18446744073709551615 pa5 pa5 (by decide +kernel) (by decide +kernel)
private theorem q274177_1 : Pw 215573146506845044951803530986040435279 1264413625788347505898560 :=
  horner_pw 8 192 64730092450579059930367676539877805307 149552281078399336687965984044561133400 215573146506845044951803530986040435279 18446744073709551615 4925280667680450281205 pa5 q274177_0 (by decide +kernel) (by decide +kernel)
private theorem q274177 : Pw 124853812891961499219168817256434865749 5057672949897463733145855 :=
  horner_pw 2 1 64730092450579059930367676539877805307 215573146506845044951803530986040435279 124853812891961499219168817256434865749 18446744073709551615 1264413625788347505898560 pa5 q274177_1 (by decide +kernel) (by decide +kernel)
private theorem q67280421310721_0 : Pw 226387233209059472177552054770675090221 9020457852043970739735 :=
  horner_pw 8 233 64730092450579059930367676539877805307 64730092450579059930367676539877805307 226387233209059472177552054770675090221 18446744073709551615 18446744073709551615 pa5 pa5 (by decide +kernel) (by decide +kernel)
private theorem q67280421310721_1 : Pw 202276884469661016458405283500932787690 2311727520573207298840185 :=
  horner_pw 8 135 64730092450579059930367676539877805307 226387233209059472177552054770675090221 202276884469661016458405283500932787690 18446744073709551615 9020457852043970739735 pa5 q67280421310721_0 (by decide +kernel) (by decide +kernel)
private theorem q67280421310721_2 : Pw 336385023752069347910219207688355274356 591804827810911387840313460 :=
  horner_pw 8 140 64730092450579059930367676539877805307 202276884469661016458405283500932787690 336385023752069347910219207688355274356 18446744073709551615 2311727520573207298840185 pa5 q67280421310721_1 (by decide +kernel) (by decide +kernel)
private theorem q67280421310721_3 : Pw 68515391635923190689935113622167424511 151502040162344452240317117210 :=
  horner_pw 8 230 64730092450579059930367676539877805307 336385023752069347910219207688355274356 68515391635923190689935113622167424511 18446744073709551615 591804827810911387840313460 pa5 q67280421310721_2 (by decide +kernel) (by decide +kernel)
private theorem q67280421310721_4 : Pw 101037934970794989861142095973761709794 38784522284068936967545681025400 :=
  horner_pw 8 136 64730092450579059930367676539877805307 68515391635923190689935113622167424511 101037934970794989861142095973761709794 18446744073709551615 151502040162344452240317117210 pa5 q67280421310721_3 (by decide +kernel) (by decide +kernel)
private theorem q67280421310721 : Pw 225834682549168620337871221903693464477 1241104713090224429705535502364415 :=
  horner_pw 5 1 64730092450579059930367676539877805307 101037934970794989861142095973761709794 225834682549168620337871221903693464477 18446744073709551615 38784522284068936967545681025400 pa5 q67280421310721_4 (by decide +kernel) (by decide +kernel)
private theorem pb6_0 : Pw 16405 256 :=
  horner_pw 8 0 2 2 16405 1 1 pw_x pw_x (by decide +kernel) (by decide +kernel)
private theorem pb6_1 : Pw 21272841581577792734377501409119104880 65536 :=
  horner_pw 8 0 2 16405 21272841581577792734377501409119104880 1 256 pw_x pb6_0 (by decide +kernel) (by decide +kernel)
private theorem pb6_2 : Pw 265807388946362947165055761130818848797 16777216 :=
  horner_pw 8 0 2 21272841581577792734377501409119104880 265807388946362947165055761130818848797 1 65536 pw_x pb6_1 (by decide +kernel) (by decide +kernel)
private theorem pb6_3 : Pw 159741227827866894033846763158209103146 4294967296 :=
  horner_pw 8 0 2 265807388946362947165055761130818848797 159741227827866894033846763158209103146 1 16777216 pw_x pb6_2 (by decide +kernel) (by decide +kernel)
private theorem pb6_4 : Pw 32339339626698503367513300576590613010 1099511627776 :=
  horner_pw 8 0 2 159741227827866894033846763158209103146 32339339626698503367513300576590613010 1 4294967296 pw_x pb6_3 (by decide +kernel) (by decide +kernel)
private theorem pb6_5 : Pw 301852678830317075984151617556076790269 281474976710656 :=
  horner_pw 8 0 2 32339339626698503367513300576590613010 301852678830317075984151617556076790269 1 1099511627776 pw_x pb6_4 (by decide +kernel) (by decide +kernel)
private theorem pb6_6 : Pw 154202500596702199027624208412024772979 72057594037927936 :=
  horner_pw 8 0 2 301852678830317075984151617556076790269 154202500596702199027624208412024772979 1 281474976710656 pw_x pb6_5 (by decide +kernel) (by decide +kernel)
private theorem pb6 : Pw 258920369802316239721470706159511221228 18446744073709551617 :=
  horner_pw 8 1 2 154202500596702199027624208412024772979 258920369802316239721470706159511221228 1 72057594037927936 pw_x pb6_6 (by decide +kernel) (by decide +kernel)
private theorem pc0 : Pw 76941397374374896802624428595761553027 55340232221128654851 :=
  horner_pw 1 1 258920369802316239721470706159511221228 258920369802316239721470706159511221228 76941397374374896802624428595761553027 18446744073709551617 18446744073709551617 pb6 pb6 (by decide +kernel) (by decide +kernel)
private theorem pc1 : Pw 71198076506388223037726881579064463272 276701161105643274255 :=
  horner_pw 2 1 76941397374374896802624428595761553027 76941397374374896802624428595761553027 71198076506388223037726881579064463272 55340232221128654851 55340232221128654851 pc0 pc0 (by decide +kernel) (by decide +kernel)
private theorem pc2 : Pw 312446384868024408804947788193236345634 4703919738795935662335 :=
  horner_pw 4 1 71198076506388223037726881579064463272 71198076506388223037726881579064463272 312446384868024408804947788193236345634 276701161105643274255 276701161105643274255 pc1 pc1 (by decide +kernel) (by decide +kernel)
private theorem pc3 : Pw 71360308485202180552795967284984260733 1208907372870555465220095 :=
  horner_pw 8 1 312446384868024408804947788193236345634 312446384868024408804947788193236345634 71360308485202180552795967284984260733 4703919738795935662335 4703919738795935662335 pc2 pc2 (by decide +kernel) (by decide +kernel)
private theorem pc4_0 : Pw 216589929237822505123427246171543504521 309480287454862199096344320 :=
  horner_pw 8 0 71360308485202180552795967284984260733 71360308485202180552795967284984260733 216589929237822505123427246171543504521 1208907372870555465220095 1208907372870555465220095 pc3 pc3 (by decide +kernel) (by decide +kernel)
private theorem pc4 : Pw 144174153809628627875185419882822688751 79228162495817593524129366015 :=
  horner_pw 8 1 71360308485202180552795967284984260733 216589929237822505123427246171543504521 144174153809628627875185419882822688751 1208907372870555465220095 309480287454862199096344320 pc3 pc4_0 (by decide +kernel) (by decide +kernel)
private theorem q641_0 : Pw 32160597248068512909011239622903398301 25353011998661629927721397124800 :=
  horner_pw 8 64 144174153809628627875185419882822688751 144174153809628627875185419882822688751 32160597248068512909011239622903398301 79228162495817593524129366015 79228162495817593524129366015 pc4 pc4 (by decide +kernel) (by decide +kernel)
private theorem q641 : Pw 238345037054576265200707894032066786338 50785252159819077448966923615615 :=
  horner_pw 1 1 144174153809628627875185419882822688751 32160597248068512909011239622903398301 238345037054576265200707894032066786338 79228162495817593524129366015 25353011998661629927721397124800 pc4 q641_0 (by decide +kernel) (by decide +kernel)
private theorem q6700417_0 : Pw 268593669715416927331924507938145174157 32325090298293578157844781334120 :=
  horner_pw 8 152 144174153809628627875185419882822688751 144174153809628627875185419882822688751 268593669715416927331924507938145174157 79228162495817593524129366015 79228162495817593524129366015 pc4 pc4 (by decide +kernel) (by decide +kernel)
private theorem q6700417_1 : Pw 103645529586044886226140546904532050948 8294713244337127136415199845574410 :=
  horner_pw 8 246 144174153809628627875185419882822688751 268593669715416927331924507938145174157 103645529586044886226140546904532050948 79228162495817593524129366015 32325090298293578157844781334120 pc4 q6700417_0 (by decide +kernel) (by decide +kernel)
private theorem q6700417 : Pw 200155241882450275320770397255736997864 530861726865738632548166314246128255 :=
  horner_pw 6 1 144174153809628627875185419882822688751 103645529586044886226140546904532050948 200155241882450275320770397255736997864 79228162495817593524129366015 8294713244337127136415199845574410 pc4 q6700417_1 (by decide +kernel) (by decide +kernel)
private theorem pd5_0 : Pw 17439488144287942259922723464542884093 4722366482869645213952 :=
  horner_pw 8 0 258920369802316239721470706159511221228 258920369802316239721470706159511221228 17439488144287942259922723464542884093 18446744073709551617 18446744073709551617 pb6 pb6 (by decide +kernel) (by decide +kernel)
private theorem pd5_1 : Pw 222285489307651824685213775248667551554 1208925819614629174771712 :=
  horner_pw 8 0 258920369802316239721470706159511221228 17439488144287942259922723464542884093 222285489307651824685213775248667551554 18446744073709551617 4722366482869645213952 pb6 pd5_0 (by decide +kernel) (by decide +kernel)
private theorem pd5_2 : Pw 23790296058089034739330186996753309429 309485009821345068741558272 :=
  horner_pw 8 0 258920369802316239721470706159511221228 222285489307651824685213775248667551554 23790296058089034739330186996753309429 18446744073709551617 1208925819614629174771712 pb6 pd5_1 (by decide +kernel) (by decide +kernel)
private theorem pd5 : Pw 195247277147192099590777886300951269470 79228162532711081671548469249 :=
  horner_pw 8 1 258920369802316239721470706159511221228 23790296058089034739330186996753309429 195247277147192099590777886300951269470 18446744073709551617 309485009821345068741558272 pb6 pd5_2 (by decide +kernel) (by decide +kernel)
private theorem pe0 : Pw 334627004798109233477117489025918497908 237684487598133245014645407747 :=
  horner_pw 1 1 195247277147192099590777886300951269470 195247277147192099590777886300951269470 334627004798109233477117489025918497908 79228162532711081671548469249 79228162532711081671548469249 pd5 pd5 (by decide +kernel) (by decide +kernel)
private theorem pe1 : Pw 58577690366733896414953405674242250253 1188422437990666225073227038735 :=
  horner_pw 2 1 334627004798109233477117489025918497908 334627004798109233477117489025918497908 58577690366733896414953405674242250253 237684487598133245014645407747 237684487598133245014645407747 pe0 pe0 (by decide +kernel) (by decide +kernel)
private theorem pe2 : Pw 127840361628719813371548272205791618106 20203181445841325826244859658495 :=
  horner_pw 4 1 58577690366733896414953405674242250253 58577690366733896414953405674242250253 127840361628719813371548272205791618106 1188422437990666225073227038735 1188422437990666225073227038735 pe1 pe1 (by decide +kernel) (by decide +kernel)
private theorem pe3 : Pw 151057730537251302588469035879534785155 5192217631581220737344928932233215 :=
  horner_pw 8 1 127840361628719813371548272205791618106 127840361628719813371548272205791618106 151057730537251302588469035879534785155 20203181445841325826244859658495 20203181445841325826244859658495 pe2 pe2 (by decide +kernel) (by decide +kernel)
private theorem pd4_0 : Pw 98004007894825432744557119066329830109 20282409608374036907916408127744 :=
  horner_pw 8 0 195247277147192099590777886300951269470 195247277147192099590777886300951269470 98004007894825432744557119066329830109 79228162532711081671548469249 79228162532711081671548469249 pd5 pd5 (by decide +kernel) (by decide +kernel)
private theorem pd4 : Pw 122753392676920971658749122761936853580 5192376087906286159508272029171713 :=
  horner_pw 8 1 195247277147192099590777886300951269470 98004007894825432744557119066329830109 122753392676920971658749122761936853580 79228162532711081671548469249 20282409608374036907916408127744 pd5 pd4_0 (by decide +kernel) (by decide +kernel)
private theorem pf0 : Pw 242075443675499227109267320400911498989 15577128263718858478524816087515139 :=
  horner_pw 1 1 122753392676920971658749122761936853580 122753392676920971658749122761936853580 242075443675499227109267320400911498989 5192376087906286159508272029171713 5192376087906286159508272029171713 pd4 pd4 (by decide +kernel) (by decide +kernel)
private theorem pf1 : Pw 33006046103584326006971076539670943571 77885641318594292392624080437575695 :=
  horner_pw 2 1 242075443675499227109267320400911498989 242075443675499227109267320400911498989 33006046103584326006971076539670943571 15577128263718858478524816087515139 15577128263718858478524816087515139 pf0 pf0 (by decide +kernel) (by decide +kernel)
private theorem pf2 : Pw 264294836404222945528739534085272043744 1324055902416102970674609367438786815 :=
  horner_pw 4 1 33006046103584326006971076539670943571 33006046103584326006971076539670943571 264294836404222945528739534085272043744 77885641318594292392624080437575695 77885641318594292392624080437575695 pf1 pf1 (by decide +kernel) (by decide +kernel)
private theorem pd3 : Pw 305812015240540762083054299220622735238 1334440654591915542993625911497130241 :=
  horner_pw 8 1 122753392676920971658749122761936853580 122753392676920971658749122761936853580 305812015240540762083054299220622735238 5192376087906286159508272029171713 5192376087906286159508272029171713 pd4 pd4 (by decide +kernel) (by decide +kernel)
private theorem pg0 : Pw 76767216675522591782335634180271993112 4003321963775746628980877734491390723 :=
  horner_pw 1 1 305812015240540762083054299220622735238 305812015240540762083054299220622735238 76767216675522591782335634180271993112 1334440654591915542993625911497130241 1334440654591915542993625911497130241 pd3 pd3 (by decide +kernel) (by decide +kernel)
private theorem pg1 : Pw 145346766882950486207665752773250839468 20016609818878733144904388672456953615 :=
  horner_pw 2 1 76767216675522591782335634180271993112 76767216675522591782335634180271993112 145346766882950486207665752773250839468 4003321963775746628980877734491390723 4003321963775746628980877734491390723 pg0 pg0 (by decide +kernel) (by decide +kernel)
private theorem pd2 : Pw 185144418027086590385499042188121375787 22685491128062564230891640495451214097 :=
  horner_pw 4 1 305812015240540762083054299220622735238 305812015240540762083054299220622735238 185144418027086590385499042188121375787 1334440654591915542993625911497130241 1334440654591915542993625911497130241 pd3 pd3 (by decide +kernel) (by decide +kernel)
private theorem q5 : Pw 161303063649109504187482472818972682313 68056473384187692692674921486353642291 :=
  horner_pw 1 1 185144418027086590385499042188121375787 185144418027086590385499042188121375787 161303063649109504187482472818972682313 22685491128062564230891640495451214097 22685491128062564230891640495451214097 pd2 pd2 (by decide +kernel) (by decide +kernel)
private theorem q3 : Pw 54969562866131847669016652494142573321 113427455640312821154458202477256070485 :=
  horner_pw 2 1 185144418027086590385499042188121375787 185144418027086590385499042188121375787 54969562866131847669016652494142573321 22685491128062564230891640495451214097 22685491128062564230891640495451214097 pd2 pd2 (by decide +kernel) (by decide +kernel)

theorem pw_ne {c e : Nat} (h : Pw c e) (hc : c ≠ 1) : AdjoinRoot.root gf128 ^ e ≠ 1 := by
  intro h1
  rw [← h.2, ← val_one] at h1
  exact hc (val_inj h.1 (by decide) h1)

private theorem prime_274177 : Nat.Prime 274177 := by norm_num
private theorem prime_6700417 : Nat.Prime 6700417 := by norm_num
private theorem prime_67280421310721 : Nat.Prime 67280421310721 := by
  refine Cert.prime_of_lucas 47 67280421310721 3 [2, 2, 2, 2, 2, 2, 2, 2, 5, 47, 373, 2998279] (by decide +kernel) ?_
  simp only [List.mem_cons, List.not_mem_nil, or_false, forall_eq_or_imp, forall_eq]
  norm_num

/-- The class of `x` generates the field. -/
theorem order_root : orderOf (AdjoinRoot.root gf128) = 2 ^ 128 - 1 := by
  have hx : AdjoinRoot.root gf128 ≠ 0 := by
    rw [← val_two, ← val_zero]
    intro h
    exact absurd (val_inj (by decide) (by decide) h) (by decide)
  have h1 : AdjoinRoot.root gf128 ^ (2 ^ 128 - 1) = 1 := by
    have h := sqNat_spec 128 2 (by decide)
    rw [frobenius, val_two] at h
    refine mul_right_cancel₀ hx ?_
    rw [← pow_succ, Nat.sub_add_cancel Nat.one_le_two_pow, ← h, one_mul]
  refine orderOf_eq_of_pow_and_pow_div_prime (by decide) h1 fun p hp hd => ?_
  have hf : 2 ^ 128 - 1 = 3 * (5 * (17 * (257 * (641 * (65537 * (274177 * (6700417 * 67280421310721))))))) := by norm_num
  rw [hf] at hd ⊢
  simp only [hp.dvd_mul] at hd
  have eq {q : Nat} (hq : q.Prime) (h : p ∣ q) : p = q := (Nat.prime_dvd_prime_iff_eq hp hq).mp h
  rcases hd with h | h | h | h | h | h | h | h | h
  · rw [eq (by norm_num) h]
    exact pw_ne q3 (by decide)
  · rw [eq (by norm_num) h]
    exact pw_ne q5 (by decide)
  · rw [eq (by norm_num) h]
    exact pw_ne pg1 (by decide)
  · rw [eq (by norm_num) h]
    exact pw_ne pf2 (by decide)
  · rw [eq (by norm_num) h]
    exact pw_ne q6700417 (by decide)
  · rw [eq (by norm_num) h]
    exact pw_ne pe3 (by decide)
  · rw [eq prime_274177 h]
    exact pw_ne q67280421310721 (by decide)
  · rw [eq prime_6700417 h]
    exact pw_ne q641 (by decide)
  · rw [eq prime_67280421310721 h]
    exact pw_ne q274177 (by decide)

/-- Different powers of `x` below 128 do not cancel. -/
theorem sum_pow_ne (J : Finset ℕ) (hne : J.Nonempty) (hJ : ∀ j ∈ J, j < 128) :
    ∑ j ∈ J, AdjoinRoot.root gf128 ^ j ≠ 0 := by
  intro h
  have h1 : gf128 ∣ ∑ j ∈ J, X ^ j := by
    rw [← AdjoinRoot.mk_eq_zero, map_sum, ← h]
    exact Finset.sum_congr rfl fun j _ => by rw [map_pow, AdjoinRoot.mk_X]
  have hc : ∀ j ∈ J, (∑ j ∈ J, X ^ j : (ZMod 2)[X]).coeff j = 1 := by
    intro j hj
    rw [finsetSum_coeff, Finset.sum_eq_single j]
    · rw [coeff_X_pow, if_pos rfl]
    · intro i _ hi
      rw [coeff_X_pow, if_neg (Ne.symm hi)]
    · intro h
      exact absurd hj h
  have h0 : (∑ j ∈ J, X ^ j : (ZMod 2)[X]) ≠ 0 := by
    obtain ⟨j, hj⟩ := hne
    intro e
    have := hc j hj
    rw [e, coeff_zero] at this
    exact absurd this (by decide)
  have hlt : (∑ j ∈ J, X ^ j : (ZMod 2)[X]).degree < (128 : ℕ) := by
    refine lt_of_le_of_lt (degree_sum_le _ _) ((Finset.sup_lt_iff (WithBot.bot_lt_coe 128)).mpr fun j hj => ?_)
    rw [degree_X_pow]
    exact Nat.cast_lt.mpr (hJ j hj)
  have hd := gf128_degree
  clear h hc hJ hne
  generalize gf128 = g at *
  generalize 128 = n at *
  have := degree_le_of_dvd h1 h0
  rw [hd] at this
  exact absurd (lt_of_le_of_lt this hlt) (lt_irrefl _)

end Cryptopy.Gf
