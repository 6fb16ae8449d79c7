import Verif.Spec.Arith
import Verif.Lemmas.Sqrt
import Mathlib.Algebra.Polynomial.Monic
import Mathlib.Algebra.CharP.Lemmas
import Mathlib.RingTheory.AdjoinRoot

/-! Lemmas on the polynomial arithmetic of `ecc/numbertheory.py` and on the case `p % 8 == 1` of
`square_root_mod_prime`. -/

namespace Cryptopy.Model

open Polynomial Spec

variable {p : Nat}

theorem poly_sum (l : List Int) :
    poly p l = ∑ i ∈ Finset.range l.length, C ((l.getD i 0 : Int) : ZMod p) * X ^ i := by
  induction l with
  | nil => simp [poly]
  | cons a l ih =>
    rw [poly, ih, List.length_cons, Finset.sum_range_succ', add_comm, Finset.mul_sum]
    congr 1
    · apply Finset.sum_congr rfl
      intro i _
      simp only [List.getD_cons_succ]
      ring
    · simp

theorem poly_set (l : List Int) : ∀ (k : Nat) (v : Int), k < l.length →
    poly p (l.set k v) = poly p l + C ((v : ZMod p) - ((l.getD k 0 : Int) : ZMod p)) * X ^ k := by
  induction l with
  | nil => intro k v h; simp at h
  | cons a l ih =>
    intro k v h
    cases k with
    | zero => simp only [List.set_cons_zero, poly, List.getD_cons_zero, pow_zero, mul_one, C_sub]; ring
    | succ k =>
      rw [List.set_cons_succ, poly, poly, ih k v (by simpa using h), List.getD_cons_succ]
      ring

theorem getD_set_ne (l : List Int) {i k : Nat} (v : Int) (h : i ≠ k) :
    (l.set k v).getD i 0 = l.getD i 0 := by
  simp only [List.getD_eq_getElem?_getD]
  rw [List.getElem?_set_ne (by omega)]

theorem poly_dropLast (l : List Int) (h : 0 < l.length) :
    poly p l.dropLast = poly p l - C ((l.getD (l.length - 1) 0 : Int) : ZMod p) * X ^ (l.length - 1) := by
  rw [poly_sum, poly_sum, List.length_dropLast]
  obtain ⟨n, hn⟩ : ∃ n, l.length = n + 1 := ⟨l.length - 1, by omega⟩
  rw [hn, Finset.sum_range_succ]
  simp only [Nat.add_sub_cancel, add_sub_cancel_right]
  apply Finset.sum_congr rfl
  intro i hi
  rw [Finset.mem_range] at hi
  congr 3
  rw [List.getD_eq_getElem?_getD, List.getD_eq_getElem?_getD, List.getElem?_dropLast, if_pos (by omega)]

/-- The coefficients are reduced. -/
def Reduced (p : Nat) (l : List Int) : Prop := ∀ c ∈ l, 0 ≤ c ∧ c < (p : Int)

theorem Reduced.set {l : List Int} (h : Reduced p l) (hp : 0 < p) (k : Nat) (v : Int) :
    Reduced p (l.set k (v.fmod p)) := by
  intro c hc
  rcases List.mem_or_eq_of_mem_set hc with hc | rfl
  · exact h c hc
  · exact ⟨Int.fmod_nonneg_of_pos _ (by omega), Int.fmod_lt_of_pos _ (by omega)⟩

theorem Reduced.dropLast {l : List Int} (h : Reduced p l) : Reduced p l.dropLast :=
  fun c hc => h c (List.dropLast_subset _ hc)

theorem polyReduceStep_fold (hp : 0 < p) (l pm : List Int) (hl : pm.length ≤ l.length) (k : Nat)
    (hk : k + 1 ≤ pm.length) :
    let r := (List.range' 2 k).foldl
      (fun poly i =>
        poly.set (poly.length - i)
          ((poly.getD (poly.length - i) 0
            - poly.getD (poly.length - 1) 0 * pm.getD (pm.length - i) 0).fmod (p : Int))) l
    r.length = l.length ∧ r.getD (l.length - 1) 0 = l.getD (l.length - 1) 0 ∧
    (Reduced p l → Reduced p r) ∧
    poly p r = poly p l - C ((l.getD (l.length - 1) 0 : Int) : ZMod p) *
      ∑ j ∈ Finset.range k, C ((pm.getD (pm.length - (2 + j)) 0 : Int) : ZMod p) * X ^ (l.length - (2 + j)) := by
  induction k with
  | zero => simp
  | succ k ih =>
    obtain ⟨h1, h2, h3, h4⟩ := ih (by omega)
    simp only [List.range'_1_concat, List.foldl_append, List.foldl_cons, List.foldl_nil]
    generalize (List.range' 2 k).foldl _ l = r at *
    refine ⟨by rw [List.length_set, h1], ?_, ?_, ?_⟩
    · rw [getD_set_ne _ _ (by omega), h2]
    · intro hr; exact (h3 hr).set hp _ _
    · rw [poly_set _ _ _ (by omega), h4, h1, Finset.sum_range_succ, fmod_cast _ hp, h2]
      push_cast
      simp only [C_sub, C_mul]
      ring

theorem polyReduceStep_spec (hp : 0 < p) (l pm : List Int) (hpm : 1 < pm.length)
    (hmonic : pm.getD (pm.length - 1) 0 = 1) (hl : pm.length ≤ l.length) :
    poly p (polyReduceStep l pm p).dropLast
      = poly p l - C ((l.getD (l.length - 1) 0 : Int) : ZMod p) * X ^ (l.length - pm.length) * poly p pm ∧
    (Reduced p l → Reduced p (polyReduceStep l pm p).dropLast) := by
  obtain ⟨h1, h2, h3, h4⟩ := polyReduceStep_fold hp l pm hl (pm.length - 1) (by omega)
  change (polyReduceStep l pm p).length = l.length at h1
  change (polyReduceStep l pm p).getD (l.length - 1) 0 = _ at h2
  change Reduced p l → Reduced p (polyReduceStep l pm p) at h3
  change poly p (polyReduceStep l pm p) = _ at h4
  refine ⟨?_, fun h => (h3 h).dropLast⟩
  rw [poly_dropLast _ (by omega), h1, h2, h4]
  have hs : (∑ j ∈ Finset.range (pm.length - 1), C ((pm.getD (pm.length - (2 + j)) 0 : Int) : ZMod p)
      * X ^ (l.length - (2 + j))) = X ^ (l.length - pm.length) * poly p pm.dropLast := by
    rw [poly_sum, List.length_dropLast, Finset.mul_sum, ← Finset.sum_range_reflect]
    apply Finset.sum_congr rfl
    intro i hi
    rw [Finset.mem_range] at hi
    have e1 : pm.length - (2 + (pm.length - 1 - 1 - i)) = i := by omega
    have e2 : l.length - (2 + (pm.length - 1 - 1 - i)) = (l.length - pm.length) + i := by omega
    have e3 : pm.dropLast.getD i 0 = pm.getD i 0 := by
      rw [List.getD_eq_getElem?_getD, List.getD_eq_getElem?_getD, List.getElem?_dropLast,
        if_pos (by omega)]
    rw [e1, e2, e3, pow_add]
    ring
  rw [hs, poly_dropLast pm (by omega), hmonic]
  have e : l.length - 1 = (l.length - pm.length) + (pm.length - 1) := by omega
  rw [show (X : (ZMod p)[X]) ^ (l.length - 1) = X ^ (l.length - pm.length) * X ^ (pm.length - 1) by
    rw [← pow_add, ← e]]
  simp only [Int.cast_one, C_1]
  ring

theorem polyReduceLoop_spec (hp : 0 < p) (pm : List Int) (hpm : 1 < pm.length)
    (hmonic : pm.getD (pm.length - 1) 0 = 1) (k : Nat) : ∀ l : List Int, l.length ≤ k →
    poly p pm ∣ poly p (polyReduceLoop l pm p) - poly p l ∧
    (polyReduceLoop l pm p).length = min l.length (pm.length - 1) ∧
    (Reduced p l → Reduced p (polyReduceLoop l pm p)) := by
  induction k with
  | zero =>
    intro l hl
    rw [polyReduceLoop, dif_neg (by omega)]
    exact ⟨by simp, by omega, id⟩
  | succ k ih =>
    intro l hl
    rw [polyReduceLoop]
    by_cases h : pm.length ≤ l.length ∧ 0 < pm.length
    · rw [dif_pos h]
      obtain ⟨hs1, hs2⟩ := polyReduceStep_spec hp l pm hpm hmonic h.1
      by_cases h0 : l.getD (l.length - 1) 0 ≠ 0
      · rw [if_pos h0]
        obtain ⟨i1, i2, i3⟩ := ih (polyReduceStep l pm p).dropLast
          (by rw [List.length_dropLast, polyReduceStep_length]; omega)
        refine ⟨?_, ?_, fun hr => i3 (hs2 hr)⟩
        · rw [hs1] at i1
          have := dvd_sub i1 (Dvd.intro_left
            (C ((l.getD (l.length - 1) 0 : Int) : ZMod p) * X ^ (l.length - pm.length)) rfl)
          convert this using 1
          ring
        · rw [i2, List.length_dropLast, polyReduceStep_length]; omega
      · rw [if_neg h0]
        obtain ⟨i1, i2, i3⟩ := ih l.dropLast (by rw [List.length_dropLast]; omega)
        refine ⟨?_, ?_, fun hr => i3 hr.dropLast⟩
        · rw [poly_dropLast _ (by omega)] at i1
          have h0' : l.getD (l.length - 1) 0 = 0 := by simpa using h0
          rw [h0'] at i1
          simpa using i1
        · rw [i2, List.length_dropLast]; omega
    · rw [dif_neg h]
      exact ⟨by simp, by omega, id⟩

theorem polynomialReduceMod_ok (l pm : List Int) (hpm : 1 < pm.length)
    (hmonic : pm.getD (pm.length - 1) 0 = 1) :
    polynomialReduceMod l pm p = .ok (polyReduceLoop l pm p) := by
  rw [polynomialReduceMod, if_neg (by rintro rfl; simp at hpm), if_neg (by simp only [hmonic]; simp),
    if_neg (by omega)]

theorem polyCross_inner (hp : 0 < p) (m2 : List Int) (a : Int) (i : Nat) (prod : List Int)
    (k : Nat) (hk : i + k ≤ prod.length) :
    let r := (List.range k).foldl
      (fun prod j => prod.set (i + j) ((prod.getD (i + j) 0 + a * m2.getD j 0).fmod (p : Int))) prod
    r.length = prod.length ∧ (Reduced p prod → Reduced p r) ∧
    poly p r = poly p prod + C (a : ZMod p) * X ^ i *
      ∑ j ∈ Finset.range k, C ((m2.getD j 0 : Int) : ZMod p) * X ^ j := by
  induction k with
  | zero => simp
  | succ k ih =>
    obtain ⟨h1, h2, h3⟩ := ih (by omega)
    simp only [List.range_succ, List.foldl_append, List.foldl_cons, List.foldl_nil]
    generalize (List.range k).foldl _ prod = r at *
    refine ⟨by rw [List.length_set, h1], fun h => (h2 h).set hp _ _, ?_⟩
    rw [poly_set _ _ _ (by omega), h3, Finset.sum_range_succ, fmod_cast _ hp]
    push_cast
    simp only [add_sub_cancel_left, C_mul]
    ring

theorem polyCross_outer (hp : 0 < p) (m1 m2 prod : List Int) (k : Nat)
    (hk : k + m2.length ≤ prod.length + 1) :
    let r := (List.range k).foldl
      (fun prod i =>
        (List.range m2.length).foldl
          (fun prod j =>
            prod.set (i + j) ((prod.getD (i + j) 0 + m1.getD i 0 * m2.getD j 0).fmod (p : Int)))
          prod) prod
    r.length = prod.length ∧ (Reduced p prod → Reduced p r) ∧
    poly p r = poly p prod +
      (∑ i ∈ Finset.range k, C ((m1.getD i 0 : Int) : ZMod p) * X ^ i) * poly p m2 := by
  induction k with
  | zero => simp
  | succ k ih =>
    obtain ⟨h1, h2, h3⟩ := ih (by omega)
    simp only [List.range_succ, List.foldl_append, List.foldl_cons, List.foldl_nil]
    generalize hr : (List.range k).foldl _ prod = r at *
    obtain ⟨i1, i2, i3⟩ := polyCross_inner hp m2 (m1.getD k 0) k r m2.length (by omega)
    refine ⟨by rw [i1, h1], fun h => i2 (h2 h), ?_⟩
    rw [i3, h3, Finset.sum_range_succ, ← poly_sum]
    ring

theorem poly_replicate_zero (n : Nat) : poly p (List.replicate n 0) = 0 := by
  induction n with
  | zero => rfl
  | succ n ih => rw [List.replicate_succ, poly, ih]; simp

theorem polyCross_spec (hp : 0 < p) (m1 m2 : List Int) :
    (polyCross m1 m2 p).length = m1.length + m2.length - 1 ∧ Reduced p (polyCross m1 m2 p) ∧
    poly p (polyCross m1 m2 p) = poly p m1 * poly p m2 := by
  obtain ⟨h1, h2, h3⟩ := polyCross_outer hp m1 m2 (List.replicate (m1.length + m2.length - 1) 0)
    m1.length (by rw [List.length_replicate]; omega)
  change (polyCross m1 m2 p).length = _ at h1
  change _ → Reduced p (polyCross m1 m2 p) at h2
  change poly p (polyCross m1 m2 p) = _ at h3
  refine ⟨by rw [h1, List.length_replicate], h2 ?_, ?_⟩
  · intro c hc
    rw [(List.mem_replicate.mp hc).2]; omega
  · rw [h3, poly_replicate_zero, zero_add, ← poly_sum]

theorem polynomialMultiplyMod_spec (hp : 0 < p) (m1 m2 pm : List Int) (hpm : 1 < pm.length)
    (hmonic : pm.getD (pm.length - 1) 0 = 1) :
    ∃ r, polynomialMultiplyMod m1 m2 pm p = .ok r ∧
      r.length = min (m1.length + m2.length - 1) (pm.length - 1) ∧ Reduced p r ∧
      poly p pm ∣ poly p r - poly p m1 * poly p m2 := by
  obtain ⟨h1, h2, h3⟩ := polyCross_spec hp m1 m2
  obtain ⟨i1, i2, i3⟩ := polyReduceLoop_spec hp pm hpm hmonic _ (polyCross m1 m2 p) (le_refl _)
  refine ⟨_, polynomialReduceMod_ok _ _ hpm hmonic, by rw [i2, h1], i3 h2, by rw [← h3]; exact i1⟩

theorem mk_of_dvd {f g h : (ZMod p)[X]} (hd : f ∣ g - h) : AdjoinRoot.mk f g = AdjoinRoot.mk f h :=
  AdjoinRoot.mk_eq_mk.mpr hd

theorem polyExpLoop_spec (hp : 0 < p) (pm : List Int) (hpm : 1 < pm.length)
    (hmonic : pm.getD (pm.length - 1) 0 = 1) (n : Nat) : ∀ (k : Nat) (G s : List Int), k ≤ n → 1 ≤ k →
    ∃ r, polyExpLoop k G s pm p = .ok r ∧
      (2 ≤ k → r.length ≤ pm.length - 1 ∧ Reduced p r) ∧
      (2 ≤ k → G.length = pm.length - 1 → s.length = pm.length - 1 → r.length = pm.length - 1) ∧
      AdjoinRoot.mk (poly p pm) (poly p r)
        = AdjoinRoot.mk (poly p pm) (poly p s) * AdjoinRoot.mk (poly p pm) (poly p G) ^ (k - k % 2) := by
  induction n with
  | zero => intro k G s h1 h2; omega
  | succ n ih =>
    intro k G s hk hk1
    rw [polyExpLoop]
    by_cases h : k > 1
    · rw [dif_pos h]
      obtain ⟨G', hG1, hG2, hG3, hG4⟩ := polynomialMultiplyMod_spec hp G G pm hpm hmonic
      have hG5 := mk_of_dvd hG4
      rw [map_mul] at hG5
      rw [hG1]
      simp only [bind, Except.bind]
      by_cases h2 : k / 2 % 2 = 1
      · rw [if_pos h2]
        obtain ⟨s', hs1, hs2, hs3, hs4⟩ := polynomialMultiplyMod_spec hp G' s pm hpm hmonic
        have hs5 := mk_of_dvd hs4
        rw [map_mul] at hs5
        rw [hs1]
        simp only
        obtain ⟨r, hr1, hr2, hr3, hr4⟩ := ih (k / 2) G' s' (by omega) (by omega)
        refine ⟨r, hr1, ?_, ?_, ?_⟩
        · intro _
          by_cases hk2 : 2 ≤ k / 2
          · exact hr2 hk2
          · have hk3 : k / 2 = 1 := by omega
            rw [polyExpLoop, hk3, dif_neg (by omega)] at hr1
            injection hr1 with hr1
            rw [← hr1]
            exact ⟨by omega, hs3⟩
        · intro _ hlG hls
          by_cases hk2 : 2 ≤ k / 2
          · exact hr3 hk2 (by omega) (by omega)
          · have hk3 : k / 2 = 1 := by omega
            rw [polyExpLoop, hk3, dif_neg (by omega)] at hr1
            injection hr1 with hr1
            rw [← hr1]
            omega
        · rw [hr4, hs5, hG5, ← pow_two, mul_comm (_ ^ 2) (AdjoinRoot.mk _ (poly p s)), mul_assoc,
            ← pow_succ', ← pow_mul]
          congr 2
          omega
      · rw [if_neg h2]
        obtain ⟨r, hr1, hr2, hr3, hr4⟩ := ih (k / 2) G' s (by omega) (by omega)
        have hk2 : 2 ≤ k / 2 := by omega
        refine ⟨r, hr1, fun _ => hr2 hk2, ?_, ?_⟩
        · intro _ hlG hls
          exact hr3 hk2 (by omega) hls
        · rw [hr4, hG5, ← pow_two, ← pow_mul]
          congr 2
          omega
    · rw [dif_neg h]
      refine ⟨s, rfl, by omega, by omega, ?_⟩
      have : k = 1 := by omega
      rw [this]; simp

theorem polynomialExpMod_spec (hp : 0 < p) (base pm : List Int) (hpm : 1 < pm.length)
    (hmonic : pm.getD (pm.length - 1) 0 = 1) (e : Nat) (he : 2 ≤ e) (hep : e < p) :
    ∃ r, polynomialExpMod base e pm p = .ok r ∧ r.length ≤ pm.length - 1 ∧ Reduced p r ∧
      (e % 2 = 1 → base.length = pm.length - 1 → r.length = pm.length - 1) ∧
      AdjoinRoot.mk (poly p pm) (poly p r) = AdjoinRoot.mk (poly p pm) (poly p base) ^ e := by
  rw [polynomialExpMod, if_neg (by omega), if_neg (by omega), Int.toNat_natCast]
  by_cases ho : (e : Int) % 2 = 1
  · rw [if_pos ho]
    obtain ⟨r, h1, h2, h3, h4⟩ := polyExpLoop_spec hp pm hpm hmonic e e base base (le_refl _) (by omega)
    refine ⟨r, h1, (h2 he).1, (h2 he).2, fun _ hb => h3 he hb hb, ?_⟩
    rw [h4, ← pow_succ']; congr 1; omega
  · rw [if_neg ho]
    obtain ⟨r, h1, h2, h3, h4⟩ := polyExpLoop_spec hp pm hpm hmonic e e base [1] (le_refl _) (by omega)
    refine ⟨r, h1, (h2 he).1, (h2 he).2, fun h => by omega, ?_⟩
    rw [h4]
    have : poly p [1] = 1 := by simp [poly]
    rw [this, map_one, one_mul]; congr 1; omega

/-! ### Cipolla: the case `p % 8 == 1` -/

theorem cipolla_power [Fact p.Prime] (hp2 : p ≠ 2) {R : Type} [CommRing R] [CharP R p]
    (φ : ZMod p →+* R) (a b : ZMod p) (α : R) (hα : α ^ 2 - φ b * α + φ a = 0)
    (hD : (b ^ 2 - 4 * a) ^ (p / 2) = -1) : α ^ (p + 1) = φ a := by
  have hp := (Fact.out : p.Prime)
  have hodd := hp.eq_two_or_odd.resolve_left hp2
  have h1 : (2 * α - φ b) ^ 2 = φ (b ^ 2 - 4 * a) := by
    rw [map_sub, map_pow, map_mul, map_ofNat]
    linear_combination 4 * hα
  have h2 : (2 * α - φ b) ^ p = -(2 * α - φ b) := by
    have : p = 2 * (p / 2) + 1 := by omega
    calc (2 * α - φ b) ^ p = (2 * α - φ b) ^ (2 * (p / 2) + 1) := by rw [← this]
      _ = -(2 * α - φ b) := by
        rw [pow_succ, pow_mul, h1, ← map_pow, hD, map_neg, map_one]; ring
  have h3 : (2 * α - φ b) ^ p = 2 * α ^ p - φ b := by
    rw [sub_pow_char, mul_pow, ← map_pow, ZMod.pow_card]
    congr 2
    have : ((2 : ZMod p)) ^ p = 2 := ZMod.pow_card 2
    have h := congrArg φ this
    rwa [map_pow, map_ofNat] at h
  have h4 : 2 * α ^ p = 2 * (φ b - α) := by rw [h3] at h2; linear_combination h2
  have h5 : α ^ p = φ b - α := by
    have hinv : φ (2⁻¹) * 2 = 1 := by
      have h20 : (2 : ZMod p) ≠ 0 := by
        intro h
        have : ((2 : Nat) : ZMod p) = 0 := by exact_mod_cast h
        rw [ZMod.natCast_eq_zero_iff] at this
        have := Nat.le_of_dvd (by omega) this
        have := hp.two_le
        omega
      have : (2 : ZMod p)⁻¹ * 2 = 1 := inv_mul_cancel₀ h20
      have h := congrArg φ this
      rwa [map_mul, map_ofNat, map_one] at h
    calc α ^ p = φ (2⁻¹) * 2 * α ^ p := by rw [hinv, one_mul]
      _ = φ (2⁻¹) * (2 * α ^ p) := by ring
      _ = φ (2⁻¹) * 2 * (φ b - α) := by rw [h4]; ring
      _ = φ b - α := by rw [hinv, one_mul]
  rw [pow_succ, h5]
  linear_combination -hα

theorem linear_eq_zero (u v : ZMod p) (h : C u * X + C v = (0 : (ZMod p)[X])) : u = 0 ∧ v = 0 := by
  constructor
  · have := congrArg (fun q => coeff q 1) h
    simpa [coeff_C] using this
  · have := congrArg (fun q => coeff q 0) h
    simpa using this

theorem cipolla_poly [Fact p.Prime] (a b : ZMod p) (c0 c1 : ZMod p)
    (f : (ZMod p)[X]) (hf : f = C a + X * (C (-b) + X * (C 1 + X * 0)))
    (hp2 : p ≠ 2) (hD : (b ^ 2 - 4 * a) ^ (p / 2) = -1) (w : ZMod p) (hw : a = w ^ 2)
    (h : AdjoinRoot.mk f (C c0 + X * (C c1 + X * 0)) = AdjoinRoot.mk f X ^ ((p + 1) / 2)) :
    c1 = 0 ∧ c0 ^ 2 = a := by
  have hp := (Fact.out : p.Prime)
  have hodd := hp.eq_two_or_odd.resolve_left hp2
  have hf' : f = X ^ 2 + C (-b) * X + C a := by rw [hf, C_1]; ring
  have hmon : f.Monic := by
    rw [hf']; monicity!
  have hdeg : f.natDegree = 2 := by
    rw [hf']; compute_degree!
  have hdeg' : f.degree = 2 := by
    rw [degree_eq_natDegree hmon.ne_zero, hdeg]; rfl
  have hinj := AdjoinRoot.of.injective_of_degree_ne_zero (f := f) (by rw [hdeg']; decide)
  have : CharP (AdjoinRoot f) p := charP_of_injective_ringHom hinj p
  have hroot : AdjoinRoot.mk f X ^ 2 - AdjoinRoot.of f b * AdjoinRoot.mk f X + AdjoinRoot.of f a = 0 := by
    have h0 : AdjoinRoot.mk f (X ^ 2 + C (-b) * X + C a) = 0 := by
      rw [AdjoinRoot.mk_eq_zero, ← hf']
    rw [← h0, map_add, map_add, map_mul, map_pow, C_neg, map_neg, AdjoinRoot.mk_C, AdjoinRoot.mk_C]
    ring
  have hpow := cipolla_power hp2 (AdjoinRoot.of f) a b _ hroot hD
  have hsq : AdjoinRoot.mk f ((C c0 + X * (C c1 + X * 0)) ^ 2) = AdjoinRoot.mk f (C a) := by
    rw [map_pow, h, ← pow_mul, AdjoinRoot.mk_C, ← hpow]; congr 1; omega
  have hdvd : f ∣ (C (c1 * (2 * c0 + b * c1)) * X + C (c0 ^ 2 - a * c1 ^ 2 - a)) := by
    rw [AdjoinRoot.mk_eq_mk] at hsq
    have := dvd_sub hsq (Dvd.intro (C (c1 ^ 2)) rfl : f ∣ f * C (c1 ^ 2))
    convert this using 1
    rw [hf']
    simp only [C_mul, C_add, C_sub, C_pow, C_neg, map_ofNat]
    ring
  have hz := eq_zero_of_dvd_of_degree_lt hdvd (by
    rw [hdeg']
    refine lt_of_le_of_lt degree_linear_le ?_
    decide)
  obtain ⟨e1, e0⟩ := linear_eq_zero _ _ hz
  by_cases hc1 : c1 = 0
  · refine ⟨hc1, ?_⟩
    rw [hc1] at e0
    linear_combination e0
  · exfalso
    have e2 : 2 * c0 + b * c1 = 0 := (mul_eq_zero.mp e1).resolve_left hc1
    have e3 : (b ^ 2 - 4 * a) * c1 ^ 2 = (2 * w) ^ 2 := by
      have : (2 * c0) ^ 2 = (b * c1) ^ 2 := by
        rw [eq_neg_of_add_eq_zero_left e2]; ring
      linear_combination 4 * e0 - this + 4 * hw
    have e4 : ((b ^ 2 - 4 * a) * c1 ^ 2) ^ (p / 2) = -1 := by
      rw [mul_pow, hD, ← pow_mul]
      have : c1 ^ (2 * (p / 2)) = 1 := by
        have h2 : 2 * (p / 2) = p - 1 := by omega
        rw [h2, ZMod.pow_card_sub_one_eq_one hc1]
      rw [this, mul_one]
    have hw0 : 2 * w ≠ 0 := by
      intro h0
      rw [h0] at e3
      rw [e3, zero_pow (by norm_num), zero_pow (by have := hp.two_le; omega)] at e4
      exact neg_ne_zero.mpr one_ne_zero e4.symm
    rw [e3, ← pow_mul] at e4
    have h2 : 2 * (p / 2) = p - 1 := by omega
    rw [h2, ZMod.pow_card_sub_one_eq_one hw0] at e4
    have : (2 : ZMod p) = 0 := by linear_combination e4
    have : ((2 : Nat) : ZMod p) = 0 := by exact_mod_cast this
    rw [ZMod.natCast_eq_zero_iff] at this
    have := Nat.le_of_dvd (by omega) this
    have := hp.two_le
    omega

/-- A `b` in `range(2, p)` with `b*b - 4*a` a non-residue exists. -/
theorem exists_cipolla_b [Fact p.Prime] (hp4 : p % 4 = 1) (a : Int) (ha : legendreSym p a = 1) :
    ∃ k : Nat, 2 + (k : Int) < p ∧ legendreSym p ((2 + k) * (2 + k) - 4 * a) = -1 := by
  have hp := (Fact.out : p.Prime)
  have h2 := hp.two_le
  have hp2 : p ≠ 2 := by omega
  have ha0 : (a : ZMod p) ≠ 0 := by
    intro h
    rw [(legendreSym.eq_zero_iff p a).mpr h] at ha; omega
  have h20 : (2 : ZMod p) ≠ 0 := by
    intro h
    have : ((2 : Nat) : ZMod p) = 0 := by exact_mod_cast h
    rw [ZMod.natCast_eq_zero_iff] at this
    have := Nat.le_of_dvd (by omega) this
    omega
  have hsq : IsSquare (a : ZMod p) := (legendreSym.eq_one_iff p ha0).mp ha
  have hneg : IsSquare (-1 : ZMod p) := ZMod.exists_sq_eq_neg_one_iff.mpr (by omega)
  have hc : IsSquare (-4 * (a : ZMod p)) := by
    have : (-4 * (a : ZMod p)) = -1 * (2 * 2) * a := by ring
    rw [this]
    exact (hneg.mul (IsSquare.mul_self 2)).mul hsq
  have hc0 : (-4 * (a : ZMod p)) ≠ 0 := by
    have : (-4 * (a : ZMod p)) = -(2 * 2 * a) := by ring
    rw [this, neg_ne_zero]
    exact mul_ne_zero (mul_ne_zero h20 h20) ha0
  obtain ⟨x, hx⟩ : ∃ x : ZMod p, ¬ IsSquare (x * x - 4 * (a : ZMod p)) := by
    by_contra hcon
    push Not at hcon
    obtain ⟨y, hy⟩ := FiniteField.exists_nonsquare (F := ZMod p) (by rwa [ZMod.ringChar_zmod_n])
    apply hy
    have hk : ∀ k : Nat, IsSquare ((k : ZMod p) * (-4 * (a : ZMod p))) := by
      intro k
      induction k with
      | zero => simp
      | succ k ih =>
        obtain ⟨z, hz⟩ := ih
        have := hcon z
        rw [← hz] at this
        convert this using 1
        push_cast; ring
    have := hk (y / (-4 * (a : ZMod p))).val
    rwa [ZMod.natCast_zmod_val, div_mul_cancel₀ _ hc0] at this
  have hx0 : x.val ≠ 0 := by
    intro h
    rw [ZMod.val_eq_zero] at h
    apply hx
    rw [h]
    convert hc using 1; ring
  have key : ∀ z : Nat, 2 ≤ z → z < p → ((z : Nat) : ZMod p) * z = x * x →
      ∃ k : Nat, 2 + (k : Int) < p ∧ legendreSym p ((2 + k) * (2 + k) - 4 * a) = -1 := by
    intro z hz hzp he
    refine ⟨z - 2, by omega, ?_⟩
    rw [legendreSym.eq_neg_one_iff]
    have hcast : (((2 + ((z - 2 : Nat) : Int)) * (2 + ((z - 2 : Nat) : Int)) - 4 * a : Int) : ZMod p)
        = x * x - 4 * (a : ZMod p) := by
      have h3 : (2 + ((z - 2 : Nat) : Int) : Int) = ((z : Nat) : Int) := by omega
      rw [h3]; push_cast; rw [he]
    rw [hcast]
    exact hx
  have hxlt := ZMod.val_lt x
  by_cases hx1 : x.val = 1
  · apply key (p - 1) (by omega) (by omega)
    have : x = 1 := by rw [← ZMod.natCast_zmod_val x, hx1]; simp
    rw [this, Nat.cast_sub (by omega)]; simp
  · exact key x.val (by omega) hxlt (by rw [ZMod.natCast_zmod_val])

theorem sqrtSearch_spec [Fact p.Prime] (hp8 : p % 8 = 1) (a : Int) (ha : legendreSym p a = 1) (k : Nat) :
    ∀ b : Int, 2 ≤ b → b + k < p → legendreSym p ((b + k) * (b + k) - 4 * a) = -1 →
    ∃ r, sqrtSearch a p b = .ok r ∧ 0 ≤ r ∧ r < p ∧ (r : ZMod p) ^ 2 = a := by
  have hp := (Fact.out : p.Prime)
  have h2 := hp.two_le
  have hp2 : p ≠ 2 := by omega
  have hjac : ∀ c : Int, jacobi c p = .ok (legendreSym p c) := by
    intro c
    rw [jacobi_eq c p (by omega) (by omega), Int.toNat_natCast, ← jacobiSym.legendreSym.to_jacobiSym]
  have hend : ∀ b : Int, 2 ≤ b → b < p → legendreSym p (b * b - 4 * a) = -1 →
      ∃ r, sqrtSearch a p b = .ok r ∧ 0 ≤ r ∧ r < p ∧ (r : ZMod p) ^ 2 = a := by
    intro b _ hbp hb
    rw [sqrtSearch, dif_pos hbp, hjac, hb]
    simp only [if_true]
    obtain ⟨ff, hf1, hf2, hf3, hf4, hf5⟩ := polynomialExpMod_spec (p := p) (by omega) [0, 1] [a, -b, 1]
      (by simp) (by simp) ((p + 1) / 2) (by omega) (by omega)
    have he : ((((p + 1) / 2 : Nat)) : Int) = ((p : Int) + 1) / 2 := by omega
    rw [he] at hf1
    rw [hf1]
    have hlen : ff.length = 2 := hf4 (by omega) (by simp)
    obtain ⟨c0, c1, rfl⟩ : ∃ c0 c1, ff = [c0, c1] := by
      match ff, hlen with
      | [c0, c1], _ => exact ⟨c0, c1, rfl⟩
    simp only
    obtain ⟨w, hw⟩ := (legendreSym.eq_one_iff p (by
      intro h
      rw [(legendreSym.eq_zero_iff p a).mpr h] at ha; omega)).mp ha
    have hX : poly p [0, 1] = X := by simp [poly]
    rw [hX] at hf5
    obtain ⟨r1, r0⟩ := cipolla_poly (p := p) (a : ZMod p) (b : ZMod p) (c0 : ZMod p) (c1 : ZMod p)
      (poly p [a, -b, 1]) (by simp [poly]) hp2 (by
        have := legendreSym.eq_pow p (b * b - 4 * a)
        rw [hb] at this
        push_cast at this
        rw [pow_two, ← this]) w (by rw [hw]; ring) hf5
    have hc1 := hf3 c1 (by simp)
    have hc0 := hf3 c0 (by simp)
    have : c1 = 0 := eq_of_cast_eq hc1.1 hc1.2 (le_refl _) (by omega) (by rw [r1]; simp)
    rw [if_pos this]
    exact ⟨c0, rfl, hc0.1, hc0.2, r0⟩
  induction k with
  | zero =>
    intro b hb hbp h
    exact hend b hb (by simpa using hbp) (by simpa using h)
  | succ k ih =>
    intro b hb hbp h
    by_cases hb1 : legendreSym p (b * b - 4 * a) = -1
    · exact hend b hb (by omega) hb1
    · rw [sqrtSearch, dif_pos (by omega), hjac]
      simp only
      rw [if_neg hb1]
      apply ih (b + 1) (by omega) (by push_cast at hbp ⊢; omega)
      rw [← h]; congr 1; push_cast; ring

theorem squareRootModPrime_residue [Fact p.Prime] (a : Int) (ha0 : 0 ≤ a) (hap : a < p)
    (h : IsSquare (a : ZMod p)) :
    ∃ r, squareRootModPrime a p = .ok r ∧ 0 ≤ r ∧ r < p ∧ (r : ZMod p) ^ 2 = a := by
  have hp := (Fact.out : p.Prime)
  have h2 := hp.two_le
  rw [squareRootModPrime]
  simp only [Py.assert, if_pos (And.intro ha0 hap), if_pos (show (1 : Int) < p by omega), bind, Except.bind]
  by_cases h0 : a = 0
  · rw [if_pos h0]
    exact ⟨0, rfl, le_refl _, by omega, by simp [h0]⟩
  rw [if_neg h0]
  by_cases hp2 : (p : Int) = 2
  · rw [if_pos hp2]
    refine ⟨a, rfl, ha0, hap, ?_⟩
    have : a = 1 := by omega
    rw [this]; simp
  rw [if_neg hp2]
  have hp2' : p ≠ 2 := by omega
  have hodd := hp.eq_two_or_odd.resolve_left hp2'
  rw [jacobi_eq a p (by omega) (by omega), Int.toNat_natCast, ← jacobiSym.legendreSym.to_jacobiSym]
  have hac : (a : ZMod p) ≠ 0 := by
    intro hz
    exact h0 (eq_of_cast_eq ha0 hap (le_refl _) (by omega) (by rw [hz]; simp))
  have hl : legendreSym p a = 1 := (legendreSym.eq_one_iff p hac).mpr h
  have hpw := legendre_one_pow hl
  simp only [hl]
  rw [if_neg (by omega)]
  by_cases h4 : (p : Int) % 4 = 3
  · rw [if_pos h4, modularExp_pos a (by omega) (by omega)]
    refine ⟨_, rfl, Int.emod_nonneg _ (by omega), Int.emod_lt_of_pos _ (by omega), ?_⟩
    rw [emod_cast]; push_cast
    rw [← pow_mul]
    have : (((p : Int) + 1) / 4).toNat * 2 = p / 2 + 1 := by omega
    rw [this, pow_succ, hpw, one_mul]
  rw [if_neg h4]
  by_cases h8 : (p : Int) % 8 = 5
  · rw [if_pos h8, modularExp_pos a (by omega) (by omega)]
    simp only
    have hd2 : ((a ^ (((p : Int) - 1) / 4).toNat % (p : Int) : Int) : ZMod p) ^ 2 = 1 := by
      rw [emod_cast]; push_cast
      rw [← pow_mul, ← hpw]; congr 1; omega
    have hdc : ((a ^ (((p : Int) - 1) / 4).toNat % (p : Int) : Int) : ZMod p)
        = (a : ZMod p) ^ (((p : Int) - 1) / 4).toNat := by
      rw [emod_cast]; push_cast; rfl
    have hd0 : 0 ≤ a ^ (((p : Int) - 1) / 4).toNat % (p : Int) := Int.emod_nonneg _ (by omega)
    have hd1 : a ^ (((p : Int) - 1) / 4).toNat % (p : Int) < p := Int.emod_lt_of_pos _ (by omega)
    generalize a ^ (((p : Int) - 1) / 4).toNat % (p : Int) = d at *
    have hd3 : ((d : ZMod p) - 1) * ((d : ZMod p) + 1) = 0 := by linear_combination hd2
    rcases mul_eq_zero.mp hd3 with hd4 | hd4
    · have hdz := sub_eq_zero.mp hd4
      have : d = 1 := eq_of_cast_eq hd0 hd1 (by omega) (by omega) (by rw [hdz]; simp)
      rw [if_pos this, modularExp_pos a (by omega) (by omega)]
      refine ⟨_, rfl, Int.emod_nonneg _ (by omega), Int.emod_lt_of_pos _ (by omega), ?_⟩
      rw [emod_cast]; push_cast
      rw [← pow_mul]
      have : (((p : Int) + 3) / 8).toNat * 2 = (((p : Int) - 1) / 4).toNat + 1 := by omega
      rw [this, pow_succ, ← hdc, hdz, one_mul]
    · have hdz := eq_neg_of_add_eq_zero_left hd4
      have : d = p - 1 := eq_of_cast_eq hd0 hd1 (by omega) (by omega) (by rw [hdz]; push_cast; simp)
      rw [if_neg (by omega), if_pos this, modularExp_pos (4 * a) (by omega) (by omega)]
      simp only
      refine ⟨_, rfl, Int.fmod_nonneg_of_pos _ (by omega), Int.fmod_lt_of_pos _ (by omega), ?_⟩
      rw [fmod_cast _ (by omega)]
      push_cast
      have e4 : (((p : Int) - 5) / 8).toNat * 2 + 1 = (((p : Int) - 1) / 4).toNat := by omega
      have h42 : ((4 : ZMod p)) ^ (((p : Int) - 1) / 4).toNat = -1 := by
        have h22 : (2 : ZMod p) ^ (p / 2) = -1 := by
          have := legendreSym.at_two (p := p) hp2'
          rw [ZMod.χ₈_nat_eq_if_mod_eight, if_neg (by omega), if_neg (by omega)] at this
          have h5 := legendreSym.eq_pow p 2
          rw [this] at h5
          push_cast at h5
          rw [← h5]
        rw [show (4 : ZMod p) = 2 ^ 2 by norm_num, ← pow_mul, ← h22]
        congr 1; omega
      have h6 : (4 * (a : ZMod p)) ^ (((p : Int) - 1) / 4).toNat = 1 := by
        rw [mul_pow, h42, ← hdc, hdz]; ring
      rw [mul_pow, ← pow_mul]
      have h7 : (2 * (a : ZMod p)) ^ 2 * (4 * (a : ZMod p)) ^ ((((p : Int) - 5) / 8).toNat * 2)
          = (a : ZMod p) * (4 * (a : ZMod p)) ^ ((((p : Int) - 5) / 8).toNat * 2 + 1) := by
        rw [pow_succ]; ring
      rw [h7, e4, h6, mul_one]
  rw [if_neg h8]
  obtain ⟨k, hk1, hk2⟩ := exists_cipolla_b (p := p) (by omega) a hl
  exact sqrtSearch_spec (by omega) a hl k 2 (le_refl _) hk1 hk2

theorem squareRootModPrime_nonresidue [Fact p.Prime] (a : Int) (ha0 : 0 ≤ a) (hap : a < p)
    (h : ¬ IsSquare (a : ZMod p)) : squareRootModPrime a p = .error .squareRoot := by
  have hp := (Fact.out : p.Prime)
  have h2 := hp.two_le
  have h0 : a ≠ 0 := by
    rintro rfl
    exact h (by simp)
  have hp2 : p ≠ 2 := by
    intro hp2
    have : a = 1 := by omega
    exact h (by rw [this]; simp)
  have hodd := hp.eq_two_or_odd.resolve_left hp2
  rw [squareRootModPrime]
  simp only [Py.assert, if_pos (And.intro ha0 hap), if_pos (show (1 : Int) < p by omega), bind, Except.bind]
  rw [if_neg h0, if_neg (by omega), jacobi_eq a p (by omega) (by omega), Int.toNat_natCast,
    ← jacobiSym.legendreSym.to_jacobiSym, (legendreSym.eq_neg_one_iff p).mpr h]
  rfl

end Cryptopy.Model
