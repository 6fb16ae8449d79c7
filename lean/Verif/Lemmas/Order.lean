import Verif.Lemmas.Sqrt
import Mathlib.GroupTheory.OrderOfElement
import Mathlib.FieldTheory.Finite.Basic

/-! Lemmas on `order_mod` and `largest_factor_relatively_prime`. -/

namespace Cryptopy.Model

theorem orderModLoop_spec (m : Nat) (hm : 1 < m) (x : Int) (d : Nat) : ∀ (k : Nat) (z result : Int),
    0 ≤ z → z < m → (z : ZMod m) = (x : ZMod m) ^ k → (x : ZMod m) ^ (k + d) = 1 →
    (∀ i < d, (x : ZMod m) ^ (k + i) ≠ 1) → orderModLoop x m z result = some (result + d) := by
  induction d with
  | zero =>
    intro k z result h0 h1 hz h _
    have : z = 1 := eq_of_cast_eq h0 h1 (by omega) (by omega) (by rw [hz, ← Nat.add_zero k, h]; simp)
    rw [orderModLoop, if_neg (by simpa using this)]; simp
  | succ d ih =>
    intro k z result h0 h1 hz h hmin
    have hz1 : z ≠ 1 := by
      rintro rfl
      exact hmin 0 (by omega) (by rw [Nat.add_zero, ← hz]; simp)
    rw [orderModLoop, if_pos hz1, ih (k + 1) _ (result + 1) (Int.fmod_nonneg_of_pos _ (by omega))
      (Int.fmod_lt_of_pos _ (by omega))]
    · congr 1; push_cast; ring
    · rw [fmod_cast _ (by omega)]; push_cast; rw [hz, pow_succ]
    · rw [← h]; congr 1; omega
    · intro i hi
      have := hmin (i + 1) (by omega)
      rwa [show k + (i + 1) = k + 1 + i by omega] at this

theorem orderMod_coprime (m : Nat) (hm : 1 < m) (x : Int) (hx : 0 < x) (hg : Int.gcd x m = 1) :
    orderMod x m = some (.ok (if (x : ZMod m) = 1 ∧ x ≠ 1 then 2 else (orderOf (x : ZMod m) : Int))) := by
  have : NeZero m := ⟨by omega⟩
  have : Fact (1 < m) := ⟨hm⟩
  rw [orderMod, if_neg (by omega), if_neg]
  swap
  · rw [gcd2_pos_eq _ _ hx, hg]; simp
  have hu : IsUnit (x : ZMod m) := by
    obtain ⟨n, rfl⟩ : ∃ n : Nat, x = n := ⟨x.toNat, by omega⟩
    rw [Int.cast_natCast, ZMod.isUnit_iff_coprime]
    exact hg
  obtain ⟨u, hu⟩ := hu
  have hpos : 0 < orderOf (x : ZMod m) := by
    rw [← hu, orderOf_units]; exact orderOf_pos u
  by_cases hx1 : x = 1
  · subst hx1
    rw [orderModLoop, if_neg (by simp), if_neg (by simp)]
    simp
  rw [orderModLoop, if_pos hx1]
  have hcast : ((((x * x).fmod (m : Int)) : Int) : ZMod m) = (x : ZMod m) ^ 2 := by
    rw [fmod_cast _ (by omega)]; push_cast; ring
  by_cases hc : (x : ZMod m) = 1
  · rw [if_pos ⟨hc, hx1⟩, orderModLoop_spec m hm x 0 2 _ _ (Int.fmod_nonneg_of_pos _ (by omega))
      (Int.fmod_lt_of_pos _ (by omega)) hcast (by rw [hc]; simp) (by simp)]
    simp
  · have h2 : 2 ≤ orderOf (x : ZMod m) := by
      have : orderOf (x : ZMod m) ≠ 1 := by rw [Ne, orderOf_eq_one_iff]; exact hc
      omega
    rw [if_neg (by simp [hc]), orderModLoop_spec m hm x (orderOf (x : ZMod m) - 2) 2 _ _
      (Int.fmod_nonneg_of_pos _ (by omega)) (Int.fmod_lt_of_pos _ (by omega)) hcast
      (by rw [show 2 + (orderOf (x : ZMod m) - 2) = orderOf (x : ZMod m) by omega]; exact pow_orderOf_eq_one _)
      (by
        intro i hi
        exact pow_ne_one_of_lt_orderOf (by omega) (by omega))]
    simp only [Option.map_some, Option.some.injEq]
    congr 1
    omega

theorem orderMod_not_coprime (m x : Int) (hm : 1 < m) (h : Int.gcd x m ≠ 1 ∨ x ≤ 0) :
    orderMod x m = some (.error .assertion) := by
  rw [orderMod, if_neg (by omega), if_pos]
  intro hg
  rcases h with h | h
  · have := gcd2_natAbs x m
    rw [hg] at this
    exact h this.symm
  · rcases Int.lt_or_eq_of_le h with h | h
    · have := gcd2_neg x m h
      omega
    · rw [h, gcd2, dif_neg (by simp)] at hg
      omega

theorem orderMod_trivial (m x : Int) (hm : m ≤ 1) : orderMod x m = some (.ok 0) := by
  rw [orderMod, if_pos hm]

/-! ### largest_factor_relatively_prime -/

theorem divideOut_spec (d : Nat) (hd : 2 ≤ d) (k : Nat) : ∀ a : Nat, a ≤ k → 1 ≤ a →
    ∃ a' e : Nat, divideOut a d = some (a' : Int) ∧ a = a' * d ^ e ∧ ¬ d ∣ a' ∧ 1 ≤ a' := by
  induction k with
  | zero => intro a h1 h2; omega
  | succ k ih =>
    intro a hk ha
    rw [divideOut]
    have hf : (a : Int).fmod d = ((a % d : Nat) : Int) := (Int.ofNat_fmod a d).symm
    by_cases h : a % d = 0
    · rw [if_neg (by rw [hf, h]; simp)]
      have hq : (a : Int).fdiv d = ((a / d : Nat) : Int) := (Int.ofNat_fdiv a d).symm
      rw [hq]
      have hdv : d ∣ a := Nat.dvd_of_mod_eq_zero h
      have hlt : a / d < a := Nat.div_lt_self (by omega) (by omega)
      obtain ⟨a', e, h1, h2, h3, h4⟩ := ih (a / d) (by omega) (Nat.div_pos (Nat.le_of_dvd (by omega) hdv) (by omega))
      refine ⟨a', e + 1, h1, ?_, h3, h4⟩
      rw [pow_succ, ← mul_assoc, ← h2, Nat.div_mul_cancel hdv]
    · rw [if_pos (by rw [hf]; have : 0 < a % d := Nat.pos_of_ne_zero h; exact_mod_cast this)]
      exact ⟨a, 0, rfl, by simp, fun hdv => h (Nat.mod_eq_zero_of_dvd hdv), ha⟩

theorem largestFactor_spec (k : Nat) : ∀ (a : Nat) (b : Int), a ≤ k → 1 ≤ a →
    ∃ r : Nat, largestFactor a b = some (r : Int) ∧ r ∣ a ∧ Int.gcd r b = 1 ∧
      ∀ c : Nat, c ∣ a → Int.gcd c b = 1 → c ∣ r := by
  induction k with
  | zero => intro a b h1 h2; omega
  | succ k ih =>
    intro a b hk ha
    rw [largestFactor, gcd2_pos_eq _ _ (by omega)]
    have hgpos : 0 < Int.gcd a b := Int.gcd_pos_of_ne_zero_left _ (by omega)
    by_cases hd : Int.gcd a b = 1
    · rw [if_pos (by rw [hd]; simp)]
      exact ⟨a, rfl, dvd_refl _, hd, fun c hc _ => hc⟩
    · rw [if_neg (by omega)]
      obtain ⟨a', e, h1, h2, h3, h4⟩ := divideOut_spec (Int.gcd a b) (by omega) a a (le_refl _) ha
      rw [h1]
      simp only
      have hda : Int.gcd a b ∣ a := by exact_mod_cast Int.gcd_dvd_left (a : Int) b
      have hdb : (Int.gcd a b : Int) ∣ b := Int.gcd_dvd_right (a : Int) b
      have he : 1 ≤ e := by
        by_contra hcon
        have : e = 0 := by omega
        rw [this, pow_zero, mul_one] at h2
        rw [h2] at hda h3
        exact h3 hda
      have hlt : a' < a := by
        have h5 : 2 ≤ (Int.gcd a b) ^ e := le_trans (by omega) (Nat.le_self_pow (by omega) _)
        have h6 : a' * 2 ≤ a' * (Int.gcd a b) ^ e := Nat.mul_le_mul_left a' h5
        omega
      obtain ⟨r, i1, i2, i3, i4⟩ := ih a' (Int.gcd a b : Int) (by omega) h4
      have hra : r ∣ a := dvd_trans i2 (h2 ▸ dvd_mul_right a' _)
      refine ⟨r, i1, hra, ?_, ?_⟩
      · have h7 : (Int.gcd r b : Int) ∣ (Int.gcd a b : Int) :=
          Int.dvd_coe_gcd (dvd_trans (Int.gcd_dvd_left (r : Int) b) (by exact_mod_cast hra)) (Int.gcd_dvd_right (r : Int) b)
        have h8 : (Int.gcd r b : Int) ∣ (Int.gcd r (Int.gcd a b : Int) : Int) :=
          Int.dvd_coe_gcd (Int.gcd_dvd_left (r : Int) b) h7
        rw [i3] at h8
        have h9 : Int.gcd r b ∣ 1 := by exact_mod_cast h8
        exact Nat.dvd_one.mp h9
      · intro c hc hcb
        have hcd : Nat.Coprime c (Int.gcd a b) := by
          have h8 : ((Nat.gcd c (Int.gcd a b) : Nat) : Int) ∣ (Int.gcd c b : Int) :=
            Int.dvd_coe_gcd (by exact_mod_cast Nat.gcd_dvd_left c _)
              (dvd_trans (by exact_mod_cast Nat.gcd_dvd_right c (Int.gcd a b)) hdb)
          rw [hcb] at h8
          have h9 : Nat.gcd c (Int.gcd a b) ∣ 1 := by exact_mod_cast h8
          exact Nat.dvd_one.mp h9
        apply i4 c
        · rw [h2] at hc
          exact (Nat.Coprime.pow_right e hcd).dvd_of_dvd_mul_right hc
        · exact hcd

theorem divideOut_zero (d : Int) : divideOut 0 d = none := by
  have h : ∀ a r, divideOut a d = some r → a ≠ 0 := by
    apply divideOut.partial_correctness
    intro f hf a r h
    split at h
    next h1 => rintro rfl; simp at h1
    next =>
      rintro rfl
      have := hf _ _ h
      simp at this
  cases hc : divideOut 0 d with
  | none => rfl
  | some r => exact absurd rfl (h 0 r hc)

theorem largestFactor_zero (b : Int) (hb : 2 ≤ b) : largestFactor 0 b = none := by
  rw [largestFactor, gcd2, dif_neg (by simp), if_neg (by omega), divideOut_zero]

end Cryptopy.Model
