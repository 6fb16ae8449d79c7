import Verif.Lemmas.MontgomeryOrder
import Verif.Lemmas.Ecc
import Mathlib.FieldTheory.IsAlgClosed.AlgebraicClosure
import Mathlib.NumberTheory.LegendreSymbol.QuadraticChar.Basic
import Mathlib.FieldTheory.PrimeField

/-!
The points of a Montgomery curve over the algebraic closure whose x-coordinate is in `GF(p)` and whose
y-coordinate is not, the points of the quadratic twist: they are the group on which the Frobenius map is
negation, and together with the points over `GF(p)` there are `2p + 2` of them.
-/

namespace Cryptopy.Twist
open Cryptopy Cryptopy.Spec WeierstrassCurve

variable {p : Nat} [hpf : Fact p.Prime] {a : Int}

/-- The algebraic closure of `GF(p)`. -/
abbrev Cl (p : Nat) [Fact p.Prime] : Type := AlgebraicClosure (ZMod p)

noncomputable instance : DecidableEq (Cl p) := Classical.decEq _

theorem curve_eq : mCurveOver (Cl p) a = (mCurve p a).baseChange (Cl p) := by
  ext <;> simp [mCurveOver, mCurve, WeierstrassCurve.baseChange, WeierstrassCurve.map]

/-- The Frobenius map on points. -/
theorem exists_frobenius : ∃ φ : (mCurveOver (Cl p) a).Point →+ (mCurveOver (Cl p) a).Point,
    ∀ x y n, ∃ n', φ (.some x y n) = .some (x ^ p) (y ^ p) n' := by
  rw [curve_eq]
  refine ⟨Affine.Point.map (FiniteField.frobeniusAlgHom (ZMod p) (Cl p)), fun x y n => ?_⟩
  have h := Affine.Point.map_some (W' := mCurve p a) (FiniteField.frobeniusAlgHom (ZMod p) (Cl p)) n
  simp only [FiniteField.coe_frobeniusAlgHom, ZMod.card] at h
  exact ⟨_, h⟩

theorem fixed {z : Cl p} (h : z ^ p = z) : ∃ w : ZMod p, algebraMap (ZMod p) (Cl p) w = z := by
  have := (Subfield.mem_bot_iff_pow_eq_self (F := Cl p) (p := p)).mpr h
  rw [Subfield.bot_eq_of_zMod_algebra p] at this
  exact this

theorem pow_fixed (w : ZMod p) : (algebraMap (ZMod p) (Cl p) w) ^ p = algebraMap (ZMod p) (Cl p) w := by
  rw [← map_pow, ZMod.pow_card]

/-- A square root of a non-residue is negated by Frobenius. -/
theorem sqrt_pow {d : ZMod p} (h2 : p ≠ 2) (hd : ¬ IsSquare d) {s : Cl p} (hs : s ^ 2 = algebraMap (ZMod p) (Cl p) d) :
    s ^ p = -s := by
  have hd0 : d ≠ 0 := fun h => hd (h ▸ ⟨0, by simp⟩)
  have hodd : p % 2 = 1 := hpf.out.eq_two_or_odd.resolve_left h2
  have e : d ^ (p / 2) = -1 := by
    rcases ZMod.pow_div_two_eq_neg_one_or_one p hd0 with h | h
    · exact absurd ((ZMod.euler_criterion p hd0).mpr h) hd
    · exact h
  calc s ^ p = s ^ (2 * (p / 2) + 1) := by congr 1; omega
    _ = (s ^ 2) ^ (p / 2) * s := by rw [pow_succ, pow_mul]
    _ = -s := by rw [hs, ← map_pow, e]; simp

theorem card_sum {d : ZMod p} (h2 : p ≠ 2) (hd : ¬ IsSquare d) (f : ZMod p → ZMod p) :
    Nat.card {q : ZMod p × ZMod p // q.2 ^ 2 = f q.1} + Nat.card {q : ZMod p × ZMod p // d * q.2 ^ 2 = f q.1} =
      2 * p := by
  classical
  have hd0 : d ≠ 0 := fun h => hd (h ▸ ⟨0, by simp⟩)
  have hc : ringChar (ZMod p) ≠ 2 := by rwa [ZMod.ringChar_zmod_n]
  have e1 : Nat.card {q : ZMod p × ZMod p // q.2 ^ 2 = f q.1} = ∑ x : ZMod p, Nat.card {v : ZMod p // v ^ 2 = f x} := by
    rw [← Nat.card_sigma]
    exact Nat.card_congr ⟨fun q => ⟨q.1.1, q.1.2, q.2⟩, fun q => ⟨(q.1, q.2.1), q.2.2⟩, fun _ => rfl, fun _ => rfl⟩
  have e2 : Nat.card {q : ZMod p × ZMod p // d * q.2 ^ 2 = f q.1} =
      ∑ x : ZMod p, Nat.card {v : ZMod p // d * v ^ 2 = f x} := by
    rw [← Nat.card_sigma]
    exact Nat.card_congr ⟨fun q => ⟨q.1.1, q.1.2, q.2⟩, fun q => ⟨(q.1, q.2.1), q.2.2⟩, fun _ => rfl, fun _ => rfl⟩
  have e3 : ∀ c : ZMod p, (Nat.card {v : ZMod p // v ^ 2 = c} : Int) = quadraticChar (ZMod p) c + 1 := by
    intro c
    rw [← quadraticChar_card_sqrts hc c, Nat.card_eq_fintype_card, Fintype.card_subtype]
    congr 2
    ext v
    simp
  have e4 : ∀ c : ZMod p, Nat.card {v : ZMod p // d * v ^ 2 = c} = Nat.card {v : ZMod p // v ^ 2 = c * d⁻¹} := by
    intro c
    refine Nat.card_congr (Equiv.subtypeEquivRight fun v => ?_)
    rw [eq_mul_inv_iff_mul_eq₀ hd0, mul_comm]
  have e5 : ∀ c : ZMod p, Nat.card {v : ZMod p // v ^ 2 = c} + Nat.card {v : ZMod p // d * v ^ 2 = c} = 2 := by
    intro c
    have hdi : quadraticChar (ZMod p) d⁻¹ = -1 := by
      rw [quadraticChar_neg_one_iff_not_isSquare]
      simpa using hd
    have : (Nat.card {v : ZMod p // v ^ 2 = c} : Int) + Nat.card {v : ZMod p // d * v ^ 2 = c} = 2 := by
      rw [e4, e3, e3, map_mul, hdi]; ring
    exact_mod_cast this
  rw [e1, e2, ← Finset.sum_add_distrib, Finset.sum_congr rfl (fun x _ => e5 (f x))]
  simp [mul_comm]

theorem nonsing_over {F : Type} [Field F] (h2 : (2 : F) ≠ 0) (ha : (a : F) ^ 2 ≠ 4) {x y : F}
    (h : y ^ 2 = x ^ 3 + a * x ^ 2 + x) : (mCurveOver F a).Nonsingular x y := by
  refine (Affine.equation_iff_nonsingular_of_Δ_ne_zero ?_).mp ?_
  · have : (mCurveOver F a).Δ = 2 ^ 4 * ((a : F) ^ 2 - 4) := by
      simp only [WeierstrassCurve.Δ, WeierstrassCurve.b₂, WeierstrassCurve.b₄, WeierstrassCurve.b₆,
        WeierstrassCurve.b₈, mCurveOver]
      ring
    rw [this]
    exact mul_ne_zero (pow_ne_zero _ h2) (sub_ne_zero.mpr ha)
  · rw [Affine.equation_iff]
    simp [mCurveOver, h]

theorem equation_over {F : Type} [Field F] {x y : F} (h : (mCurveOver F a).Nonsingular x y) :
    y ^ 2 = x ^ 3 + a * x ^ 2 + x := by
  have := (Affine.equation_iff _ _).mp h.1
  simpa [mCurveOver] using this

theorem neg_over {F : Type} [Field F] [DecidableEq F] {x y : F} (n : (mCurveOver F a).Nonsingular x y) :
    ∃ n', -(Affine.Point.some x y n) = .some x (-y) n' := by
  rw [Affine.Point.neg_some]
  have h : (mCurveOver F a).negY x y = -y := XOnly.negY_eq rfl rfl x y
  have n' : (mCurveOver F a).Nonsingular x (-y) := h ▸ (Affine.nonsingular_neg _ _).mpr n
  exact ⟨n', by rw [Affine.Point.some.injEq]; exact ⟨rfl, h⟩⟩

/-- The multiples of `s` among the y-coordinates: a subgroup given by Frobenius, and its size. -/
theorem card_ker (h2 : (2 : Cl p) ≠ 0) (ha : (a : Cl p) ^ 2 ≠ 4)
    (φ : (mCurveOver (Cl p) a).Point →+ (mCurveOver (Cl p) a).Point)
    (hφ : ∀ x y n, ∃ n', φ (.some x y n) = .some (x ^ p) (y ^ p) n')
    (ψ : (mCurveOver (Cl p) a).Point →+ (mCurveOver (Cl p) a).Point) (ε : Cl p)
    (hψ : ∀ x y n, ∃ n', ψ (.some x y n) = .some x (ε * y) n')
    (s : Cl p) (d : ZMod p) (hs : s ^ 2 = algebraMap (ZMod p) (Cl p) d) (hs0 : s ≠ 0) (hε : ε * ε = 1)
    (hsp : s ^ p = ε * s) :
    Nat.card (φ - ψ).ker =
      Nat.card {q : ZMod p × ZMod p // d * q.2 ^ 2 = q.1 ^ 3 + a * q.1 ^ 2 + q.1} + 1 := by
  let am := algebraMap (ZMod p) (Cl p)
  have hinj : Function.Injective am := am.injective
  let B := {q : ZMod p × ZMod p // d * q.2 ^ 2 = q.1 ^ 3 + a * q.1 ^ 2 + q.1}
  have hB : ∀ q : B, (s * am q.1.2) ^ 2 = (am q.1.1) ^ 3 + a * (am q.1.1) ^ 2 + am q.1.1 := by
    intro q
    rw [mul_pow, hs]
    have := congrArg am q.2
    simpa [am] using this
  let g : Option B → (mCurveOver (Cl p) a).Point
    | none => 0
    | some q => .some (am q.1.1) (s * am q.1.2) (nonsing_over h2 ha (hB q))
  have gi : Function.Injective g := by
    rintro (_ | q) (_ | r) h
    · rfl
    · exact absurd h.symm (Affine.Point.some_ne_zero _)
    · exact absurd h (Affine.Point.some_ne_zero _)
    · injection h with h1 h3
      have k1 := hinj h1
      have k2 := hinj (mul_left_cancel₀ hs0 h3)
      exact congrArg some (Subtype.ext (Prod.ext k1 k2))
  have hr : Set.range g = ((φ - ψ).ker : Set (mCurveOver (Cl p) a).Point) := by
    ext P
    rw [SetLike.mem_coe, AddMonoidHom.mem_ker, AddMonoidHom.sub_apply, sub_eq_zero]
    constructor
    · rintro ⟨_ | q, rfl⟩
      · change φ 0 = ψ 0
        rw [map_zero, map_zero]
      · obtain ⟨n1, e1⟩ := hφ _ _ (nonsing_over h2 ha (hB q))
        obtain ⟨n2, e2⟩ := hψ _ _ (nonsing_over h2 ha (hB q))
        refine e1.trans (Eq.trans ?_ e2.symm)
        rw [Affine.Point.some.injEq]
        exact ⟨pow_fixed _, by rw [mul_pow, pow_fixed, hsp, mul_assoc]⟩
    · intro h
      cases P with
      | zero => exact ⟨none, rfl⟩
      | some x y n =>
        obtain ⟨n1, e1⟩ := hφ x y n
        obtain ⟨n2, e2⟩ := hψ x y n
        rw [e1, e2] at h
        injection h with hx hy
        obtain ⟨w, hw⟩ := fixed hx
        have hv : (y * s⁻¹) ^ p = y * s⁻¹ := by
          rw [mul_pow, inv_pow, hsp, hy]
          have hε0 : ε ≠ 0 := fun h => by rw [h, zero_mul] at hε; exact zero_ne_one hε
          field_simp
        obtain ⟨v, hv⟩ := fixed hv
        have hy' : y = s * am v := by
          change am v = _ at hv
          rw [hv]; field_simp
        have he := equation_over n
        refine ⟨some ⟨(w, v), hinj ?_⟩, ?_⟩
        · rw [hy', mul_pow, hs, ← hw] at he
          simpa [am] using he
        · simp only [g]
          rw [Affine.Point.some.injEq]
          exact ⟨hw, hy'.symm⟩
  calc Nat.card (φ - ψ).ker = Nat.card (Set.range g) := by rw [hr]; rfl
    _ = Nat.card (Option B) := (Nat.card_congr (Equiv.ofInjective g gi)).symm
    _ = Nat.card B + 1 := Finite.card_option

theorem card_points (h2 : (2 : ZMod p) ≠ 0) (ha : (a : ZMod p) ^ 2 ≠ 4) :
    Nat.card (mCurve p a).Point =
      Nat.card {q : ZMod p × ZMod p // q.2 ^ 2 = q.1 ^ 3 + a * q.1 ^ 2 + q.1} + 1 := by
  let B := {q : ZMod p × ZMod p // q.2 ^ 2 = q.1 ^ 3 + a * q.1 ^ 2 + q.1}
  let g : Option B → (mCurve p a).Point
    | none => 0
    | some q => .some q.1.1 q.1.2 (nonsing_over h2 ha q.2)
  have gb : Function.Bijective g := by
    constructor
    · rintro (_ | q) (_ | r) h
      · rfl
      · exact absurd h.symm (Affine.Point.some_ne_zero _)
      · exact absurd h (Affine.Point.some_ne_zero _)
      · injection h with h1 h3
        exact congrArg some (Subtype.ext (Prod.ext h1 h3))
    · intro P
      cases P with
      | zero => exact ⟨none, rfl⟩
      | some x y n => exact ⟨some ⟨(x, y), equation_over n⟩, rfl⟩
  rw [← Nat.card_congr (Equiv.ofBijective g gb)]
  exact Finite.card_option

/-- A point over the algebraic closure whose x-coordinate is in `GF(p)` is killed by the number of points of the
curve or by that of its twist. -/
theorem kill (h2p : p ≠ 2) (ha : ¬ a ^ 2 ≡ 4 [ZMOD p]) (x : ZMod p) (y : Cl p)
    (n : (mCurveOver (Cl p) a).Nonsingular (algebraMap (ZMod p) (Cl p) x) y) :
    Nat.card (mCurve p a).Point • Affine.Point.some _ _ n = 0 ∨
      (2 * p + 2 - Nat.card (mCurve p a).Point) • Affine.Point.some _ _ n = 0 := by
  have h2z : (2 : ZMod p) ≠ 0 := Model.two_ne_zero_zmod h2p
  have h2 : (2 : Cl p) ≠ 0 := by
    have := (map_ne_zero (algebraMap (ZMod p) (Cl p))).mpr h2z
    rwa [map_ofNat] at this
  have haz : (a : ZMod p) ^ 2 ≠ 4 := by
    rw [← ZMod.intCast_eq_intCast_iff] at ha
    push_cast at ha
    exact ha
  have hac : (a : Cl p) ^ 2 ≠ 4 := by
    intro h
    apply haz
    apply (algebraMap (ZMod p) (Cl p)).injective
    rw [map_pow, map_intCast, h, map_ofNat]
  obtain ⟨φ, hφ⟩ := exists_frobenius (p := p) (a := a)
  obtain ⟨d, hd⟩ := FiniteField.exists_nonsquare (F := ZMod p) (by rwa [ZMod.ringChar_zmod_n])
  obtain ⟨s, hs⟩ := IsAlgClosed.exists_pow_nat_eq (algebraMap (ZMod p) (Cl p) d) (n := 2) (by norm_num)
  have hd0 : d ≠ 0 := fun h => hd (h ▸ ⟨0, by simp⟩)
  have hs0 : s ≠ 0 := by
    rintro rfl
    rw [zero_pow two_ne_zero, eq_comm, map_eq_zero] at hs
    exact hd0 hs
  have c1 := card_ker h2 hac φ hφ (AddMonoidHom.id _) 1 (fun x y n => ⟨by rwa [one_mul], by simp⟩) 1 1 (by simp)
    one_ne_zero (by simp) (by simp)
  have c2 := card_ker h2 hac φ hφ (-(AddMonoidHom.id _)) (-1) (fun x y n => by
    obtain ⟨n', h⟩ := neg_over n
    simp only [neg_one_mul]
    exact ⟨n', h⟩) s d hs hs0 (by simp) (by rw [sqrt_pow h2p hd hs]; simp)
  have c3 := card_sum h2p hd (fun x => x ^ 3 + a * x ^ 2 + x)
  have c4 := card_points h2z haz
  simp only [one_mul] at c1
  rw [← c4] at c1
  have hy : y ^ p = y ∨ y ^ p = -y := by
    have he := equation_over n
    rw [← sq_eq_sq_iff_eq_or_eq_neg, ← pow_mul, mul_comm, pow_mul, he]
    have := pow_fixed (p := p) (x ^ 3 + a * x ^ 2 + x)
    simpa using this
  obtain ⟨n1, e1⟩ := hφ _ _ n
  rcases hy with hy | hy
  · left
    have hm : Affine.Point.some _ _ n ∈ (φ - AddMonoidHom.id _).ker := by
      rw [AddMonoidHom.mem_ker, AddMonoidHom.sub_apply, sub_eq_zero, e1]
      change _ = Affine.Point.some _ _ n
      rw [Affine.Point.some.injEq]
      exact ⟨pow_fixed x, hy⟩
    have := card_nsmul_eq_zero' (x := (⟨_, hm⟩ : (φ - AddMonoidHom.id _).ker))
    rw [c1] at this
    exact congrArg Subtype.val this
  · right
    have hm : Affine.Point.some _ _ n ∈ (φ - -(AddMonoidHom.id _)).ker := by
      rw [AddMonoidHom.mem_ker, AddMonoidHom.sub_apply, sub_eq_zero, e1]
      obtain ⟨n', h⟩ := neg_over n
      change _ = -Affine.Point.some _ _ n
      rw [h, Affine.Point.some.injEq]
      exact ⟨pow_fixed x, hy⟩
    have := card_nsmul_eq_zero' (x := (⟨_, hm⟩ : (φ - -(AddMonoidHom.id _)).ker))
    rw [c2] at this
    rw [show 2 * p + 2 - Nat.card (mCurve p a).Point =
      Nat.card {q : ZMod p × ZMod p // d * q.2 ^ 2 = q.1 ^ 3 + a * q.1 ^ 2 + q.1} + 1 by omega]
    exact congrArg Subtype.val this

end Cryptopy.Twist
