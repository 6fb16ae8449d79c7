import Verif.Lemmas.GenericPoints
import Verif.Props.Brainpool
import Verif.Props.KeyCount
import Mathlib.Data.ZMod.Basic
import Mathlib.Algebra.BigOperators.Fin

/-!
C179: what programs can find out about private keys if they use points only through their operators.
-/

namespace Cryptopy
open Cryptopy.Model Cryptopy.Spec WeierstrassCurve

/-! ### Zeros of affine and bilinear forms -/

private theorem ncard_le_card {X Y : Type} [Finite X] [Finite Y] (s : Set X) (f : X → Y) (h : Set.InjOn f s) :
    s.ncard ≤ Nat.card Y := by
  have := Set.ncard_le_ncard_of_injOn (t := Set.univ) f (fun _ _ => Set.mem_univ _) h (Set.toFinite _)
  rwa [Set.ncard_univ] at this

section forms
variable {n : Nat} [hnf : Fact n.Prime]

/-- A number below `n` as an element of the field. -/
private def el (x : Fin n) : ZMod n := ((x : Nat) : ZMod n)

private theorem el_inj {x y : Fin n} (h : el x = el y) : x = y := by
  have := (ZMod.natCast_eq_natCast_iff' _ _ n).mp h
  rw [Nat.mod_eq_of_lt x.2, Nat.mod_eq_of_lt y.2] at this
  exact Fin.ext this

private theorem lin1 (a b : ZMod n) (h : (a, b) ≠ 0) : {x : Fin n | a + b * el x = 0}.ncard ≤ 1 := by
  have : Subsingleton Unit := inferInstance
  have := ncard_le_card {x : Fin n | a + b * el x = 0} (fun _ => ()) (by
    intro x hx y hy _
    have hx : a + b * el x = 0 := hx
    have hy : a + b * el y = 0 := hy
    by_cases hb : b = 0
    · rw [hb, zero_mul, add_zero] at hx
      exact absurd (by rw [hx, hb]; rfl) h
    · exact el_inj (mul_left_cancel₀ hb (by linear_combination hx - hy)))
  simpa using this

private theorem lin2 (a b c : ZMod n) (h : (a, b, c) ≠ 0) :
    {x : Fin n × Fin n | a + b * el x.1 + c * el x.2 = 0}.ncard ≤ n := by
  have hcard : Nat.card (Fin n) = n := by simp
  by_cases hc : c = 0
  · by_cases hb : b = 0
    · rw [Set.ncard_eq_zero (Set.toFinite _) |>.mpr]
      · omega
      · rw [Set.eq_empty_iff_forall_notMem]
        intro x hx
        have hx : a + b * el x.1 + c * el x.2 = 0 := hx
        rw [hb, hc, zero_mul, zero_mul, add_zero, add_zero] at hx
        exact h (by rw [hx, hb, hc]; rfl)
    · refine (ncard_le_card _ Prod.snd ?_).trans hcard.le
      rintro ⟨x, y⟩ hx ⟨x', y'⟩ hy hxy
      have hx : a + b * el x + c * el y = 0 := hx
      have hy : a + b * el x' + c * el y' = 0 := hy
      have hxy : y = y' := hxy
      subst hxy
      rw [el_inj (mul_left_cancel₀ hb (show b * el x = b * el x' by linear_combination hx - hy))]
  · refine (ncard_le_card _ Prod.fst ?_).trans hcard.le
    rintro ⟨x, y⟩ hx ⟨x', y'⟩ hy hxy
    have hx : a + b * el x + c * el y = 0 := hx
    have hy : a + b * el x' + c * el y' = 0 := hy
    have hxy : x = x' := hxy
    subst hxy
    rw [el_inj (mul_left_cancel₀ hc (show c * el y = c * el y' by linear_combination hx - hy))]

private theorem lin3 (a b c d : ZMod n) (h : (a, b, c, d) ≠ 0) :
    {x : Fin n × Fin n × Fin n | a + b * el x.1 + c * el x.2.1 + d * el x.2.2 = 0}.ncard ≤ n * n := by
  have hcard : Nat.card (Fin n × Fin n) = n * n := by simp
  by_cases hd : d = 0
  · by_cases hc : c = 0
    · by_cases hb : b = 0
      · rw [Set.ncard_eq_zero (Set.toFinite _) |>.mpr]
        · omega
        · rw [Set.eq_empty_iff_forall_notMem]
          intro x hx
          have hx : a + b * el x.1 + c * el x.2.1 + d * el x.2.2 = 0 := hx
          rw [hb, hc, hd, zero_mul, zero_mul, zero_mul, add_zero, add_zero, add_zero] at hx
          exact h (by rw [hx, hb, hc, hd]; rfl)
      · refine (ncard_le_card _ Prod.snd ?_).trans hcard.le
        rintro ⟨x, y⟩ hx ⟨x', y'⟩ hy hxy
        have hx : a + b * el x + c * el y.1 + d * el y.2 = 0 := hx
        have hy : a + b * el x' + c * el y'.1 + d * el y'.2 = 0 := hy
        have hxy : y = y' := hxy
        subst hxy
        rw [el_inj (mul_left_cancel₀ hb (show b * el x = b * el x' by linear_combination hx - hy))]
    · refine (ncard_le_card _ (fun x => (x.1, x.2.2)) ?_).trans hcard.le
      rintro ⟨x, y, z⟩ hx ⟨x', y', z'⟩ hy hxy
      have hx : a + b * el x + c * el y + d * el z = 0 := hx
      have hy : a + b * el x' + c * el y' + d * el z' = 0 := hy
      obtain ⟨rfl, rfl⟩ : x = x' ∧ z = z' := Prod.mk.inj hxy
      rw [el_inj (mul_left_cancel₀ hc (show c * el y = c * el y' by linear_combination hx - hy))]
  · refine (ncard_le_card _ (fun x => (x.1, x.2.1)) ?_).trans hcard.le
    rintro ⟨x, y, z⟩ hx ⟨x', y', z'⟩ hy hxy
    have hx : a + b * el x + c * el y + d * el z = 0 := hx
    have hy : a + b * el x' + c * el y' + d * el z' = 0 := hy
    obtain ⟨rfl, rfl⟩ : x = x' ∧ y = y' := Prod.mk.inj hxy
    rw [el_inj (mul_left_cancel₀ hd (show d * el z = d * el z' by linear_combination hx - hy))]

private theorem bilin (a b c d : ZMod n) (h : (a, b, c, d) ≠ 0) :
    {x : Fin n × Fin n | a + b * el x.1 + c * el x.2 + d * (el x.1 * el x.2) = 0}.ncard ≤ 2 * n := by
  have hcard : Nat.card (Fin n) = n := by simp
  by_cases hd : d = 0
  · have := lin2 a b c (by
      rintro ⟨⟩
      exact h (by rw [hd]; rfl))
    subst hd
    simp only [zero_mul, add_zero]
    omega
  · have hsub : {x : Fin n × Fin n | a + b * el x.1 + c * el x.2 + d * (el x.1 * el x.2) = 0} ⊆
        {x | a + b * el x.1 + c * el x.2 + d * (el x.1 * el x.2) = 0 ∧ b + d * el x.2 ≠ 0} ∪ {x | b + d * el x.2 = 0} := by
      intro x hx
      by_cases h0 : b + d * el x.2 = 0
      · exact .inr h0
      · exact .inl ⟨hx, h0⟩
    refine (Set.ncard_le_ncard hsub (Set.toFinite _)).trans ((Set.ncard_union_le _ _).trans ?_)
    have h1 : {x : Fin n × Fin n | a + b * el x.1 + c * el x.2 + d * (el x.1 * el x.2) = 0 ∧ b + d * el x.2 ≠ 0}.ncard ≤ n := by
      refine (ncard_le_card _ Prod.snd ?_).trans hcard.le
      rintro ⟨x, y⟩ hx ⟨x', y'⟩ hy hxy
      obtain ⟨hx, hne⟩ : a + b * el x + c * el y + d * (el x * el y) = 0 ∧ b + d * el y ≠ 0 := hx
      have hy : a + b * el x' + c * el y' + d * (el x' * el y') = 0 := hy.1
      have hxy : y = y' := hxy
      subst hxy
      rw [el_inj (mul_left_cancel₀ hne (show (b + d * el y) * el x = (b + d * el y) * el x' by linear_combination hx - hy))]
    have h2 : {x : Fin n × Fin n | b + d * el x.2 = 0}.ncard ≤ n := by
      refine (ncard_le_card _ Prod.fst ?_).trans hcard.le
      rintro ⟨x, y⟩ hx ⟨x', y'⟩ hy hxy
      have hx : b + d * el y = 0 := hx
      have hy : b + d * el y' = 0 := hy
      have hxy : x = x' := hxy
      rw [hxy, el_inj (mul_left_cancel₀ hd (show d * el y = d * el y' by linear_combination hx - hy))]
    omega

end forms

/-! ### The points of a curve -/

/-- Everything the proofs need about a shipped curve and a point. -/
private structure Setting (K : WClass) (oid : Nat) (P : WPoint) (n p : Nat) [Fact p.Prime] : Type where
  hn : (K.instance oid).n = n
  prime : n.Prime
  two : n ≠ 2
  good : Good (K.instance oid) p
  all : ∀ U : (wCurve p (K.instance oid).a (K.instance oid).b).Point, n • U = 0
  Q : (wCurve p (K.instance oid).a (K.instance oid).b).Point
  st : Stands (K.instance oid) p P Q
  y : InRange p P.y
  ne : Q ≠ 0

private theorem setting {K : WClass} (hK : K ∈ primeOrderClasses) {oid : Nat} {P : WPoint} (hP : ReducedPoint K oid P)
    (hfin : P ≠ (K.instance oid).identity) {n : Nat} (hn : K.n = n) :
    ∃ p, ∃ _ : Fact p.Prime, Nonempty (Setting K oid P n p) := by
  obtain ⟨p, n', e1, e2, hp, h2, hn', hn2, -, hd, -, -, -, -, -, hg⟩ := C95_parameters K hK
  have : Fact p.Prime := ⟨hp⟩
  obtain rfl : n' = n := by exact_mod_cast e2.symm.trans hn
  have g : Good (K.instance oid) p := ⟨e1, h2, hd⟩
  obtain ⟨Q, s⟩ := stands_of_onCurve g P hP.1 hP.2.1 (fun v hv => by rw [← e1]; exact hP.2.2.1 v hv)
  obtain ⟨-, G, -, hG, hm⟩ := hg this
  refine ⟨p, this, ⟨⟨e2, hn', hn2, g, fun U => ?_, Q, s, fun v hv => by rw [← e1]; exact hP.2.2.2 v hv, ?_⟩⟩⟩
  · obtain ⟨k, hk⟩ := hm U
    have h0 : n' • (k • G) = 0 := by rw [smul_comm, ← hG, addOrderOf_nsmul_eq_zero, smul_zero]
    rw [hk]
    exact h0
  · rintro rfl
    exact hfin (stands_zero s)

namespace Setting
variable {K : WClass} {oid : Nat} {P : WPoint} {n p : Nat} [Fact p.Prime] (t : Setting K oid P n p)
include t

private theorem order : addOrderOf t.Q = n := by
  have : Fact n.Prime := ⟨t.prime⟩
  exact addOrderOf_eq_prime (t.all _) t.ne

private theorem mul (k : Int) : ∃ X, P.mul k = .ok X ∧ Marks (K.instance oid) p (k • t.Q, false) X := by
  obtain ⟨X, h1, h2, h3⟩ := mul_stands t.good t.st n t.hn (t.prime.eq_two_or_odd.resolve_left t.two) (.inl t.order) k
  exact ⟨X, h1, h2, fun _ => rfl, fun _ => h3 t.y, fun h => by cases h⟩

private theorem self : Marks (K.instance oid) p (t.Q, false) P :=
  ⟨t.st, fun _ => rfl, fun _ => t.y, fun h => by cases h⟩

/-- Multiples of the point, for scalars modulo `n`. -/
private noncomputable def hom : ZMod n →+ (wCurve p (K.instance oid).a (K.instance oid).b).Point :=
  ZMod.lift n ⟨zmultiplesHom _ t.Q, by simpa using t.all t.Q⟩

private theorem hom_int (k : Int) : t.hom k = k • t.Q := by
  rw [hom, ZMod.lift_coe]
  rfl

private theorem hom_inj : Function.Injective t.hom := by
  rw [hom, ZMod.lift_injective]
  intro k hk
  have hk : k • t.Q = 0 := hk
  rw [ZMod.intCast_zmod_eq_zero_iff_dvd, ← t.order]
  exact addOrderOf_dvd_iff_zsmul_eq_zero.mpr hk

/-- What a program sees of the points whose scalars are values of linear forms. -/
private theorem sees {F : Type} [AddCommGroup F] (A : List (Option Nat) → PointCmd) (q : Nat) (fs : List F) (h0 : (0 : F) ∈ fs)
    (ev : F →+ ZMod n) (ps : List WPoint)
    (hps : List.Forall₂ (fun f X => Marks (K.instance oid) p (t.hom (ev f), false) X) fs ps)
    (hinj : ∀ f ∈ elems (runPoints (marked F n) A q (fs.map fun f => some (f, false))),
      ∀ g ∈ elems (runPoints (marked F n) A q (fs.map fun f => some (f, false))), ev f = ev g → f = g) :
    pointView pointOps (runPoints pointOps A q (ps.map some)) =
      pointView (marked F n) (runPoints (marked F n) A q (fs.map fun f => some (f, false))) ∧
    List.Forall₂ (OptRel fun a X => Marks (K.instance oid) p (t.hom (ev a.1), a.2) X)
      (runPoints (marked F n) A q (fs.map fun f => some (f, false))) (runPoints pointOps A q (ps.map some)) := by
  have hmem : (0 : F) ∈ elems (runPoints (marked F n) A q (fs.map fun f => some (f, false))) :=
    mem_elems (a := (0, false)) ((runPoints_prefix _ A q _).subset (List.mem_map.mpr ⟨0, h0, rfl⟩))
  have al := (marked_alike n (t.hom.comp ev) (elems (runPoints (marked F n) A q (fs.map fun f => some (f, false))))
    hmem (fun f hf g hg h => hinj f hf g hg (t.hom_inj h))).trans
      (points_alike t.good n t.hn t.prime t.two t.all)
  obtain ⟨h1, h2⟩ := run_rel al A q (fs.map fun f => some (f, false)) (ps.map some) (by
    rw [List.forall₂_map_left_iff, List.forall₂_map_right_iff]
    exact hps.imp fun f X h => ⟨_, rfl, h⟩) (fun a ha => mem_elems ha)
  refine ⟨h2.symm, h1.imp fun o o' h => ?_⟩
  cases o <;> cases o'
  · trivial
  · exact h.elim
  · exact h.elim
  · obtain ⟨b, rfl, hb⟩ := h
    exact hb

end Setting

/-- C179: a program that gets `P` and `X = x * P` on a shipped curve of prime order `n`, uses points only through their
operators and `==`, may use exceptions, and makes `q` operations in any order, finds `x` for at most `(q+3)(q+2)/2 + 1` of
the `n` values of `x`, whatever it computes otherwise. -/
theorem C179_discrete_logarithm (K : WClass) (hK : K ∈ primeOrderClasses) (oid : Nat) (P : WPoint) (hP : ReducedPoint K oid P)
    (hfin : P ≠ (K.instance oid).identity) (n : Nat) (hn : K.n = n) (A : List (Option Nat) → PointCmd)
    (guess : List (Option Nat) → Int) (q : Nat) :
    {x : Fin n | ∃ X, P.mul x = .ok X ∧ (n : Int) ∣ guess (pointView pointOps (runPoints pointOps A q
      [some (K.instance oid).identity, some P, some X])) - x}.ncard ≤ (q + 3).choose 2 + 1 := by
  obtain ⟨p, hp, ⟨t⟩⟩ := setting hK hP hfin hn
  have : Fact n.Prime := ⟨t.prime⟩
  have : NeZero n := ⟨t.prime.ne_zero⟩
  let fs : List (ZMod n × ZMod n) := [(0, 0), (1, 0), (0, 1)]
  let R := runPoints (marked (ZMod n × ZMod n) n) A q (fs.map fun f => some (f, false))
  let ev : Fin n → (ZMod n × ZMod n →+ ZMod n) := fun x =>
    AddMonoidHom.fst _ _ + (AddMonoidHom.mulRight (el x)).comp (AddMonoidHom.snd _ _)
  have hev : ∀ x f, ev x f = f.1 + f.2 * el x := fun x f => rfl
  have hbad := collisions (elems R) (fun x => ev x) 1 (by
    intro f g hne
    refine le_trans (le_of_eq ?_) (lin1 (f.1 - g.1) (f.2 - g.2) ?_)
    · congr 1
      ext x
      change ev x f = ev x g ↔ _ = _
      rw [hev, hev, ← sub_eq_zero]
      constructor <;> intro h <;> linear_combination h
    · intro h
      exact hne (sub_eq_zero.mp h))
  have hlen : (elems R).card ≤ q + 3 := (card_elems _).trans (by rw [runPoints_length]; simp [fs]; omega)
  have hsub : {x : Fin n | ∃ X, P.mul x = .ok X ∧ (n : Int) ∣ guess (pointView pointOps (runPoints pointOps A q
      [some (K.instance oid).identity, some P, some X])) - x} ⊆
      {x | ¬ ∀ f ∈ elems R, ∀ g ∈ elems R, ev x f = ev x g → f = g} ∪
        {x | (n : Int) ∣ guess (pointView (marked _ n) R) - x} := by
    rintro x ⟨X, hX, hd⟩
    by_cases hinj : ∀ f ∈ elems R, ∀ g ∈ elems R, ev x f = ev x g → f = g
    · right
      obtain ⟨X', hX', mX⟩ := t.mul x
      obtain rfl : X' = X := by rw [hX] at hX'; exact (Except.ok.inj hX').symm
      have := (t.sees A q fs List.mem_cons_self (ev x) [(K.instance oid).identity, P, X'] (by
        refine .cons ?_ (.cons ?_ (.cons ?_ .nil))
        · rw [hev]
          simpa using identity_marks (p := p) (K.instance oid)
        · have : t.hom (ev x (1, 0)) = t.Q := by
            rw [hev, show (1 : ZMod n) + 0 * el x = ((1 : Int) : ZMod n) by push_cast; ring, t.hom_int, one_zsmul]
          rw [this]
          exact t.self
        · have : t.hom (ev x (0, 1)) = ((x : Nat) : Int) • t.Q := by
            rw [hev, show (0 : ZMod n) + 1 * el x = (((x : Nat) : Int) : ZMod n) by rw [el]; push_cast; ring, t.hom_int]
          rw [this]
          exact mX) hinj).1
      change (n : Int) ∣ guess (pointView pointOps (runPoints pointOps A q ([_, P, X'].map some))) - _ at hd
      rw [this] at hd
      exact hd
    · exact .inl hinj
  refine (Set.ncard_le_ncard hsub (Set.toFinite _)).trans ((Set.ncard_union_le _ _).trans (Nat.add_le_add ?_ ?_))
  · refine hbad.trans ?_
    rw [mul_one]
    exact Nat.choose_le_choose 2 hlen
  · refine le_trans (Set.ncard_le_ncard ?_ (Set.toFinite _)) (lin1 (n := n) ((guess (pointView (marked _ n) R) : Int) : ZMod n) (-1)
      (by intro h; exact one_ne_zero (neg_eq_zero.mp (Prod.ext_iff.mp h).2)))
    intro x hx
    have hx : (n : Int) ∣ guess (pointView (marked _ n) R) - ((x : Nat) : Int) := hx
    rw [← ZMod.intCast_zmod_eq_zero_iff_dvd] at hx
    push_cast at hx
    change _ + -1 * el x = 0
    rw [el, neg_one_mul, ← sub_eq_add_neg]
    exact hx

-- The generators are such points; on SECP_256k1, programs of 2^64 operations find less than one in 2^128 of the private keys.
example (oid : Nat) (A : List (Option Nat) → PointCmd) (guess : List (Option Nat) → Int) :
    ∃ G, SECP_256k1.generator oid = .ok G ∧ {x : Fin SECP_256k1.n.toNat | ∃ X, G.mul x = .ok X ∧
      (SECP_256k1.n.toNat : Int) ∣ guess (pointView pointOps (runPoints pointOps A (2 ^ 64)
        [some (SECP_256k1.instance oid).identity, some G, some X])) - x}.ncard * 2 ^ 127 < SECP_256k1.n.toNat := by
  have hK : SECP_256k1 ∈ primeOrderClasses := by simp [primeOrderClasses]
  obtain ⟨-, -, -, -, -, -, -, -, -, -, -, -, -, -, hG, -⟩ := C95_parameters _ hK
  obtain ⟨-, -, -, -, -, -, h1, h2, h3, h4, h5⟩ := gen_facts hK (hG oid)
  refine ⟨_, hG oid, ?_⟩
  have h := C179_discrete_logarithm _ hK oid _ ⟨h1, h2, h3, h4⟩ h5 SECP_256k1.n.toNat (by decide +kernel) A guess (2 ^ 64)
  rw [Nat.choose_two_right] at h
  refine lt_of_le_of_lt (Nat.mul_le_mul_right _ h) (by decide +kernel)

/-- Two points with the same x-coordinate are equal or negatives of each other. -/
private theorem stands_same_x {c : WCurve} {p : Nat} [Fact p.Prime] {S Z : WPoint} {U V : (wCurve p c.a c.b).Point}
    (hS : Stands c p S U) (hZ : Stands c p Z V) (h : S.x = Z.x) : U = V ∨ U = -V := by
  obtain ⟨-, rS, -⟩ := hS
  obtain ⟨-, rZ, -⟩ := hZ
  obtain ⟨c1, x, y⟩ := S
  obtain ⟨c2, x', y'⟩ := Z
  simp only at rS rZ h
  subst h
  cases rS with
  | infinity => cases rZ; exact .inl rfl
  | affine x y hxy =>
    cases rZ with
    | affine _ y' hxy' =>
      rcases Affine.Y_eq_of_X_eq hxy.1 hxy'.1 rfl with e | e
      · left
        rw [Affine.Point.some.injEq]
        exact ⟨rfl, e⟩
      · right
        rw [Affine.Point.neg_some, Affine.Point.some.injEq]
        exact ⟨rfl, e⟩

/-- C179: a program that gets `P`, `X = x * P` and `Y = y * P`, uses points only through their operators and `==`, and makes
`q` operations in any order, ends with a point with the x-coordinate of `(x*y) * P`, the shared secret of a Diffie-Hellman exchange,
for at most `((q+4)(q+3)/2 + 4) * n` of the `n * n` pairs `(x, y)`. -/
theorem C179_shared_secret (K : WClass) (hK : K ∈ primeOrderClasses) (oid : Nat) (P : WPoint) (hP : ReducedPoint K oid P)
    (hfin : P ≠ (K.instance oid).identity) (n : Nat) (hn : K.n = n) (A : List (Option Nat) → PointCmd)
    (out : List (Option Nat) → Nat) (q : Nat) :
    {x : Fin n × Fin n | ∃ X Y Z S, P.mul x.1 = .ok X ∧ P.mul x.2 = .ok Y ∧ P.mul (x.1 * x.2) = .ok Z ∧
      (runPoints pointOps A q [some (K.instance oid).identity, some P, some X, some Y])[out (pointView pointOps
        (runPoints pointOps A q [some (K.instance oid).identity, some P, some X, some Y]))]? = some (some S) ∧
      S.x = Z.x}.ncard ≤ ((q + 4).choose 2 + 4) * n := by
  obtain ⟨p, hp, ⟨t⟩⟩ := setting hK hP hfin hn
  have : Fact n.Prime := ⟨t.prime⟩
  have : NeZero n := ⟨t.prime.ne_zero⟩
  let fs : List (ZMod n × ZMod n × ZMod n) := [(0, 0, 0), (1, 0, 0), (0, 1, 0), (0, 0, 1)]
  let R := runPoints (marked (ZMod n × ZMod n × ZMod n) n) A q (fs.map fun f => some (f, false))
  let ev : Fin n × Fin n → (ZMod n × ZMod n × ZMod n →+ ZMod n) := fun x =>
    AddMonoidHom.fst _ _ + (AddMonoidHom.mulRight (el x.1)).comp ((AddMonoidHom.fst _ _).comp (AddMonoidHom.snd _ _)) +
      (AddMonoidHom.mulRight (el x.2)).comp ((AddMonoidHom.snd _ _).comp (AddMonoidHom.snd _ _))
  have hev : ∀ x f, ev x f = f.1 + f.2.1 * el x.1 + f.2.2 * el x.2 := fun x f => rfl
  have hbad := collisions (elems R) (fun x => ev x) n (by
    intro f g hne
    refine le_trans (le_of_eq ?_) (lin2 (f.1 - g.1) (f.2.1 - g.2.1) (f.2.2 - g.2.2) ?_)
    · congr 1
      ext x
      change ev x f = ev x g ↔ _ = _
      rw [hev, hev, ← sub_eq_zero]
      constructor <;> intro h <;> linear_combination h
    · intro h
      exact hne (sub_eq_zero.mp h))
  have hlen : (elems R).card ≤ q + 4 := (card_elems _).trans (by rw [runPoints_length]; simp [fs]; omega)
  let f : ZMod n × ZMod n × ZMod n := ((R[out (pointView (marked _ n) R)]?.getD none).getD (0, false)).1
  have hsub : {x : Fin n × Fin n | ∃ X Y Z S, P.mul x.1 = .ok X ∧ P.mul x.2 = .ok Y ∧ P.mul (x.1 * x.2) = .ok Z ∧
      (runPoints pointOps A q [some (K.instance oid).identity, some P, some X, some Y])[out (pointView pointOps
        (runPoints pointOps A q [some (K.instance oid).identity, some P, some X, some Y]))]? = some (some S) ∧
      S.x = Z.x} ⊆
      {x | ¬ ∀ f ∈ elems R, ∀ g ∈ elems R, ev x f = ev x g → f = g} ∪
        ({x | f.1 + f.2.1 * el x.1 + f.2.2 * el x.2 + -1 * (el x.1 * el x.2) = 0} ∪
         {x | f.1 + f.2.1 * el x.1 + f.2.2 * el x.2 + 1 * (el x.1 * el x.2) = 0}) := by
    rintro x ⟨X, Y, Z, S, hX, hY, hZ, hS, hSZ⟩
    by_cases hinj : ∀ f ∈ elems R, ∀ g ∈ elems R, ev x f = ev x g → f = g
    · right
      obtain ⟨X', hX', mX⟩ := t.mul x.1
      obtain rfl : X' = X := by rw [hX] at hX'; exact (Except.ok.inj hX').symm
      obtain ⟨Y', hY', mY⟩ := t.mul x.2
      obtain rfl : Y' = Y := by rw [hY] at hY'; exact (Except.ok.inj hY').symm
      obtain ⟨Z', hZ', mZ⟩ := t.mul (x.1 * x.2)
      obtain rfl : Z' = Z := by rw [hZ] at hZ'; exact (Except.ok.inj hZ').symm
      obtain ⟨hv, hr⟩ := t.sees A q fs List.mem_cons_self (ev x) [(K.instance oid).identity, P, X', Y'] (by
        refine .cons ?_ (.cons ?_ (.cons ?_ (.cons ?_ .nil)))
        · rw [hev]
          simpa using identity_marks (p := p) (K.instance oid)
        · have : t.hom (ev x (1, 0, 0)) = t.Q := by
            rw [hev, show (1 : ZMod n) + 0 * el x.1 + 0 * el x.2 = ((1 : Int) : ZMod n) by push_cast; ring, t.hom_int, one_zsmul]
          rw [this]
          exact t.self
        · have : t.hom (ev x (0, 1, 0)) = ((x.1 : Nat) : Int) • t.Q := by
            rw [hev, show (0 : ZMod n) + 1 * el x.1 + 0 * el x.2 = (((x.1 : Nat) : Int) : ZMod n) by rw [el]; push_cast; ring,
              t.hom_int]
          rw [this]
          exact mX
        · have : t.hom (ev x (0, 0, 1)) = ((x.2 : Nat) : Int) • t.Q := by
            rw [hev, show (0 : ZMod n) + 0 * el x.1 + 1 * el x.2 = (((x.2 : Nat) : Int) : ZMod n) by
              rw [el, el]; push_cast; ring, t.hom_int]
          rw [this]
          exact mY) hinj
      change (runPoints pointOps A q ([_, P, X', Y'].map some))[out (pointView pointOps
        (runPoints pointOps A q ([_, P, X', Y'].map some)))]? = _ at hS
      rw [hv] at hS
      change (runPoints pointOps A q ([_, P, X', Y'].map some))[out (pointView (marked _ n) R)]? = _ at hS
      have hg := rel_getD hr (out (pointView (marked _ n) R))
      rw [List.getD_eq_getElem?_getD, List.getD_eq_getElem?_getD, hS] at hg
      change OptRel _ (R[out (pointView (marked _ n) R)]?.getD none) (some S) at hg
      have hf : Stands (K.instance oid) p S (t.hom (ev x f)) := by
        change Stands (K.instance oid) p S (t.hom (ev x ((R[out (pointView (marked _ n) R)]?.getD none).getD (0, false)).1))
        cases ho : R[out (pointView (marked _ n) R)]?.getD none with
        | none => rw [ho] at hg; exact hg.elim
        | some a => rw [ho] at hg; exact hg.stands
      have hz : Stands (K.instance oid) p Z' (t.hom (el x.1 * el x.2)) := by
        have := mZ.stands
        rw [← t.hom_int] at this
        simpa [el] using this
      rcases stands_same_x hf hz hSZ with h | h
      · left
        have := t.hom_inj h
        rw [hev] at this
        change _ = _
        linear_combination this
      · right
        rw [← map_neg] at h
        have := t.hom_inj h
        rw [hev] at this
        change _ = _
        linear_combination this
    · exact .inl hinj
  refine (Set.ncard_le_ncard hsub (Set.toFinite _)).trans ((Set.ncard_union_le _ _).trans ?_)
  rw [Nat.add_mul]
  refine Nat.add_le_add ?_ ?_
  · exact hbad.trans (Nat.mul_le_mul_right _ (Nat.choose_le_choose 2 hlen))
  · refine (Set.ncard_union_le _ _).trans ?_
    have h1 := bilin f.1 f.2.1 f.2.2 (-1) (by
      intro h
      exact one_ne_zero (neg_eq_zero.mp (congrArg (fun u : ZMod n × ZMod n × ZMod n × ZMod n => u.2.2.2) h)))
    have h2 := bilin f.1 f.2.1 f.2.2 1 (by
      intro h
      exact one_ne_zero (congrArg (fun u : ZMod n × ZMod n × ZMod n × ZMod n => u.2.2.2) h))
    omega

-- On SECP_256k1, programs of 2^64 operations find less than one in 2^127 of the shared secrets.
example (oid : Nat) (A : List (Option Nat) → PointCmd) (out : List (Option Nat) → Nat) :
    ∃ G, SECP_256k1.generator oid = .ok G ∧ {x : Fin SECP_256k1.n.toNat × Fin SECP_256k1.n.toNat | ∃ X Y Z S, G.mul x.1 = .ok X ∧
      G.mul x.2 = .ok Y ∧ G.mul (x.1 * x.2) = .ok Z ∧
      (runPoints pointOps A (2 ^ 64) [some (SECP_256k1.instance oid).identity, some G, some X, some Y])[out (pointView pointOps
        (runPoints pointOps A (2 ^ 64) [some (SECP_256k1.instance oid).identity, some G, some X, some Y]))]? = some (some S) ∧
      S.x = Z.x}.ncard * 2 ^ 127 < SECP_256k1.n.toNat * SECP_256k1.n.toNat := by
  have hK : SECP_256k1 ∈ primeOrderClasses := by simp [primeOrderClasses]
  obtain ⟨-, -, -, -, -, -, -, -, -, -, -, -, -, -, hG, -⟩ := C95_parameters _ hK
  obtain ⟨-, -, -, -, -, -, h1, h2, h3, h4, h5⟩ := gen_facts hK (hG oid)
  refine ⟨_, hG oid, ?_⟩
  have h := C179_shared_secret _ hK oid _ ⟨h1, h2, h3, h4⟩ h5 SECP_256k1.n.toNat (by decide +kernel) A out (2 ^ 64)
  rw [Nat.choose_two_right] at h
  refine lt_of_le_of_lt (Nat.mul_le_mul_right _ h) (by decide +kernel)

/-- A set that agrees with a constant outside a small set. -/
private theorem ncard_const {X : Type} [Finite X] (S B : Set X) (g : Bool) (h : ∀ x ∉ B, (x ∈ S ↔ g = true)) :
    (g = true → Nat.card X ≤ S.ncard + B.ncard) ∧ (g = false → S.ncard ≤ B.ncard) ∧ S.ncard ≤ Nat.card X := by
  refine ⟨?_, ?_, ?_⟩
  · rintro rfl
    rw [← Set.ncard_univ]
    refine (Set.ncard_le_ncard (t := S ∪ B) ?_ (Set.toFinite _)).trans (Set.ncard_union_le _ _)
    intro x _
    by_cases hx : x ∈ B
    · exact .inr hx
    · exact .inl ((h x hx).mpr rfl)
  · rintro rfl
    refine Set.ncard_le_ncard ?_ (Set.toFinite _)
    intro x hx
    by_contra hb
    cases (h x hb).mp hx
  · rw [← Set.ncard_univ]
    exact Set.ncard_le_ncard (Set.subset_univ _) (Set.toFinite _)

/-- C179: a program that gets `P`, `X = x * P`, `Y = y * P` and `Z`, uses points only through their operators and `==`, and makes
`q` operations in any order, hardly tells `Z = (x*y) * P` from `Z = z * P` for an unrelated `z`: the number of pairs `(x, y)` for
which it says yes in the first case, times `n`, and the number of triples `(x, y, z)` for which it says yes in the second case differ
by at most `(q+5)(q+4) * n * n`, of `n * n * n`. -/
theorem C179_decision (K : WClass) (hK : K ∈ primeOrderClasses) (oid : Nat) (P : WPoint) (hP : ReducedPoint K oid P)
    (hfin : P ≠ (K.instance oid).identity) (n : Nat) (hn : K.n = n) (A : List (Option Nat) → PointCmd)
    (yes : List (Option Nat) → Bool) (q : Nat) (real : Set (Fin n × Fin n)) (rand : Set (Fin n × Fin n × Fin n))
    (hreal : ∀ x y, (x, y) ∈ real ↔ ∃ X Y Z, P.mul x = .ok X ∧ P.mul y = .ok Y ∧ P.mul (x * y) = .ok Z ∧
      yes (pointView pointOps (runPoints pointOps A q
        [some (K.instance oid).identity, some P, some X, some Y, some Z])) = true)
    (hrand : ∀ x y z, (x, y, z) ∈ rand ↔ ∃ X Y Z, P.mul x = .ok X ∧ P.mul y = .ok Y ∧ P.mul z = .ok Z ∧
      yes (pointView pointOps (runPoints pointOps A q
        [some (K.instance oid).identity, some P, some X, some Y, some Z])) = true) :
    real.ncard * n ≤ rand.ncard + 2 * (q + 5).choose 2 * (n * n) ∧
    rand.ncard ≤ real.ncard * n + 2 * (q + 5).choose 2 * (n * n) := by
  obtain ⟨p, hp, ⟨t⟩⟩ := setting hK hP hfin hn
  have : Fact n.Prime := ⟨t.prime⟩
  have : NeZero n := ⟨t.prime.ne_zero⟩
  let F := ZMod n × ZMod n × ZMod n × ZMod n
  let fs : List F := [(0, 0, 0, 0), (1, 0, 0, 0), (0, 1, 0, 0), (0, 0, 1, 0), (0, 0, 0, 1)]
  let R := runPoints (marked F n) A q (fs.map fun f => some (f, false))
  let ev : ZMod n → ZMod n → ZMod n → (F →+ ZMod n) := fun x y z =>
    AddMonoidHom.fst _ _ + (AddMonoidHom.mulRight x).comp ((AddMonoidHom.fst _ _).comp (AddMonoidHom.snd _ _)) +
      (AddMonoidHom.mulRight y).comp ((AddMonoidHom.fst _ _).comp ((AddMonoidHom.snd _ _).comp (AddMonoidHom.snd _ _))) +
      (AddMonoidHom.mulRight z).comp ((AddMonoidHom.snd _ _).comp ((AddMonoidHom.snd _ _).comp (AddMonoidHom.snd _ _)))
  have hev : ∀ x y z f, ev x y z f = f.1 + f.2.1 * x + f.2.2.1 * y + f.2.2.2 * z := fun x y z f => rfl
  have hlen : (elems R).card ≤ q + 5 := (card_elems _).trans (by rw [runPoints_length]; simp [fs]; omega)
  have hbad1 := collisions (elems R) (fun x : Fin n × Fin n => ev (el x.1) (el x.2) (el x.1 * el x.2)) (2 * n) (by
    intro f g hne
    refine le_trans (le_of_eq ?_) (bilin (f.1 - g.1) (f.2.1 - g.2.1) (f.2.2.1 - g.2.2.1) (f.2.2.2 - g.2.2.2) ?_)
    · congr 1
      ext x
      change ev _ _ _ f = ev _ _ _ g ↔ _ = _
      rw [hev, hev, ← sub_eq_zero]
      constructor <;> intro h <;> linear_combination h
    · intro h
      exact hne (sub_eq_zero.mp h))
  have hbad2 := collisions (elems R) (fun x : Fin n × Fin n × Fin n => ev (el x.1) (el x.2.1) (el x.2.2)) (n * n) (by
    intro f g hne
    refine le_trans (le_of_eq ?_) (lin3 (f.1 - g.1) (f.2.1 - g.2.1) (f.2.2.1 - g.2.2.1) (f.2.2.2 - g.2.2.2) ?_)
    · congr 1
      ext x
      change ev _ _ _ f = ev _ _ _ g ↔ _ = _
      rw [hev, hev, ← sub_eq_zero]
      constructor <;> intro h <;> linear_combination h
    · intro h
      exact hne (sub_eq_zero.mp h))
  have key : ∀ x y z : Int, (∀ f ∈ elems R, ∀ g ∈ elems R, ev x y z f = ev x y z g → f = g) → ∀ X Y Z, P.mul x = .ok X →
      P.mul y = .ok Y → P.mul z = .ok Z → pointView pointOps (runPoints pointOps A q
        [some (K.instance oid).identity, some P, some X, some Y, some Z]) = pointView (marked F n) R := by
    intro x y z hinj X Y Z hX hY hZ
    obtain ⟨X', hX', mX⟩ := t.mul x
    obtain rfl : X' = X := by rw [hX] at hX'; exact (Except.ok.inj hX').symm
    obtain ⟨Y', hY', mY⟩ := t.mul y
    obtain rfl : Y' = Y := by rw [hY] at hY'; exact (Except.ok.inj hY').symm
    obtain ⟨Z', hZ', mZ⟩ := t.mul z
    obtain rfl : Z' = Z := by rw [hZ] at hZ'; exact (Except.ok.inj hZ').symm
    refine (t.sees A q fs List.mem_cons_self (ev x y z) [(K.instance oid).identity, P, X', Y', Z'] ?_ hinj).1
    refine .cons ?_ (.cons ?_ (.cons ?_ (.cons ?_ (.cons ?_ .nil))))
    · rw [hev]
      simpa using identity_marks (p := p) (K.instance oid)
    · have : t.hom (ev x y z (1, 0, 0, 0)) = t.Q := by
        rw [hev, show (1 : ZMod n) + 0 * x + 0 * y + 0 * z = ((1 : Int) : ZMod n) by push_cast; ring, t.hom_int, one_zsmul]
      rw [this]
      exact t.self
    · have : t.hom (ev x y z (0, 1, 0, 0)) = x • t.Q := by
        rw [hev, show (0 : ZMod n) + 1 * x + 0 * y + 0 * z = (x : ZMod n) by ring, t.hom_int]
      rw [this]
      exact mX
    · have : t.hom (ev x y z (0, 0, 1, 0)) = y • t.Q := by
        rw [hev, show (0 : ZMod n) + 0 * x + 1 * y + 0 * z = (y : ZMod n) by ring, t.hom_int]
      rw [this]
      exact mY
    · have : t.hom (ev x y z (0, 0, 0, 1)) = z • t.Q := by
        rw [hev, show (0 : ZMod n) + 0 * x + 0 * y + 1 * z = (z : ZMod n) by ring, t.hom_int]
      rw [this]
      exact mZ
  have hel : ∀ x : Fin n, el x = (((x : Nat) : Int) : ZMod n) := fun x => by rw [el]; push_cast; rfl
  have both : ∀ x y z : Int, (∀ f ∈ elems R, ∀ g ∈ elems R, ev x y z f = ev x y z g → f = g) →
      ((∃ X Y Z, P.mul x = .ok X ∧ P.mul y = .ok Y ∧ P.mul z = .ok Z ∧ yes (pointView pointOps (runPoints pointOps A q
        [some (K.instance oid).identity, some P, some X, some Y, some Z])) = true) ↔
          yes (pointView (marked F n) R) = true) := by
    intro x y z hinj
    constructor
    · rintro ⟨X, Y, Z, hX, hY, hZ, h⟩
      rwa [key x y z hinj X Y Z hX hY hZ] at h
    · intro h
      obtain ⟨X, hX, -⟩ := t.mul x
      obtain ⟨Y, hY, -⟩ := t.mul y
      obtain ⟨Z, hZ, -⟩ := t.mul z
      exact ⟨X, Y, Z, hX, hY, hZ, by rw [key x y z hinj X Y Z hX hY hZ]; exact h⟩
  have r1 := ncard_const real (g := yes (pointView (marked F n) R)) (B := {x : Fin n × Fin n | ¬ ∀ f ∈ elems R, ∀ g ∈ elems R,
      ev (el x.1) (el x.2) (el x.1 * el x.2) f = ev (el x.1) (el x.2) (el x.1 * el x.2) g → f = g}) (by
    rintro ⟨x, y⟩ hx
    rw [hreal]
    refine both _ _ _ ?_
    have hx : ¬ ¬ ∀ f ∈ elems R, ∀ g ∈ elems R, ev (el x) (el y) (el x * el y) f = ev (el x) (el y) (el x * el y) g → f = g := hx
    rw [not_not, hel, hel] at hx
    push_cast at hx ⊢
    exact hx)
  have r2 := ncard_const rand (g := yes (pointView (marked F n) R)) (B := {x : Fin n × Fin n × Fin n | ¬ ∀ f ∈ elems R,
      ∀ g ∈ elems R, ev (el x.1) (el x.2.1) (el x.2.2) f = ev (el x.1) (el x.2.1) (el x.2.2) g → f = g}) (by
    rintro ⟨x, y, z⟩ hx
    rw [hrand]
    refine both _ _ _ ?_
    have hx : ¬ ¬ ∀ f ∈ elems R, ∀ g ∈ elems R, ev (el x) (el y) (el z) f = ev (el x) (el y) (el z) g → f = g := hx
    rw [not_not, hel, hel, hel] at hx
    exact hx)
  have hc1 : Nat.card (Fin n × Fin n) = n * n := by simp
  have hc2 : Nat.card (Fin n × Fin n × Fin n) = n * (n * n) := by simp
  have b1 := hbad1.trans (Nat.mul_le_mul_right _ (Nat.choose_le_choose 2 hlen))
  have b2 := hbad2.trans (Nat.mul_le_mul_right _ (Nat.choose_le_choose 2 hlen))
  rw [hc1] at r1
  rw [hc2] at r2
  generalize (q + 5).choose 2 = C at b1 b2 ⊢
  generalize Set.ncard {x : Fin n × Fin n | ¬ ∀ f ∈ elems R, ∀ g ∈ elems R,
      ev (el x.1) (el x.2) (el x.1 * el x.2) f = ev (el x.1) (el x.2) (el x.1 * el x.2) g → f = g} = B1 at r1 b1
  generalize Set.ncard {x : Fin n × Fin n × Fin n | ¬ ∀ f ∈ elems R,
      ∀ g ∈ elems R, ev (el x.1) (el x.2.1) (el x.2.2) f = ev (el x.1) (el x.2.1) (el x.2.2) g → f = g} = B2 at r2 b2
  cases hy : yes (pointView (marked F n) R) with
  | true =>
    obtain ⟨h1, -, h2⟩ := r1
    obtain ⟨h3, -, h4⟩ := r2
    have h1 := h1 hy
    have h3 := h3 hy
    constructor <;> nlinarith [Nat.zero_le (C * (n * n))]
  | false =>
    obtain ⟨-, h1, -⟩ := r1
    obtain ⟨-, h3, -⟩ := r2
    have h1 := h1 hy
    have h3 := h3 hy
    constructor <;> nlinarith [Nat.zero_le (C * (n * n)), Nat.zero_le (real.ncard * n)]

-- On SECP_256k1, the shares of both cases for which a program of 2^64 operations says yes differ by less than 2^-125.
example (oid : Nat) (A : List (Option Nat) → PointCmd) (yes : List (Option Nat) → Bool) (G : WPoint)
    (hG : SECP_256k1.generator oid = .ok G) (n : Nat) (hn : n = SECP_256k1.n.toNat)
    (real : Set (Fin n × Fin n)) (rand : Set (Fin n × Fin n × Fin n))
    (hreal : real = {x : Fin n × Fin n | ∃ X Y Z, G.mul x.1 = .ok X ∧ G.mul x.2 = .ok Y ∧ G.mul (x.1 * x.2) = .ok Z ∧
      yes (pointView pointOps (runPoints pointOps A (2 ^ 64)
        [some (SECP_256k1.instance oid).identity, some G, some X, some Y, some Z])) = true})
    (hrand : rand = {x : Fin n × Fin n × Fin n | ∃ X Y Z, G.mul x.1 = .ok X ∧ G.mul x.2.1 = .ok Y ∧ G.mul x.2.2 = .ok Z ∧
      yes (pointView pointOps (runPoints pointOps A (2 ^ 64)
        [some (SECP_256k1.instance oid).identity, some G, some X, some Y, some Z])) = true}) :
    (real.ncard * n : Int) - rand.ncard < 2 ^ 130 * (n * n) := by
  have hK : SECP_256k1 ∈ primeOrderClasses := by simp [primeOrderClasses]
  obtain ⟨-, -, -, -, -, -, h1, h2, h3, h4, h5⟩ := gen_facts hK hG
  have hn' : SECP_256k1.n = n := by rw [hn]; decide +kernel
  have h0 : 0 < n := by rw [hn]; decide +kernel
  have h := (C179_decision _ hK oid _ ⟨h1, h2, h3, h4⟩ h5 n hn' A yes (2 ^ 64) real rand
    (fun x y => by rw [hreal]; rfl) (fun x y z => by rw [hrand]; rfl)).1
  rw [Nat.choose_two_right] at h
  have h0 : 0 < n * n := Nat.mul_pos h0 h0
  have h6 : 2 * ((2 ^ 64 + 5) * (2 ^ 64 + 5 - 1) / 2) * (n * n) < 2 ^ 130 * (n * n) :=
    Nat.mul_lt_mul_of_pos_right (by decide +kernel) h0
  zify at h h6
  linarith

/-- A point with an unknown scalar for each of several variables: an affine form that is not 0 has few zeros. -/
private theorem linMany {n s : Nat} [Fact n.Prime] (a : ZMod n) (b : Fin (s + 1) → ZMod n) (h : (a, b) ≠ 0) :
    {x : Fin (s + 1) → Fin n | a + ∑ i, b i * el (x i) = 0}.ncard ≤ n ^ s := by
  by_cases hb : b = 0
  · rw [(Set.ncard_eq_zero (Set.toFinite _)).mpr]
    · exact Nat.zero_le _
    · rw [Set.eq_empty_iff_forall_notMem]
      intro x hx
      have hx : a + ∑ i, b i * el (x i) = 0 := hx
      rw [hb] at hx
      simp only [Pi.zero_apply, zero_mul, Finset.sum_const_zero, add_zero] at hx
      exact h (by rw [hx, hb]; rfl)
  · obtain ⟨i, hi⟩ := Function.ne_iff.mp hb
    refine (ncard_le_card (Y := Fin s → Fin n) _ (fun x j => x (i.succAbove j)) ?_).trans (by simp)
    intro x hx y hy hxy
    have hx : a + ∑ i, b i * el (x i) = 0 := hx
    have hy : a + ∑ i, b i * el (y i) = 0 := hy
    have hj : ∀ j, x (i.succAbove j) = y (i.succAbove j) := fun j => congrFun hxy j
    rw [Fin.sum_univ_succAbove _ i] at hx hy
    simp only [hj] at hx
    have := el_inj (mul_left_cancel₀ hi (show b i * el (x i) = b i * el (y i) by linear_combination hx - hy))
    funext j
    rcases eq_or_ne j i with rfl | hne
    · exact this
    · obtain ⟨k, rfl⟩ := Fin.exists_succAbove_eq hne
      exact hj k

/-- C179: a program that gets `P` and `s + 1` public keys `x_0 * P`, ..., uses points only through their operators and `==`, makes `q`
operations in any order and then names one of the keys and its private key, is right for at most `((q+s+3)(q+s+2)/2 + 1) * n^s` of
the `n^(s+1)` lists of private keys: attacking many keys at once helps no more than as many further operations. -/
theorem C179_many_keys (K : WClass) (hK : K ∈ primeOrderClasses) (oid : Nat) (P : WPoint) (hP : ReducedPoint K oid P)
    (hfin : P ≠ (K.instance oid).identity) (n : Nat) (hn : K.n = n) (s : Nat) (A : List (Option Nat) → PointCmd)
    (guess : List (Option Nat) → Fin (s + 1) × Int) (q : Nat) :
    {x : Fin (s + 1) → Fin n | ∃ X : Fin (s + 1) → WPoint, (∀ i, P.mul (x i) = .ok (X i)) ∧
      ∃ v, v = pointView pointOps (runPoints pointOps A q
        (some (K.instance oid).identity :: some P :: (List.ofFn X).map some)) ∧
      (n : Int) ∣ (guess v).2 - x (guess v).1}.ncard ≤ ((q + s + 3).choose 2 + 1) * n ^ s := by
  obtain ⟨p, hp, ⟨t⟩⟩ := setting hK hP hfin hn
  have : Fact n.Prime := ⟨t.prime⟩
  have : NeZero n := ⟨t.prime.ne_zero⟩
  let F := ZMod n × (Fin (s + 1) → ZMod n)
  let fs : List F := (0, 0) :: (1, 0) :: List.ofFn fun i => (0, Pi.single i 1)
  let R := runPoints (marked F n) A q (fs.map fun f => some (f, false))
  let ev : (Fin (s + 1) → Fin n) → (F →+ ZMod n) := fun x =>
    AddMonoidHom.mk' (fun f : F => f.1 + ∑ i, f.2 i * el (x i)) (by
      rintro ⟨f1, f2⟩ ⟨g1, g2⟩
      change f1 + g1 + ∑ i, (f2 i + g2 i) * el (x i) = f1 + ∑ i, f2 i * el (x i) + (g1 + ∑ i, g2 i * el (x i))
      simp only [add_mul, Finset.sum_add_distrib]
      ring)
  have hev : ∀ x f, ev x f = f.1 + ∑ i, f.2 i * el (x i) := fun x f => rfl
  have hbad := collisions (elems R) (fun x => ev x) (n ^ s) (by
    intro f g hne
    refine le_trans (le_of_eq ?_) (linMany (f.1 - g.1) (f.2 - g.2) ?_)
    · congr 1
      ext x
      change ev x f = ev x g ↔ _ = _
      rw [hev, hev, ← sub_eq_zero]
      simp only [Pi.sub_apply, sub_mul, Finset.sum_sub_distrib]
      constructor <;> intro h <;> linear_combination h
    · intro h
      exact hne (sub_eq_zero.mp h))
  have hlen : (elems R).card ≤ q + s + 3 := (card_elems _).trans (by rw [runPoints_length]; simp [fs]; omega)
  have hsub : {x : Fin (s + 1) → Fin n | ∃ X : Fin (s + 1) → WPoint, (∀ i, P.mul (x i) = .ok (X i)) ∧
      ∃ v, v = pointView pointOps (runPoints pointOps A q
        (some (K.instance oid).identity :: some P :: (List.ofFn X).map some)) ∧
      (n : Int) ∣ (guess v).2 - x (guess v).1} ⊆
      {x | ¬ ∀ f ∈ elems R, ∀ g ∈ elems R, ev x f = ev x g → f = g} ∪
        {x | (n : Int) ∣ (guess (pointView (marked _ n) R)).2 - x (guess (pointView (marked _ n) R)).1} := by
    rintro x ⟨X, hX, v, rfl, hd⟩
    by_cases hinj : ∀ f ∈ elems R, ∀ g ∈ elems R, ev x f = ev x g → f = g
    · right
      have := (t.sees A q fs List.mem_cons_self (ev x) ((K.instance oid).identity :: P :: List.ofFn X) (by
        refine .cons ?_ (.cons ?_ ?_)
        · rw [hev]
          simpa using identity_marks (p := p) (K.instance oid)
        · have : t.hom (ev x (1, 0)) = t.Q := by
            rw [hev, show (1 : ZMod n) + ∑ i, (0 : Fin (s + 1) → ZMod n) i * el (x i) = ((1 : Int) : ZMod n) by simp,
              t.hom_int, one_zsmul]
          rw [this]
          exact t.self
        · rw [List.forall₂_iff_get]
          refine ⟨by simp, fun i h1 h2 => ?_⟩
          simp only [List.get_eq_getElem, List.getElem_ofFn]
          have hi : i < s + 1 := by simpa using h2
          have : t.hom (ev x (0, Pi.single ⟨i, hi⟩ 1)) = ((x ⟨i, hi⟩ : Nat) : Int) • t.Q := by
            rw [hev, show (0 : ZMod n) + ∑ j, (Pi.single (⟨i, hi⟩ : Fin (s + 1)) (1 : ZMod n) : Fin (s + 1) → ZMod n) j * el (x j) =
              (((x ⟨i, hi⟩ : Nat) : Int) : ZMod n) by simp [Pi.single_apply, el], t.hom_int]
          rw [this]
          obtain ⟨X', hX', mX⟩ := t.mul (x ⟨i, hi⟩)
          rw [hX ⟨i, hi⟩] at hX'
          rw [Except.ok.inj hX']
          exact mX) hinj).1
      change (n : Int) ∣ (guess (pointView pointOps (runPoints pointOps A q
        (((K.instance oid).identity :: P :: List.ofFn X).map some)))).2 - x (guess (pointView pointOps (runPoints pointOps A q
        (((K.instance oid).identity :: P :: List.ofFn X).map some)))).1 at hd
      rw [this] at hd
      exact hd
    · exact .inl hinj
  refine (Set.ncard_le_ncard hsub (Set.toFinite _)).trans ((Set.ncard_union_le _ _).trans ?_)
  rw [Nat.add_mul]
  refine Nat.add_le_add (hbad.trans (Nat.mul_le_mul_right _ (Nat.choose_le_choose 2 hlen))) ?_
  rw [one_mul]
  obtain ⟨i, g⟩ := guess (pointView (marked _ n) R)
  refine le_trans (Set.ncard_le_ncard ?_ (Set.toFinite _)) (linMany (n := n) (g : ZMod n) (-Pi.single i 1) (by
    intro h
    have := congrFun (Prod.ext_iff.mp h).2 i
    simp at this))
  intro x hx
  have hx : (n : Int) ∣ g - ((x i : Nat) : Int) := hx
  rw [← ZMod.intCast_zmod_eq_zero_iff_dvd] at hx
  push_cast at hx
  change _ = _
  simp [Pi.single_apply, el]
  linear_combination hx

-- On SECP_256k1, programs of 2^64 operations find one of 2^32 private keys with a chance of less than 2^-126.
example (oid : Nat) (A : List (Option Nat) → PointCmd) (guess : List (Option Nat) → Fin (2 ^ 32) × Int) (G : WPoint)
    (hG : SECP_256k1.generator oid = .ok G) (n : Nat) (hn : n = SECP_256k1.n.toNat) :
    {x : Fin (2 ^ 32) → Fin n | ∃ X : Fin (2 ^ 32) → WPoint, (∀ i, G.mul (x i) = .ok (X i)) ∧
      ∃ v, v = pointView pointOps (runPoints pointOps A (2 ^ 64)
        (some (SECP_256k1.instance oid).identity :: some G :: (List.ofFn X).map some)) ∧
      (n : Int) ∣ (guess v).2 - x (guess v).1}.ncard * 2 ^ 126 ≤ n ^ (2 ^ 32) := by
  have hK : SECP_256k1 ∈ primeOrderClasses := by simp [primeOrderClasses]
  obtain ⟨-, -, -, -, -, -, h1, h2, h3, h4, h5⟩ := gen_facts hK hG
  have hn' : SECP_256k1.n = n := by rw [hn]; decide +kernel
  have h := C179_many_keys _ hK oid _ ⟨h1, h2, h3, h4⟩ h5 n hn' (2 ^ 32 - 1) A guess (2 ^ 64)
  refine (Nat.mul_le_mul_right _ h).trans ?_
  rw [show n ^ (2 ^ 32) = n ^ (2 ^ 32 - 1) * n from (pow_succ n (2 ^ 32 - 1)), Nat.choose_two_right, mul_right_comm, mul_comm]
  refine Nat.mul_le_mul_left _ ?_
  rw [hn]
  decide +kernel

/-! ### The bound is reached up to a constant -/

/-- A program whose steps do not depend on what it sees. -/
private theorem run_fixed {α : Type} (m : PointOps α) (cmd : Nat → PointCmd) (e : Nat → Option α) :
    ∀ q L, (∀ i, L ≤ i → (cmd i).exec m ((List.range i).map e) = e i) →
      runPoints m (fun v => cmd v.length) q ((List.range L).map e) = (List.range (L + q)).map e
  | 0, L, _ => rfl
  | q + 1, L, h => by
    rw [runPoints]
    have : (pointView m ((List.range L).map e)).length = L := by simp [pointView]
    rw [this, h L le_rfl, show (List.range L).map e ++ [e L] = (List.range (L + 1)).map e by
      rw [List.range_succ, List.map_append, List.map_singleton]]
    rw [run_fixed m cmd e q (L + 1) fun i hi => h i (by omega)]
    congr 2
    omega

private theorem getD_range {α : Type} (e : Nat → Option α) {i L : Nat} (h : i < L) : ((List.range L).map e).getD i none = e i := by
  rw [List.getD_eq_getElem?_getD, List.getElem?_map, List.getElem?_range h]
  rfl

/-- Two entries of a view of marked points agree exactly if the points do. -/
private theorem view_eq_iff {G : Type} [AddCommGroup G] (n : Nat) (e : Nat → G × Bool) {L i j : Nat} (hi : i < L) (hj : j < L) :
    (pointView (marked G n) ((List.range L).map fun k => some (e k))).getD i none =
      (pointView (marked G n) ((List.range L).map fun k => some (e k))).getD j none ↔ e i = e j := by
  have hg : ∀ k, k < L → (pointView (marked G n) ((List.range L).map fun k => some (e k))).getD k none =
      some (((List.range L).map fun k => some (e k)).findIdx fun b =>
        match b with | some b => (marked G n).same b (e k) | none => false) := by
    intro k hk
    rw [List.getD_eq_getElem?_getD, pointView, List.getElem?_map, List.getElem?_map, List.getElem?_range hk]
    simp only [Option.map_some, Option.getD_some]
    congr 2
    funext b
    cases b <;> rfl
  have hf : ∀ k, (hk : k < L) → ∃ h : _ < _, (fun b : Option (G × Bool) =>
        match b with | some b => (marked G n).same b (e k) | none => false)
      (((List.range L).map fun k => some (e k))[((List.range L).map fun k => some (e k)).findIdx fun b =>
        match b with | some b => (marked G n).same b (e k) | none => false]'h) = true := by
    intro k hk
    have : (((List.range L).map fun k => some (e k)).findIdx fun b =>
        match b with | some b => (marked G n).same b (e k) | none => false) < ((List.range L).map fun k => some (e k)).length := by
      rw [List.findIdx_lt_length]
      exact ⟨_, List.mem_map.mpr ⟨k, List.mem_range.mpr hk, rfl⟩, by simp [marked]⟩
    exact ⟨this, List.findIdx_getElem (w := this)⟩
  rw [hg i hi, hg j hj]
  constructor
  · intro h
    obtain ⟨h1, h2⟩ := hf i hi
    obtain ⟨h3, h4⟩ := hf j hj
    simp only [Option.some.injEq] at h
    simp only [h] at h2
    simp only [List.getElem_map, marked, decide_eq_true_eq] at h2 h4
    exact h2.symm.trans h4
  · intro h
    rw [h]

/-- The steps of Shanks' method with giant steps of `m`. -/
private def shanksCmd (m i : Nat) : PointCmd :=
  if i = 3 then .mul (-1) 1
  else if i < 4 + m then .mul (((i - 4) * m : Nat) : Int) 1
  else .add (if i = 4 + m then 2 else i - 1) 3

/-- C179: the bound on discrete logarithms cannot be improved by more than a constant: if `n ≤ m * m`, there is a program of `2 * m + 1`
operations that finds `x` for all points `P` of order `n` and all `x`. -/
theorem C179_square_root (K : WClass) (hK : K ∈ primeOrderClasses) (n : Nat) (hn : K.n = n) (m : Nat) (hm : n ≤ m * m) :
    ∃ (A : List (Option Nat) → PointCmd) (guess : List (Option Nat) → Int), ∀ (oid : Nat) (P : WPoint), ReducedPoint K oid P →
      P ≠ (K.instance oid).identity → ∀ x : Int, ∃ X, P.mul x = .ok X ∧
        (n : Int) ∣ guess (pointView pointOps (runPoints pointOps A (2 * m + 1)
          [some (K.instance oid).identity, some P, some X])) - x := by
  refine ⟨fun v => shanksCmd m v.length, fun v => ((((List.range (m * m)).find? fun t =>
    v.getD (4 + t / m) none == v.getD (4 + m + t % m) none).getD 0 + 1 : Nat) : Int), ?_⟩
  intro oid P hP hfin x
  obtain ⟨p, hp, ⟨t⟩⟩ := setting hK hP hfin hn
  have : Fact n.Prime := ⟨t.prime⟩
  have : NeZero n := ⟨t.prime.ne_zero⟩
  have hm0 : 0 < m := by
    rcases Nat.eq_zero_or_pos m with rfl | h
    · have := t.prime.pos; omega
    · exact h
  obtain ⟨X, hX, mX⟩ := t.mul x
  refine ⟨X, hX, ?_⟩
  let e : Nat → ZMod n × Bool := fun i =>
    (if i = 0 then 0 else if i = 1 then 1 else if i = 2 then (x : ZMod n) else if i = 3 then -1
      else if i < 4 + m then (((i - 4) * m : Nat) : ZMod n) else (x : ZMod n) - ((i - 4 - m : Nat) : ZMod n) - 1, false)
  have hmul : ∀ k : Int, (marked (ZMod n) n).mul k (1, false) = some ((k : ZMod n), false) := by
    intro k
    by_cases h1 : (n : Int) ∣ k
    · simp [marked, h1, (ZMod.intCast_zmod_eq_zero_iff_dvd k n).mpr h1]
    · by_cases h2 : (n : Int) ∣ k - 1
      · have := (ZMod.intCast_zmod_eq_zero_iff_dvd (k - 1) n).mpr h2
        push_cast at this
        simp [marked, h1, h2, sub_eq_zero.mp this]
      · simp [marked, h1, h2]
  have hadd : ∀ a b : ZMod n, (marked (ZMod n) n).add (a, false) (b, false) = some (a + b, false) := by
    intro a b
    by_cases h1 : b = 0 <;> by_cases h2 : a = 0 <;> simp [marked, h1, h2]
  have hexec : ∀ i, 3 ≤ i → (shanksCmd m i).exec (marked (ZMod n) n) ((List.range i).map fun k => some (e k)) = some (e i) := by
    intro i hi
    have e1 : e 1 = (1, false) := rfl
    have e2 : e 2 = ((x : ZMod n), false) := rfl
    have e3 : e 3 = (-1, false) := rfl
    rw [shanksCmd]
    split
    · next h =>
      subst h
      rw [PointCmd.exec, getD_range _ (by omega), e1, e3]
      change (marked (ZMod n) n).mul (-1) (1, false) = _
      rw [hmul]
      simp
    · next h3 =>
      split
      · next h4 =>
        rw [PointCmd.exec, getD_range _ (by omega), e1]
        change (marked (ZMod n) n).mul _ (1, false) = _
        rw [hmul]
        simp only [e]
        rw [if_neg (by omega), if_neg (by omega), if_neg (by omega), if_neg (by omega), if_pos h4]
        push_cast
        rfl
      · next h4 =>
        rw [PointCmd.exec, getD_range _ (by split <;> omega), getD_range _ (by omega), e3]
        split
        · next h5 =>
          rw [e2]
          change (marked (ZMod n) n).add _ _ = _
          rw [hadd]
          simp only [e]
          rw [if_neg (by omega), if_neg (by omega), if_neg (by omega), if_neg (by omega), if_neg h4, h5,
            show 4 + m - 4 - m = 0 by omega]
          simp [sub_eq_add_neg]
        · next h5 =>
          have : e (i - 1) = ((x : ZMod n) - ((i - 1 - 4 - m : Nat) : ZMod n) - 1, false) := by
            simp only [e]
            rw [if_neg (by omega), if_neg (by omega), if_neg (by omega), if_neg (by omega), if_neg (by omega)]
          rw [this]
          change (marked (ZMod n) n).add _ _ = _
          rw [hadd]
          simp only [e]
          rw [if_neg (by omega), if_neg (by omega), if_neg (by omega), if_neg (by omega), if_neg h4,
            show i - 4 - m = (i - 1 - 4 - m) + 1 by omega]
          push_cast
          congr 2
          ring
  have hrun : runPoints (marked (ZMod n) n) (fun v => shanksCmd m v.length) (2 * m + 1)
      ([0, 1, (x : ZMod n)].map fun f => some (f, false)) = (List.range (3 + (2 * m + 1))).map fun k => some (e k) :=
    run_fixed (marked (ZMod n) n) (shanksCmd m) (fun k => some (e k)) (2 * m + 1) 3 hexec
  have hs := (t.sees (fun v => shanksCmd m v.length) (2 * m + 1) [0, 1, (x : ZMod n)] List.mem_cons_self (AddMonoidHom.id _)
    [(K.instance oid).identity, P, X] (by
      refine .cons ?_ (.cons ?_ (.cons ?_ .nil))
      · simpa using identity_marks (p := p) (K.instance oid)
      · have : t.hom 1 = t.Q := by
          rw [show (1 : ZMod n) = ((1 : Int) : ZMod n) by push_cast; rfl, t.hom_int, one_zsmul]
        simpa [this] using t.self
      · simpa [t.hom_int] using mX) (fun f _ g _ h => h)).1
  rw [hrun] at hs
  change (n : Int) ∣ ((((List.range (m * m)).find? fun t =>
    (pointView pointOps (runPoints pointOps (fun v => shanksCmd m v.length) (2 * m + 1)
      ([(K.instance oid).identity, P, X].map some))).getD (4 + t / m) none ==
    (pointView pointOps (runPoints pointOps (fun v => shanksCmd m v.length) (2 * m + 1)
      ([(K.instance oid).identity, P, X].map some))).getD (4 + m + t % m) none).getD 0 + 1 : Nat) : Int) - x
  rw [hs]
  have hpred : ∀ s, s < m * m → ((pointView (marked (ZMod n) n) ((List.range (3 + (2 * m + 1))).map fun k => some (e k))).getD
      (4 + s / m) none = (pointView (marked (ZMod n) n) ((List.range (3 + (2 * m + 1))).map fun k => some (e k))).getD
      (4 + m + s % m) none ↔ (x : ZMod n) = ((s + 1 : Nat) : ZMod n)) := by
    intro s hs
    have h1 : s / m < m := Nat.div_lt_of_lt_mul hs
    have h2 : s % m < m := Nat.mod_lt _ hm0
    rw [view_eq_iff n e (by omega) (by omega)]
    simp only [e, Prod.mk.injEq, and_true]
    have hc : ∀ a b : Nat, a < m → ((if 4 + a = 0 then 0 else if 4 + a = 1 then 1 else if 4 + a = 2 then (x : ZMod n)
        else if 4 + a = 3 then -1 else if 4 + a < 4 + m then (((4 + a - 4) * m : Nat) : ZMod n)
        else (x : ZMod n) - ((4 + a - 4 - m : Nat) : ZMod n) - 1) = (if 4 + m + b = 0 then 0 else if 4 + m + b = 1 then 1
        else if 4 + m + b = 2 then (x : ZMod n) else if 4 + m + b = 3 then -1
        else if 4 + m + b < 4 + m then (((4 + m + b - 4) * m : Nat) : ZMod n)
        else (x : ZMod n) - ((4 + m + b - 4 - m : Nat) : ZMod n) - 1) ↔
          ((a * m : Nat) : ZMod n) = (x : ZMod n) - ((b : Nat) : ZMod n) - 1) := by
      intro a b ha
      rw [if_neg (by omega), if_neg (by omega), if_neg (by omega), if_neg (by omega), if_pos (by omega), if_neg (by omega),
        if_neg (by omega), if_neg (by omega), if_neg (by omega), if_neg (by omega), show 4 + a - 4 = a by omega,
        show 4 + m + b - 4 - m = b by omega]
    rw [hc _ _ h1]
    have : ((s : Nat) : ZMod n) = ((s / m * m : Nat) : ZMod n) + ((s % m : Nat) : ZMod n) := by
      rw [← Nat.cast_add, Nat.div_add_mod' s m]
    rw [Nat.cast_add, this]
    push_cast
    constructor <;> intro h <;> linear_combination -h
  cases hf : (List.range (m * m)).find? fun t =>
      (pointView (marked (ZMod n) n) ((List.range (3 + (2 * m + 1))).map fun k => some (e k))).getD (4 + t / m) none ==
      (pointView (marked (ZMod n) n) ((List.range (3 + (2 * m + 1))).map fun k => some (e k))).getD (4 + m + t % m) none with
  | none =>
    rw [List.find?_eq_none] at hf
    have hlt : ((x - 1 : Int) : ZMod n).val < n := ZMod.val_lt _
    refine absurd (beq_iff_eq.mpr ((hpred _ (by omega)).mpr ?_)) (hf ((x - 1 : Int) : ZMod n).val (List.mem_range.mpr (by omega)))
    rw [Nat.cast_add, ZMod.natCast_zmod_val]
    push_cast
    ring
  | some s =>
    have h1 := List.mem_range.mp (List.mem_of_find?_eq_some hf)
    have h2 := List.find?_some (p := fun t => (pointView (marked (ZMod n) n) ((List.range (3 + (2 * m + 1))).map
      fun k => some (e k))).getD (4 + t / m) none == (pointView (marked (ZMod n) n) ((List.range (3 + (2 * m + 1))).map
      fun k => some (e k))).getD (4 + m + t % m) none) hf
    have h2 := (hpred s h1).mp (beq_iff_eq.mp h2)
    rw [← ZMod.intCast_zmod_eq_zero_iff_dvd]
    push_cast at h2 ⊢
    rw [h2]
    simp

-- On SECP_256k1 there is such a program with 2^129 + 1 operations.
example : ∃ (A : List (Option Nat) → PointCmd) (guess : List (Option Nat) → Int), ∀ (oid : Nat) (P : WPoint),
    ReducedPoint SECP_256k1 oid P → P ≠ (SECP_256k1.instance oid).identity → ∀ x : Int, ∃ X, P.mul x = .ok X ∧
      (SECP_256k1.n.toNat : Int) ∣ guess (pointView pointOps (runPoints pointOps A (2 * 2 ^ 128 + 1)
        [some (SECP_256k1.instance oid).identity, some P, some X])) - x :=
  C179_square_root SECP_256k1 (by simp [primeOrderClasses]) SECP_256k1.n.toNat (by decide +kernel) (2 ^ 128) (by decide +kernel)

end Cryptopy
