import Mathlib.Algebra.Field.Basic
import Mathlib.Algebra.Group.Even
import Mathlib.Tactic.LinearCombination
import Mathlib.Tactic.FieldSimp
import Mathlib.Tactic.Ring

/-!
The group of a complete twisted Edwards curve `a x² + y² = 1 + d x² y²`, where `a` is a nonzero square and
`d` is not a square (Bernstein and Lange). Independent of the code.
-/

namespace Cryptopy.Spec

variable {K : Type} [Field K]

/-- Parameters of a complete twisted Edwards curve; `a = α²`. -/
structure Edwards (K : Type) [Field K] where
  α : K
  d : K
  two : (2 : K) ≠ 0
  hα : α ≠ 0
  hd : ¬ IsSquare d

namespace Edwards

/-- The coefficient of `x²`. -/
def a (E : Edwards K) : K := E.α ^ 2

/-- The equation of the curve. -/
def Equation (E : Edwards K) (x y : K) : Prop := E.a * x ^ 2 + y ^ 2 = 1 + E.d * x ^ 2 * y ^ 2

/-- A point of the curve. -/
@[ext] structure Point (E : Edwards K) where
  x : K
  y : K
  eqn : E.Equation x y

variable {E : Edwards K}

theorem a_ne (E : Edwards K) : E.a ≠ 0 := pow_ne_zero _ E.hα

theorem a_ne_d (E : Edwards K) : E.a ≠ E.d := fun h => E.hd ⟨E.α, by rw [← h, a, pow_two]⟩

theorem d_ne (E : Edwards K) : E.d ≠ 0 := fun h => E.hd ⟨0, by rw [h, mul_zero]⟩

theorem d_square {u v : K} (hv : v ≠ 0) (h : u ^ 2 = E.d * v ^ 2) : False := by
  refine E.hd ⟨u / v, ?_⟩
  field_simp
  exact h.symm

/-- The denominators of the addition law never vanish. -/
theorem complete {x1 y1 x2 y2 : K} (h1 : E.Equation x1 y1) (h2 : E.Equation x2 y2) :
    (E.d * x1 * x2 * y1 * y2) ^ 2 ≠ 1 := by
  intro he
  have hne : E.d * x1 * x2 * y1 * y2 ≠ 0 := fun h => by rw [h] at he; simp at he
  have hx1 : x1 ≠ 0 := by rintro rfl; simp at hne
  have hx2 : x2 ≠ 0 := by rintro rfl; simp at hne
  have hy1 : y1 ≠ 0 := by rintro rfl; simp at hne
  have hy2 : y2 ≠ 0 := by rintro rfl; simp at hne
  unfold Equation a at h1 h2
  have key : ∀ s : K, s ^ 2 = 1 → (E.α * x1 + s * (E.d * x1 * x2 * y1 * y2) * y1) ^ 2 =
      E.d * (x1 * y1 * (E.α * x2 + s * y2)) ^ 2 := by
    intro s hs
    linear_combination h1 - E.d * x1 ^ 2 * y1 ^ 2 * h2 + (s ^ 2 * y1 ^ 2 - 1) * he +
      (y1 ^ 2 - E.d * x1 ^ 2 * y1 ^ 2 * y2 ^ 2) * hs
  have hz : ∀ s : K, s ^ 2 = 1 → E.α * x2 + s * y2 = 0 := by
    intro s hs
    by_contra h
    exact d_square (mul_ne_zero (mul_ne_zero hx1 hy1) h) (key s hs)
  have h3 := hz 1 (by ring)
  have h4 := hz (-1) (by ring)
  have : 2 * y2 = 0 := by linear_combination h3 - h4
  exact (mul_ne_zero E.two hy2) this

theorem one_add_ne {x1 y1 x2 y2 : K} (h1 : E.Equation x1 y1) (h2 : E.Equation x2 y2) :
    1 + E.d * x1 * x2 * y1 * y2 ≠ 0 := by
  intro h
  exact complete h1 h2 (by linear_combination (E.d * x1 * x2 * y1 * y2 - 1) * h)

theorem one_sub_ne {x1 y1 x2 y2 : K} (h1 : E.Equation x1 y1) (h2 : E.Equation x2 y2) :
    1 - E.d * x1 * x2 * y1 * y2 ≠ 0 := by
  intro h
  exact complete h1 h2 (by linear_combination (-E.d * x1 * x2 * y1 * y2 - 1) * h)

private theorem closed_poly (a d x1 y1 x2 y2 : K) (e1 : a * x1 ^ 2 + y1 ^ 2 - 1 - d * x1 ^ 2 * y1 ^ 2 = 0)
    (e2 : a * x2 ^ 2 + y2 ^ 2 - 1 - d * x2 ^ 2 * y2 ^ 2 = 0) :
    a * (x1 * y2 + x2 * y1) ^ 2 * (1 - d * x1 * x2 * y1 * y2) ^ 2 +
      (y1 * y2 - a * x1 * x2) ^ 2 * (1 + d * x1 * x2 * y1 * y2) ^ 2 =
    (1 - (d * x1 * x2 * y1 * y2) ^ 2) ^ 2 + d * (x1 * y2 + x2 * y1) ^ 2 * (y1 * y2 - a * x1 * x2) ^ 2 := by
  linear_combination
    (-a ^ 2 * d * x1 ^ 2 * x2 ^ 4 * y2 ^ 2 - 2 * a ^ 2 * x2 ^ 4 * y2 ^ 2 + a ^ 2 * x2 ^ 4 + a * d ^ 2 *
    x1 ^ 2 * x2 ^ 4 * y2 ^ 4 - a * d * x1 ^ 2 * x2 ^ 2 * y2 ^ 4 - a * d * y1 ^ 2 * x2 ^ 4 * y2 ^ 2 + 2 *
    a * d * x2 ^ 4 * y2 ^ 4 - 2 * a * x2 ^ 2 * y2 ^ 4 + 4 * a * x2 ^ 2 * y2 ^ 2 + d ^ 3 * x1 ^ 2 * y1 ^ 2
    * x2 ^ 4 * y2 ^ 4 + d ^ 2 * y1 ^ 2 * x2 ^ 4 * y2 ^ 4 - d ^ 2 * x2 ^ 4 * y2 ^ 4 - d * y1 ^ 2 * x2 ^ 2
    * y2 ^ 4 - 2 * d * x2 ^ 2 * y2 ^ 2 + y2 ^ 4)  *  e1 + (a ^ 2 * d * x1 ^ 4 * x2 ^ 2 * y2 ^ 2 + 2 * a ^
    2 * x1 ^ 2 * x2 ^ 2 * y2 ^ 2 - a ^ 2 * x1 ^ 2 * x2 ^ 2 - 2 * a * d * x1 ^ 2 * x2 ^ 2 * y2 ^ 2 - a *
    x1 ^ 2 * y2 ^ 2 + 2 * a * y1 ^ 2 * x2 ^ 2 * y2 ^ 2 - a * y1 ^ 2 * x2 ^ 2 - 2 * a * x2 ^ 2 * y2 ^ 2 +
    a * x2 ^ 2 + d * y1 ^ 4 * x2 ^ 2 * y2 ^ 2 - 2 * d * y1 ^ 2 * x2 ^ 2 * y2 ^ 2 + d * x2 ^ 2 * y2 ^ 2 -
    y1 ^ 2 * y2 ^ 2 + y2 ^ 2 + 1)  *  e2

theorem closed {x1 y1 x2 y2 : K} (h1 : E.Equation x1 y1) (h2 : E.Equation x2 y2) :
    E.Equation ((x1 * y2 + x2 * y1) / (1 + E.d * x1 * x2 * y1 * y2))
      ((y1 * y2 - E.a * x1 * x2) / (1 - E.d * x1 * x2 * y1 * y2)) := by
  have hp := one_add_ne h1 h2
  have hm := one_sub_ne h1 h2
  have := closed_poly E.a E.d x1 y1 x2 y2 (by unfold Equation at h1; linear_combination h1)
    (by unfold Equation at h2; linear_combination h2)
  unfold Equation
  rw [div_pow, div_pow]
  generalize hD : E.d * x1 * x2 * y1 * y2 = D at *
  generalize x1 * y2 + x2 * y1 = s at *
  generalize y1 * y2 - E.a * x1 * x2 = t at *
  field_simp
  linear_combination this

instance : Zero E.Point := ⟨⟨0, 1, by unfold Equation; ring⟩⟩

instance : Neg E.Point := ⟨fun P => ⟨-P.x, P.y, by have := P.eqn; unfold Equation at *; linear_combination this⟩⟩

/-- The Edwards addition law. -/
instance : Add E.Point := ⟨fun P Q => ⟨(P.x * Q.y + Q.x * P.y) / (1 + E.d * P.x * Q.x * P.y * Q.y),
  (P.y * Q.y - E.a * P.x * Q.x) / (1 - E.d * P.x * Q.x * P.y * Q.y), closed P.eqn Q.eqn⟩⟩

@[simp] theorem zero_x : (0 : E.Point).x = 0 := rfl
@[simp] theorem zero_y : (0 : E.Point).y = 1 := rfl
@[simp] theorem neg_x (P : E.Point) : (-P).x = -P.x := rfl
@[simp] theorem neg_y (P : E.Point) : (-P).y = P.y := rfl
theorem add_x (P Q : E.Point) :
    (P + Q).x = (P.x * Q.y + Q.x * P.y) / (1 + E.d * P.x * Q.x * P.y * Q.y) := rfl
theorem add_y (P Q : E.Point) :
    (P + Q).y = (P.y * Q.y - E.a * P.x * Q.x) / (1 - E.d * P.x * Q.x * P.y * Q.y) := rfl

private theorem assoc_x_poly (a d x1 y1 x2 y2 x3 y3 : K)
    (e1 : a * x1 ^ 2 + y1 ^ 2 - 1 - d * x1 ^ 2 * y1 ^ 2 = 0)
    (e2 : a * x2 ^ 2 + y2 ^ 2 - 1 - d * x2 ^ 2 * y2 ^ 2 = 0)
    (e3 : a * x3 ^ 2 + y3 ^ 2 - 1 - d * x3 ^ 2 * y3 ^ 2 = 0) (s t D s' t' D' : K)
    (hs : s = x1 * y2 + x2 * y1) (ht : t = y1 * y2 - a * x1 * x2) (hD : D = d * x1 * x2 * y1 * y2)
    (hs' : s' = x2 * y3 + x3 * y2) (ht' : t' = y2 * y3 - a * x2 * x3) (hD' : D' = d * x2 * x3 * y2 * y3) :
    (s * y3 * (1 - D) + x3 * t * (1 + D)) * (1 - D' ^ 2 + d * s' * t' * x1 * y1) =
      (x1 * t' * (1 + D') + s' * y1 * (1 - D')) * (1 - D ^ 2 + d * s * t * x3 * y3) := by
  subst hs ht hD hs' ht' hD'
  linear_combination
    (-a ^ 2 * d * x1 * x2 ^ 4 * y2 * x3 ^ 2 * y3 - a ^ 2 * d * x1 * x2 ^ 3 * y2 ^ 2 * x3 ^ 3 + a * d ^ 2
    * x1 * x2 ^ 4 * y2 ^ 3 * x3 ^ 2 * y3 + a * d * x1 * x2 ^ 3 * y2 ^ 2 * x3 - a * d * y1 * x2 ^ 4 * y2 *
    x3 * y3 ^ 2 + a * d * y1 * x2 ^ 2 * y2 ^ 3 * x3 ^ 3 - d ^ 2 * x1 * x2 ^ 3 * y2 ^ 4 * x3 * y3 ^ 2 + d
    ^ 2 * y1 * x2 ^ 4 * y2 ^ 3 * x3 * y3 ^ 2 + d ^ 2 * y1 * x2 ^ 3 * y2 ^ 4 * x3 ^ 2 * y3 + d * x1 * x2 ^
    2 * y2 ^ 3 * y3 ^ 3 - d * x1 * x2 ^ 2 * y2 ^ 3 * y3 + d * x1 * x2 * y2 ^ 4 * x3 * y3 ^ 2 + d * y1 *
    x2 ^ 3 * y2 ^ 2 * y3 ^ 3 - d * y1 * x2 ^ 3 * y2 ^ 2 * y3 - d * y1 * x2 ^ 2 * y2 ^ 3 * x3 - d * y1 *
    x2 * y2 ^ 4 * x3 ^ 2 * y3)  *  e1 + (-a ^ 3 * x1 ^ 3 * x2 * x3 ^ 3 + a ^ 2 * d * x1 ^ 3 * x2 ^ 2 * y2
    * x3 ^ 2 * y3 + a ^ 2 * d * x1 ^ 3 * x2 * x3 ^ 3 * y3 ^ 2 - a ^ 2 * x1 ^ 3 * x2 * x3 * y3 ^ 2 + a ^ 2
    * x1 ^ 3 * x2 * x3 + a ^ 2 * x1 ^ 3 * y2 * x3 ^ 2 * y3 + a ^ 2 * x1 ^ 2 * y1 * x2 * x3 ^ 2 * y3 + a ^
    2 * x1 ^ 2 * y1 * y2 * x3 ^ 3 - a ^ 2 * x1 * y1 ^ 2 * x2 * x3 ^ 3 + a ^ 2 * x1 * x2 * x3 ^ 3 - a * d
    ^ 2 * x1 ^ 2 * y1 * x2 ^ 2 * y2 * x3 ^ 3 * y3 ^ 2 - a * d * x1 ^ 3 * x2 * y2 ^ 2 * x3 * y3 ^ 2 - a *
    d * x1 ^ 3 * y2 * x3 ^ 2 * y3 ^ 3 + a * d * x1 ^ 2 * y1 * x2 ^ 2 * y2 * x3 * y3 ^ 2 + a * d * x1 ^ 2
    * y1 * x2 * y2 ^ 2 * x3 ^ 2 * y3 - a * d * x1 ^ 2 * y1 * x2 * x3 ^ 2 * y3 ^ 3 - a * d * x1 ^ 2 * y1 *
    y2 * x3 ^ 3 * y3 ^ 2 + a * d * x1 * y1 ^ 2 * x2 ^ 2 * y2 * x3 ^ 2 * y3 + a * d * x1 * y1 ^ 2 * x2 *
    x3 ^ 3 * y3 ^ 2 - a * d * x1 * x2 ^ 2 * y2 * x3 ^ 2 * y3 - a * d * x1 * x2 * x3 ^ 3 * y3 ^ 2 + a * x1
    ^ 3 * y2 * y3 ^ 3 - a * x1 ^ 3 * y2 * y3 + a * x1 ^ 2 * y1 * x2 * y3 ^ 3 - a * x1 ^ 2 * y1 * x2 * y3
    + a * x1 ^ 2 * y1 * y2 * x3 * y3 ^ 2 - a * x1 ^ 2 * y1 * y2 * x3 - a * x1 * y1 ^ 2 * x2 * x3 * y3 ^ 2
    + a * x1 * y1 ^ 2 * x2 * x3 + a * x1 * y1 ^ 2 * y2 * x3 ^ 2 * y3 + a * x1 * x2 * x3 * y3 ^ 2 - a * x1
    * x2 * x3 - a * x1 * y2 * x3 ^ 2 * y3 + a * y1 ^ 3 * x2 * x3 ^ 2 * y3 + a * y1 ^ 3 * y2 * x3 ^ 3 - a
    * y1 * x2 * x3 ^ 2 * y3 - a * y1 * y2 * x3 ^ 3 - d ^ 2 * x1 ^ 2 * y1 * x2 * y2 ^ 2 * x3 ^ 2 * y3 ^ 3
    - d ^ 2 * x1 * y1 ^ 2 * x2 ^ 2 * y2 * x3 ^ 2 * y3 ^ 3 + d ^ 2 * x1 * y1 ^ 2 * x2 * y2 ^ 2 * x3 ^ 3 *
    y3 ^ 2 - d * x1 * y1 ^ 2 * x2 * y2 ^ 2 * x3 * y3 ^ 2 - d * x1 * y1 ^ 2 * y2 * x3 ^ 2 * y3 ^ 3 + d *
    x1 * x2 * y2 ^ 2 * x3 * y3 ^ 2 + d * x1 * y2 * x3 ^ 2 * y3 ^ 3 + d * y1 ^ 3 * x2 ^ 2 * y2 * x3 * y3 ^
    2 + d * y1 ^ 3 * x2 * y2 ^ 2 * x3 ^ 2 * y3 - d * y1 ^ 3 * x2 * x3 ^ 2 * y3 ^ 3 - d * y1 ^ 3 * y2 * x3
    ^ 3 * y3 ^ 2 - d * y1 * x2 ^ 2 * y2 * x3 * y3 ^ 2 - d * y1 * x2 * y2 ^ 2 * x3 ^ 2 * y3 + d * y1 * x2
    * x3 ^ 2 * y3 ^ 3 + d * y1 * y2 * x3 ^ 3 * y3 ^ 2 + x1 * y1 ^ 2 * y2 * y3 ^ 3 - x1 * y1 ^ 2 * y2 * y3
    - x1 * y2 * y3 ^ 3 + x1 * y2 * y3 + y1 ^ 3 * x2 * y3 ^ 3 - y1 ^ 3 * x2 * y3 + y1 ^ 3 * y2 * x3 * y3 ^
    2 - y1 ^ 3 * y2 * x3 - y1 * x2 * y3 ^ 3 + y1 * x2 * y3 - y1 * y2 * x3 * y3 ^ 2 + y1 * y2 * x3)  *  e2
    + (a ^ 3 * x1 ^ 3 * x2 ^ 3 * x3 - a ^ 2 * x1 ^ 3 * x2 ^ 2 * y2 * y3 + a ^ 2 * x1 ^ 3 * x2 * y2 ^ 2 *
    x3 - a ^ 2 * x1 ^ 3 * x2 * x3 - a ^ 2 * x1 ^ 2 * y1 * x2 ^ 3 * y3 - a ^ 2 * x1 ^ 2 * y1 * x2 ^ 2 * y2
    * x3 + a ^ 2 * x1 * y1 ^ 2 * x2 ^ 3 * x3 - a ^ 2 * x1 * x2 ^ 3 * x3 + a * d * x1 ^ 2 * y1 * x2 ^ 2 *
    y2 * x3 - a * x1 ^ 3 * y2 ^ 3 * y3 + a * x1 ^ 3 * y2 * y3 - a * x1 ^ 2 * y1 * x2 * y2 ^ 2 * y3 + a *
    x1 ^ 2 * y1 * x2 * y3 - a * x1 ^ 2 * y1 * y2 ^ 3 * x3 + a * x1 ^ 2 * y1 * y2 * x3 - a * x1 * y1 ^ 2 *
    x2 ^ 2 * y2 * y3 + a * x1 * y1 ^ 2 * x2 * y2 ^ 2 * x3 - a * x1 * y1 ^ 2 * x2 * x3 + a * x1 * x2 ^ 2 *
    y2 * y3 - a * x1 * x2 * y2 ^ 2 * x3 + a * x1 * x2 * x3 - a * y1 ^ 3 * x2 ^ 3 * y3 - a * y1 ^ 3 * x2 ^
    2 * y2 * x3 + a * y1 * x2 ^ 3 * y3 + a * y1 * x2 ^ 2 * y2 * x3 + d * x1 ^ 2 * y1 * x2 * y2 ^ 2 * y3 +
    d * x1 * y1 ^ 2 * x2 ^ 2 * y2 * y3 - d * x1 * y1 ^ 2 * x2 * y2 ^ 2 * x3 - x1 * y1 ^ 2 * y2 ^ 3 * y3 +
    x1 * y1 ^ 2 * y2 * y3 + x1 * y2 ^ 3 * y3 - x1 * y2 * y3 - y1 ^ 3 * x2 * y2 ^ 2 * y3 + y1 ^ 3 * x2 *
    y3 - y1 ^ 3 * y2 ^ 3 * x3 + y1 ^ 3 * y2 * x3 + y1 * x2 * y2 ^ 2 * y3 - y1 * x2 * y3 + y1 * y2 ^ 3 *
    x3 - y1 * y2 * x3)  *  e3

private theorem assoc_y_poly (a d x1 y1 x2 y2 x3 y3 : K)
    (e1 : a * x1 ^ 2 + y1 ^ 2 - 1 - d * x1 ^ 2 * y1 ^ 2 = 0)
    (e2 : a * x2 ^ 2 + y2 ^ 2 - 1 - d * x2 ^ 2 * y2 ^ 2 = 0)
    (e3 : a * x3 ^ 2 + y3 ^ 2 - 1 - d * x3 ^ 2 * y3 ^ 2 = 0) (s t D s' t' D' : K)
    (hs : s = x1 * y2 + x2 * y1) (ht : t = y1 * y2 - a * x1 * x2) (hD : D = d * x1 * x2 * y1 * y2)
    (hs' : s' = x2 * y3 + x3 * y2) (ht' : t' = y2 * y3 - a * x2 * x3) (hD' : D' = d * x2 * x3 * y2 * y3) :
    (t * (1 + D) * y3 - a * s * (1 - D) * x3) * (1 - D' ^ 2 - d * s' * t' * x1 * y1) =
      (y1 * t' * (1 + D') - a * x1 * s' * (1 - D')) * (1 - D ^ 2 - d * s * t * x3 * y3) := by
  subst hs ht hD hs' ht' hD'
  linear_combination
    (a ^ 2 * d * x1 * x2 ^ 4 * y2 * x3 * y3 ^ 2 - a ^ 2 * d * x1 * x2 ^ 2 * y2 ^ 3 * x3 ^ 3 - a ^ 2 * d *
    y1 * x2 ^ 4 * y2 * x3 ^ 2 * y3 - a ^ 2 * d * y1 * x2 ^ 3 * y2 ^ 2 * x3 ^ 3 - a * d ^ 2 * x1 * x2 ^ 4
    * y2 ^ 3 * x3 * y3 ^ 2 - a * d ^ 2 * x1 * x2 ^ 3 * y2 ^ 4 * x3 ^ 2 * y3 + a * d ^ 2 * y1 * x2 ^ 4 *
    y2 ^ 3 * x3 ^ 2 * y3 - a * d * x1 * x2 ^ 3 * y2 ^ 2 * y3 ^ 3 + a * d * x1 * x2 ^ 3 * y2 ^ 2 * y3 + a
    * d * x1 * x2 ^ 2 * y2 ^ 3 * x3 + a * d * x1 * x2 * y2 ^ 4 * x3 ^ 2 * y3 + a * d * y1 * x2 ^ 3 * y2 ^
    2 * x3 - d ^ 2 * y1 * x2 ^ 3 * y2 ^ 4 * x3 * y3 ^ 2 + d * y1 * x2 ^ 2 * y2 ^ 3 * y3 ^ 3 - d * y1 * x2
    ^ 2 * y2 ^ 3 * y3 + d * y1 * x2 * y2 ^ 4 * x3 * y3 ^ 2)  *  e1 + (-a ^ 3 * x1 ^ 3 * x2 * x3 ^ 2 * y3
    - a ^ 3 * x1 ^ 3 * y2 * x3 ^ 3 - a ^ 3 * x1 ^ 2 * y1 * x2 * x3 ^ 3 - a ^ 2 * d * x1 ^ 3 * x2 ^ 2 * y2
    * x3 * y3 ^ 2 - a ^ 2 * d * x1 ^ 3 * x2 * y2 ^ 2 * x3 ^ 2 * y3 + a ^ 2 * d * x1 ^ 3 * x2 * x3 ^ 2 *
    y3 ^ 3 + a ^ 2 * d * x1 ^ 3 * y2 * x3 ^ 3 * y3 ^ 2 + a ^ 2 * d * x1 ^ 2 * y1 * x2 ^ 2 * y2 * x3 ^ 2 *
    y3 + a ^ 2 * d * x1 ^ 2 * y1 * x2 * x3 ^ 3 * y3 ^ 2 - a ^ 2 * x1 ^ 3 * x2 * y3 ^ 3 + a ^ 2 * x1 ^ 3 *
    x2 * y3 - a ^ 2 * x1 ^ 3 * y2 * x3 * y3 ^ 2 + a ^ 2 * x1 ^ 3 * y2 * x3 - a ^ 2 * x1 ^ 2 * y1 * x2 *
    x3 * y3 ^ 2 + a ^ 2 * x1 ^ 2 * y1 * x2 * x3 + a ^ 2 * x1 ^ 2 * y1 * y2 * x3 ^ 2 * y3 - a ^ 2 * x1 *
    y1 ^ 2 * x2 * x3 ^ 2 * y3 - a ^ 2 * x1 * y1 ^ 2 * y2 * x3 ^ 3 + a ^ 2 * x1 * x2 * x3 ^ 2 * y3 + a ^ 2
    * x1 * y2 * x3 ^ 3 - a ^ 2 * y1 ^ 3 * x2 * x3 ^ 3 + a ^ 2 * y1 * x2 * x3 ^ 3 - a * d ^ 2 * x1 ^ 2 *
    y1 * x2 ^ 2 * y2 * x3 ^ 2 * y3 ^ 3 + a * d ^ 2 * x1 ^ 2 * y1 * x2 * y2 ^ 2 * x3 ^ 3 * y3 ^ 2 + a * d
    ^ 2 * x1 * y1 ^ 2 * x2 ^ 2 * y2 * x3 ^ 3 * y3 ^ 2 - a * d * x1 ^ 2 * y1 * x2 * y2 ^ 2 * x3 * y3 ^ 2 -
    a * d * x1 ^ 2 * y1 * y2 * x3 ^ 2 * y3 ^ 3 - a * d * x1 * y1 ^ 2 * x2 ^ 2 * y2 * x3 * y3 ^ 2 - a * d
    * x1 * y1 ^ 2 * x2 * y2 ^ 2 * x3 ^ 2 * y3 + a * d * x1 * y1 ^ 2 * x2 * x3 ^ 2 * y3 ^ 3 + a * d * x1 *
    y1 ^ 2 * y2 * x3 ^ 3 * y3 ^ 2 + a * d * x1 * x2 ^ 2 * y2 * x3 * y3 ^ 2 + a * d * x1 * x2 * y2 ^ 2 *
    x3 ^ 2 * y3 - a * d * x1 * x2 * x3 ^ 2 * y3 ^ 3 - a * d * x1 * y2 * x3 ^ 3 * y3 ^ 2 + a * d * y1 ^ 3
    * x2 ^ 2 * y2 * x3 ^ 2 * y3 + a * d * y1 ^ 3 * x2 * x3 ^ 3 * y3 ^ 2 - a * d * y1 * x2 ^ 2 * y2 * x3 ^
    2 * y3 - a * d * y1 * x2 * x3 ^ 3 * y3 ^ 2 + a * x1 ^ 2 * y1 * y2 * y3 ^ 3 - a * x1 ^ 2 * y1 * y2 *
    y3 - a * x1 * y1 ^ 2 * x2 * y3 ^ 3 + a * x1 * y1 ^ 2 * x2 * y3 - a * x1 * y1 ^ 2 * y2 * x3 * y3 ^ 2 +
    a * x1 * y1 ^ 2 * y2 * x3 + a * x1 * x2 * y3 ^ 3 - a * x1 * x2 * y3 + a * x1 * y2 * x3 * y3 ^ 2 - a *
    x1 * y2 * x3 - a * y1 ^ 3 * x2 * x3 * y3 ^ 2 + a * y1 ^ 3 * x2 * x3 + a * y1 ^ 3 * y2 * x3 ^ 2 * y3 +
    a * y1 * x2 * x3 * y3 ^ 2 - a * y1 * x2 * x3 - a * y1 * y2 * x3 ^ 2 * y3 + d ^ 2 * x1 * y1 ^ 2 * x2 *
    y2 ^ 2 * x3 ^ 2 * y3 ^ 3 - d * y1 ^ 3 * x2 * y2 ^ 2 * x3 * y3 ^ 2 - d * y1 ^ 3 * y2 * x3 ^ 2 * y3 ^ 3
    + d * y1 * x2 * y2 ^ 2 * x3 * y3 ^ 2 + d * y1 * y2 * x3 ^ 2 * y3 ^ 3 + y1 ^ 3 * y2 * y3 ^ 3 - y1 ^ 3
    * y2 * y3 - y1 * y2 * y3 ^ 3 + y1 * y2 * y3)  *  e2 + (a ^ 3 * x1 ^ 3 * x2 ^ 3 * y3 + a ^ 3 * x1 ^ 3
    * x2 ^ 2 * y2 * x3 + a ^ 3 * x1 ^ 2 * y1 * x2 ^ 3 * x3 + a ^ 2 * x1 ^ 3 * x2 * y2 ^ 2 * y3 - a ^ 2 *
    x1 ^ 3 * x2 * y3 + a ^ 2 * x1 ^ 3 * y2 ^ 3 * x3 - a ^ 2 * x1 ^ 3 * y2 * x3 - a ^ 2 * x1 ^ 2 * y1 * x2
    ^ 2 * y2 * y3 + a ^ 2 * x1 ^ 2 * y1 * x2 * y2 ^ 2 * x3 - a ^ 2 * x1 ^ 2 * y1 * x2 * x3 + a ^ 2 * x1 *
    y1 ^ 2 * x2 ^ 3 * y3 + a ^ 2 * x1 * y1 ^ 2 * x2 ^ 2 * y2 * x3 - a ^ 2 * x1 * x2 ^ 3 * y3 - a ^ 2 * x1
    * x2 ^ 2 * y2 * x3 + a ^ 2 * y1 ^ 3 * x2 ^ 3 * x3 - a ^ 2 * y1 * x2 ^ 3 * x3 + a * d * x1 ^ 2 * y1 *
    x2 ^ 2 * y2 * y3 - a * d * x1 ^ 2 * y1 * x2 * y2 ^ 2 * x3 - a * d * x1 * y1 ^ 2 * x2 ^ 2 * y2 * x3 -
    a * x1 ^ 2 * y1 * y2 ^ 3 * y3 + a * x1 ^ 2 * y1 * y2 * y3 + a * x1 * y1 ^ 2 * x2 * y2 ^ 2 * y3 - a *
    x1 * y1 ^ 2 * x2 * y3 + a * x1 * y1 ^ 2 * y2 ^ 3 * x3 - a * x1 * y1 ^ 2 * y2 * x3 - a * x1 * x2 * y2
    ^ 2 * y3 + a * x1 * x2 * y3 - a * x1 * y2 ^ 3 * x3 + a * x1 * y2 * x3 - a * y1 ^ 3 * x2 ^ 2 * y2 * y3
    + a * y1 ^ 3 * x2 * y2 ^ 2 * x3 - a * y1 ^ 3 * x2 * x3 + a * y1 * x2 ^ 2 * y2 * y3 - a * y1 * x2 * y2
    ^ 2 * x3 + a * y1 * x2 * x3 - d * x1 * y1 ^ 2 * x2 * y2 ^ 2 * y3 - y1 ^ 3 * y2 ^ 3 * y3 + y1 ^ 3 * y2
    * y3 + y1 * y2 ^ 3 * y3 - y1 * y2 * y3)  *  e3

private theorem quot_x (d s t D x3 y3 : K) (h1 : 1 + D ≠ 0) (h2 : 1 - D ≠ 0)
    (h : 1 + d * (s / (1 + D)) * x3 * (t / (1 - D)) * y3 ≠ 0) :
    (s / (1 + D) * y3 + x3 * (t / (1 - D))) / (1 + d * (s / (1 + D)) * x3 * (t / (1 - D)) * y3) =
      (s * y3 * (1 - D) + x3 * t * (1 + D)) / (1 - D ^ 2 + d * s * t * x3 * y3) ∧
    1 - D ^ 2 + d * s * t * x3 * y3 ≠ 0 := by
  have e : 1 - D ^ 2 + d * s * t * x3 * y3 =
      (1 + d * (s / (1 + D)) * x3 * (t / (1 - D)) * y3) * ((1 + D) * (1 - D)) := by
    field_simp; ring
  have hne : 1 - D ^ 2 + d * s * t * x3 * y3 ≠ 0 := by
    rw [e]; exact mul_ne_zero h (mul_ne_zero h1 h2)
  refine ⟨?_, hne⟩
  rw [div_eq_div_iff h hne, e]
  field_simp

private theorem quot_y (a d s t D x3 y3 : K) (h1 : 1 + D ≠ 0) (h2 : 1 - D ≠ 0)
    (h : 1 - d * (s / (1 + D)) * x3 * (t / (1 - D)) * y3 ≠ 0) :
    (t / (1 - D) * y3 - a * (s / (1 + D)) * x3) / (1 - d * (s / (1 + D)) * x3 * (t / (1 - D)) * y3) =
      (t * (1 + D) * y3 - a * s * (1 - D) * x3) / (1 - D ^ 2 - d * s * t * x3 * y3) ∧
    1 - D ^ 2 - d * s * t * x3 * y3 ≠ 0 := by
  have e : 1 - D ^ 2 - d * s * t * x3 * y3 =
      (1 - d * (s / (1 + D)) * x3 * (t / (1 - D)) * y3) * ((1 + D) * (1 - D)) := by
    field_simp; ring
  have hne : 1 - D ^ 2 - d * s * t * x3 * y3 ≠ 0 := by
    rw [e]; exact mul_ne_zero h (mul_ne_zero h1 h2)
  refine ⟨?_, hne⟩
  rw [div_eq_div_iff h hne, e]
  field_simp

private theorem comm (P Q : E.Point) : P + Q = Q + P := by
  ext
  · rw [add_x, add_x]
    congr 1 <;> ring
  · rw [add_y, add_y]
    congr 1 <;> ring

private theorem assoc (P Q R : E.Point) : P + Q + R = P + (Q + R) := by
  have e1 := P.eqn
  have e2 := Q.eqn
  have e3 := R.eqn
  have hPQ := (P + Q).eqn
  have hQR := (Q + R).eqn
  have a1 := one_add_ne e1 e2
  have a2 := one_sub_ne e1 e2
  have b1 := one_add_ne e2 e3
  have b2 := one_sub_ne e2 e3
  have c1 := one_add_ne hPQ e3
  have c2 := one_sub_ne hPQ e3
  have d1 := one_add_ne hQR e1
  have d2 := one_sub_ne hQR e1
  rw [comm P (Q + R)]
  have px := assoc_x_poly E.a E.d P.x P.y Q.x Q.y R.x R.y
    (by unfold Equation at e1; linear_combination e1) (by unfold Equation at e2; linear_combination e2)
    (by unfold Equation at e3; linear_combination e3) _ _ _ _ _ _ rfl rfl rfl rfl rfl rfl
  have py := assoc_y_poly E.a E.d P.x P.y Q.x Q.y R.x R.y
    (by unfold Equation at e1; linear_combination e1) (by unfold Equation at e2; linear_combination e2)
    (by unfold Equation at e3; linear_combination e3) _ _ _ _ _ _ rfl rfl rfl rfl rfl rfl
  rw [add_x, add_y] at c1 c2 d1 d2
  ext
  · rw [add_x, add_x (Q + R) P, add_x P Q, add_y P Q, add_x Q R, add_y Q R]
    obtain ⟨q1, n1⟩ := quot_x _ _ _ _ _ _ a1 a2 c1
    obtain ⟨q2, n2⟩ := quot_x _ _ _ _ _ _ b1 b2 d1
    rw [q1, q2, div_eq_div_iff n1 n2]
    linear_combination px
  · rw [add_y, add_y (Q + R) P, add_x P Q, add_y P Q, add_x Q R, add_y Q R]
    obtain ⟨q1, n1⟩ := quot_y E.a _ _ _ _ _ _ a1 a2 c2
    obtain ⟨q2, n2⟩ := quot_y E.a _ _ _ _ _ _ b1 b2 d2
    rw [q1, q2, div_eq_div_iff n1 n2]
    linear_combination py

private theorem zero_add' (P : E.Point) : 0 + P = P := by
  ext
  · rw [add_x]; simp
  · rw [add_y]; simp

private theorem neg_add' (P : E.Point) : -P + P = 0 := by
  have e := P.eqn
  have h1 := one_add_ne (-P).eqn e
  have h2 := one_sub_ne (-P).eqn e
  ext
  · rw [add_x, neg_x, neg_y, zero_x, div_eq_zero_iff]
    left; ring
  · rw [add_y, zero_y, div_eq_one_iff_eq h2, neg_x, neg_y]
    unfold Equation at e
    linear_combination e

instance : AddCommGroup E.Point where
  add_assoc := assoc
  zero_add := zero_add'
  add_zero P := by rw [comm, zero_add']
  neg_add_cancel := neg_add'
  add_comm := comm
  nsmul := nsmulRec
  zsmul := zsmulRec

end Edwards
end Cryptopy.Spec
