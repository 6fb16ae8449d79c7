import Verif.Props.X25519

/-!
C138: what `montgomery_ladder2` would compute if the name `x_1` were bound.
-/

namespace Cryptopy
open Model Spec

variable {p : Nat} [hpf : Fact p.Prime]

/-- The integers of the code are those of the RFC in the field, with the pending swap undone. -/
private def Equal (s : Int × Int × Int × Int) (t : Rfc7748.State (ZMod p)) : Prop :=
  (t.cswap t.swap).x2 = s.1 ∧ (t.cswap t.swap).z2 = s.2.1 ∧
    (t.cswap t.swap).x3 = s.2.2.1 ∧ (t.cswap t.swap).z3 = s.2.2.2

omit hpf in
private theorem bit2 (k i : Nat) : ((k : Int).fdiv (2 ^ i)) % 2 = if k.testBit i then 1 else 0 := by
  rw [Int.fdiv_eq_ediv_of_nonneg _ (by positivity)]
  have : ((k : Int) / 2 ^ i) % 2 = ((k / 2 ^ i % 2 : Nat) : Int) := by push_cast; rfl
  rw [this, Nat.testBit_eq_decide_div_mod_eq]
  rcases Nat.mod_two_eq_zero_or_one (k / 2 ^ i) with h | h <;> simp [h]

private theorem equal_step (a24 x1 : Int) (k i : Nat)
    (s : Int × Int × Int × Int) (t : Rfc7748.State (ZMod p)) (h : Equal s t) :
    Equal (ladder2Step x1 a24 k s i) (Rfc7748.step (a24 : ZMod p) x1 k t i) := by
  obtain ⟨x2, z2, x3, z3⟩ := s
  obtain ⟨e1, e2, e3, e4⟩ := h
  have hb := bit2 k i
  have hc : t.cswap (t.swap ^^ k.testBit i) = (t.cswap t.swap).cswap (k.testBit i) := by
    cases t.swap <;> cases k.testBit i <;> rfl
  have key : Rfc7748.step (a24 : ZMod p) (x1 : ZMod p) k t i =
      let u := (t.cswap t.swap).cswap (k.testBit i)
      { x3 := ((u.x3 - u.z3) * (u.x2 + u.z2) + (u.x3 + u.z3) * (u.x2 - u.z2)) ^ 2
        z3 := (x1 : ZMod p) * ((u.x3 - u.z3) * (u.x2 + u.z2) - (u.x3 + u.z3) * (u.x2 - u.z2)) ^ 2
        x2 := (u.x2 + u.z2) ^ 2 * (u.x2 - u.z2) ^ 2
        z2 := ((u.x2 + u.z2) ^ 2 - (u.x2 - u.z2) ^ 2) *
          ((u.x2 + u.z2) ^ 2 + a24 * ((u.x2 + u.z2) ^ 2 - (u.x2 - u.z2) ^ 2))
        swap := k.testBit i } := by
    rw [Rfc7748.step]
    simp only [hc]
  rw [key]
  generalize t.cswap t.swap = u at e1 e2 e3 e4 ⊢
  obtain ⟨u1, u2, u3, u4, u5⟩ := u
  simp only at e1 e2 e3 e4
  subst e1 e2 e3 e4
  unfold ladder2Step
  cases hk : k.testBit i
  · rw [hk] at hb
    simp only [hb, cswap]
    refine ⟨?_, ?_, ?_, ?_⟩ <;> simp [Rfc7748.State.cswap]
  · rw [hk] at hb
    simp only [hb, cswap]
    refine ⟨?_, ?_, ?_, ?_⟩ <;> simp [Rfc7748.State.cswap]

/-- The variables of the ladder of RFC 7748 after the loop, if it is started with `x_2 = 0` and
`z_2 = 1` instead of `x_2 = 1` and `z_2 = 0`. -/
def ladderFromZeroOne (bits : Nat) (a24 u : ZMod p) (k : Nat) : Rfc7748.State (ZMod p) :=
  let s := (List.range bits).reverse.foldl (Rfc7748.step a24 u k) ⟨0, 1, u, 1, false⟩
  s.cswap s.swap

/-- C138: with `x_1` bound to the coordinate the loop is the one of RFC 7748 (for `a ≡ 2` modulo 4),
but it starts with other values, and the last line does not divide: the result is the numerator, or 0
if the denominator is 0. -/
theorem C138_value (names : List String) (hn : "x_1" ∈ names) (c : MCurve) (a : Int) (hca : c.a = some a)
    (hp : c.p = p) (k : Nat) (x : Int) :
    ∃ r : Int, c.montgomeryLadder2 names k x = .ok r ∧ 0 ≤ r ∧ r < p ∧
      (r : ZMod p) =
        if (ladderFromZeroOne (p := p) 255 (((a - 2).fdiv 4 : Int) : ZMod p) x k).z2 = 0 then 0
        else (ladderFromZeroOne (p := p) 255 (((a - 2).fdiv 4 : Int) : ZMod p) x k).x2 := by
  have loop : ∀ (is : List Nat) (s : Int × Int × Int × Int) (t : Rfc7748.State (ZMod p)), Equal s t →
      Equal (is.foldl (ladder2Step x ((a - 2).fdiv 4) k) s)
        (is.foldl (Rfc7748.step (((a - 2).fdiv 4 : Int) : ZMod p) (x : ZMod p) k) t) := by
    intro is
    induction is with
    | nil => intro s t h; exact h
    | cons i is ih => intro s t h; exact ih _ _ (equal_step _ x k i s t h)
  have h := loop (List.range 255).reverse (0, 1, x, 1) ⟨0, 1, x, 1, false⟩
    ⟨by simp [Rfc7748.State.cswap], by simp [Rfc7748.State.cswap], by simp [Rfc7748.State.cswap],
      by simp [Rfc7748.State.cswap]⟩
  have he : ((p : Int) - 1).toNat = p - 1 := by omega
  rw [ladderFromZeroOne]
  rw [MCurve.montgomeryLadder2, hca, readGlobal, if_pos hn, hp, he]
  generalize 255 = n at h ⊢
  obtain ⟨e1, e2, -, -⟩ := h
  obtain ⟨r, h1, h3, h4, h5⟩ := pyMod_ok hpf.out.pos
    (((List.range n).reverse.foldl (ladder2Step x ((a - 2).fdiv 4) k) (0, 1, x, 1)).1 *
      ((List.range n).reverse.foldl (ladder2Step x ((a - 2).fdiv 4) k) (0, 1, x, 1)).2.1 ^ (p - 1))
  refine ⟨r, h1, h3, h4, ?_⟩
  rw [h5]
  push_cast
  rw [← e1, ← e2]
  have hp2 := hpf.out.two_le
  split
  · next h0 => rw [h0, zero_pow (by omega), mul_zero]
  · next h0 => rw [ZMod.pow_card_sub_one_eq_one h0, mul_one]
example [Fact (Nat.Prime 13)] := C138_value (p := 13) ["x_1"] (by simp) ⟨13, some 3⟩ 3 rfl rfl 5 2

omit hpf in
private theorem step_first (x a24 k : Int) (i : Nat) (h : (k.fdiv (2 ^ i)) % 2 = 0) :
    ladder2Step x a24 k (0, 1, x, 1) i = (1, 0, 4, 4 * x ^ 3) := by
  simp only [ladder2Step, h, cswap, Prod.mk.injEq]
  refine ⟨by ring, by ring, by ring, by ring⟩

omit hpf in
private theorem step_zero (x a24 k u w : Int) (i : Nat) (h : (k.fdiv (2 ^ i)) % 2 = 0) :
    ladder2Step x a24 k (1, 0, u, w) i = (1, 0, 4 * u ^ 2, 4 * (x * w ^ 2)) := by
  simp only [ladder2Step, h, cswap, Prod.mk.injEq]
  refine ⟨by ring, by ring, by ring, by ring⟩

omit hpf in
private theorem step_one (x a24 k u w : Int) (i : Nat) (h : (k.fdiv (2 ^ i)) % 2 = 1) :
    (ladder2Step x a24 k (1, 0, u, w) i).1 = 4 * u ^ 2 ∧
      (ladder2Step x a24 k (1, 0, u, w) i).2.1 = 4 * (x * w ^ 2) := by
  simp only [ladder2Step, h, cswap]
  constructor <;> ring

omit hpf in
private theorem odd_not_dvd (q : Nat) (hq : q.Prime) (h2 : q ≠ 2) (x w : Int) (hx : ¬ (q : Int) ∣ x)
    (hw : ¬ (q : Int) ∣ w) (e : Nat) : ¬ (q : Int) ∣ 4 * (x * w ^ e) := by
  intro h
  rcases Int.Prime.dvd_mul' hq h with h | h
  · have h4 : q ∣ 2 ^ 2 := by exact_mod_cast h
    exact h2 ((Nat.prime_dvd_prime_iff_eq hq Nat.prime_two).1 (hq.dvd_of_dvd_pow h4))
  · rcases Int.Prime.dvd_mul' hq h with h | h
    · exact hx h
    · exact hw (Int.Prime.dvd_pow' hq h)

omit hpf in
/-- The steps for zero bits. -/
private theorem zero_bits (x a24 k : Int) (is : List Nat) (i : Nat)
    (h : ∀ j ∈ i :: is, (k.fdiv (2 ^ j)) % 2 = 0) :
    ∃ w : Int, (∀ q : Nat, q.Prime → q ≠ 2 → ¬ (q : Int) ∣ x → ¬ (q : Int) ∣ w) ∧
      (i :: is).foldl (ladder2Step x a24 k) (0, 1, x, 1) = (1, 0, 4 ^ (2 ^ (is.length + 1) - 1), w) := by
  induction is using List.reverseRecOn with
  | nil =>
    refine ⟨4 * x ^ 3, fun q hq h2 hx => ?_, ?_⟩
    · rw [show 4 * x ^ 3 = 4 * (x * x ^ 2) by ring]
      exact odd_not_dvd q hq h2 x x hx hx 2
    · rw [List.foldl_cons, List.foldl_nil, step_first x a24 k i (h i (by simp))]
      norm_num
  | append_singleton is j ih =>
    obtain ⟨w, hw, e⟩ := ih (fun l hl => h l (by
      rw [List.mem_cons] at hl ⊢
      rcases hl with hl | hl
      · exact Or.inl hl
      · exact Or.inr (List.mem_append_left _ hl)))
    refine ⟨4 * (x * w ^ 2), fun q hq h2 hx => odd_not_dvd q hq h2 x w hx (hw q hq h2 hx) 2, ?_⟩
    rw [← List.cons_append, List.foldl_append, e, List.foldl_cons, List.foldl_nil,
      step_zero x a24 k _ _ j (h j (by simp)), List.length_append, List.length_singleton]
    have h1 : 1 ≤ 2 ^ (is.length + 1) := Nat.one_le_two_pow
    have e2 : 2 ^ (is.length + 1 + 1) - 1 = 2 * (2 ^ (is.length + 1) - 1) + 1 := by
      rw [pow_succ 2 (is.length + 1)]; omega
    rw [e2, pow_succ (4 : Int) (2 * _), pow_mul' (4 : Int), mul_comm]

/-- C138: so the repaired function would be wrong already for the scalar 1: for every point whose
x-coordinate is not zero modulo `p` it would return one and the same number. -/
theorem C138_one (names : List String) (hn : "x_1" ∈ names) (c : MCurve) (a : Int) (hca : c.a = some a)
    (hp : c.p = p) (h2 : p ≠ 2) (x : Int) (hx : ¬ (p : Int) ∣ x) :
    c.montgomeryLadder2 names 1 x = .ok (((4 ^ (2 ^ 255 - 1) : ZMod p).val : Nat) : Int) := by
  have he : ((p : Int) - 1).toNat = p - 1 := by omega
  rw [MCurve.montgomeryLadder2, hca, readGlobal, if_pos hn, hp, he]
  obtain ⟨n, hn255⟩ : ∃ n, 255 = n + 2 := ⟨253, rfl⟩
  rw [hn255]
  clear hn255
  have hl : (List.range (n + 2)).reverse = (n + 1) :: (List.range' 1 n).reverse ++ [0] := by
    rw [List.range_succ, List.reverse_append, List.range_eq_range', show n + 1 = 1 + n by omega,
      ← List.range'_append_1]
    simp [add_comm]
  have hbit : ∀ t, t ≠ 0 → ((1 : Int).fdiv (2 ^ t)) % 2 = 0 := by
    intro t ht
    have := bit2 1 t
    have hf : Nat.testBit 1 t = false := by
      rw [← Bool.not_eq_true, Nat.testBit_one_eq_true_iff_self_eq_zero]; exact ht
    rw [hf] at this
    simpa using this
  obtain ⟨w, hw, e⟩ := zero_bits x ((a - 2).fdiv 4) 1 (List.range' 1 n).reverse (n + 1) (by
    intro j hj
    apply hbit
    rw [List.mem_cons, List.mem_reverse, List.mem_range'_1] at hj
    omega)
  have e1 := step_one x ((a - 2).fdiv 4) 1 (4 ^ (2 ^ (n + 1) - 1)) w 0 (by decide)
  have hfold : (List.range (n + 2)).reverse.foldl (ladder2Step x ((a - 2).fdiv 4) 1) (0, 1, x, 1) =
      ladder2Step x ((a - 2).fdiv 4) 1 (1, 0, 4 ^ (2 ^ (n + 1) - 1), w) 0 := by
    rw [hl, List.foldl_append, e]
    simp
  change pyMod (((List.range (n + 2)).reverse.foldl (ladder2Step x ((a - 2).fdiv 4) 1) (0, 1, x, 1)).1 *
    ((List.range (n + 2)).reverse.foldl (ladder2Step x ((a - 2).fdiv 4) 1) (0, 1, x, 1)).2.1 ^ (p - 1)) p = _
  rw [hfold, e1.1, e1.2]
  obtain ⟨r, h1, h3, h4, h5⟩ := pyMod_ok hpf.out.pos
    (4 * (4 ^ (2 ^ (n + 1) - 1)) ^ 2 * (4 * (x * w ^ 2)) ^ (p - 1))
  rw [h1]
  congr 1
  have hz : ((4 * (x * w ^ 2) : Int) : ZMod p) ≠ 0 := by
    rw [Ne, ZMod.intCast_zmod_eq_zero_iff_dvd]
    exact odd_not_dvd p hpf.out h2 x w hx (hw p hpf.out h2 hx) 2
  have hr : (r : ZMod p) = 4 ^ (2 ^ (n + 2) - 1) := by
    rw [h5, Int.cast_mul, Int.cast_pow, ZMod.pow_card_sub_one_eq_one hz, mul_one]
    have h1 : 1 ≤ 2 ^ (n + 1) := Nat.one_le_two_pow
    have e2 : 2 ^ (n + 2) - 1 = 2 * (2 ^ (n + 1) - 1) + 1 := by
      rw [pow_succ 2 (n + 1)]; omega
    rw [e2, pow_succ (4 : ZMod p) (2 * _), pow_mul' (4 : ZMod p)]
    push_cast
    rw [mul_comm]
  rw [← hr]
  have hr' : r = ((r.toNat : Nat) : Int) := (Int.toNat_of_nonneg h3).symm
  rw [hr', Int.cast_natCast, ZMod.val_natCast, Nat.mod_eq_of_lt (by omega)]
example [Fact (Nat.Prime 13)] := C138_one (p := 13) ["x_1"] (by simp) ⟨13, some 3⟩ 3 rfl rfl (by decide) 2 (by decide)

private theorem four_pow (hbig : 2 ^ 38 < p) (e : Nat) (he : e = (p - 1) + 19) :
    (4 ^ e : ZMod p).val = 2 ^ 38 := by
  have h4 : (4 : ZMod p) ≠ 0 := by
    have : ((4 : Nat) : ZMod p) ≠ 0 := by
      rw [Ne, ZMod.natCast_eq_zero_iff]
      exact fun h => absurd (Nat.le_of_dvd (by norm_num) h) (by omega)
    exact_mod_cast this
  rw [he, pow_add, ZMod.pow_card_sub_one_eq_one h4, one_mul]
  have : (4 : ZMod p) ^ 19 = ((2 ^ 38 : Nat) : ZMod p) := by push_cast; norm_num
  rw [this, ZMod.val_natCast, Nat.mod_eq_of_lt hbig]

omit hpf in
/-- C138: on Curve25519 this number is `2^38`, whatever the point. -/
theorem C138_curve25519 (names : List String) (hn : "x_1" ∈ names) (x : Int)
    (hx : ¬ (2 ^ 255 - 19 : Int) ∣ x) : Curve25519.curve.montgomeryLadder2 names 1 x = .ok (2 ^ 38) := by
  have hq : Fact (Nat.Prime (2 ^ 255 - 19)) := ⟨by
    have := Curve25519_p_prime
    rwa [show Curve25519.p.toNat = 2 ^ 255 - 19 by decide +kernel] at this⟩
  have hN : ((2 ^ 255 - 19 : Nat) : Int) = 2 ^ 255 - 19 := by norm_num
  rw [C138_one (p := 2 ^ 255 - 19) names hn Curve25519.curve 486662 rfl (by rw [hN]; rfl) (by norm_num) x
    (by rw [hN]; exact hx), four_pow (by norm_num) _ (by norm_num)]
  norm_num

-- The base point of Curve25519.
example : Curve25519.curve.montgomeryLadder2 ("x_1" :: eccNames) 1 Curve25519.xG = .ok (2 ^ 38) :=
  C138_curve25519 _ (by simp) _ (by decide +kernel)

end Cryptopy
