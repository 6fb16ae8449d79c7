import Verif.Model.Trace
import Verif.Props.Curves

/-!
C142: the sequence of point operations of `scalar_multiple`.
-/

namespace Cryptopy
open Cryptopy.Model Cryptopy.Spec

/-- The number with the signed binary digits `ds`, least significant first. -/
def signedValue : List Int → Int
  | [] => 0
  | d :: ds => d + 2 * signedValue ds

/-- Digits -1, 0 and 1. -/
def SignedDigits (ds : List Int) : Prop := ∀ d ∈ ds, d = -1 ∨ d = 0 ∨ d = 1

/-- A non-adjacent form that ends with 1: of two neighbouring digits one is 0. -/
def IsNaf (ds : List Int) : Prop :=
  SignedDigits ds ∧ ds.getLast? = some 1 ∧ ∀ j, ds.getD j 0 ≠ 0 → ds.getD (j + 1) 0 = 0

/-- The number of digits other than 0. -/
def weight (ds : List Int) : Nat := ds.countP (· ≠ 0)

/-- The operations for one digit. -/
def digitOps (d : Int) : List PointOp :=
  .double :: if d = 1 then [.add] else if d = -1 then [.addNegative] else []

/-- The operations for digits, the most significant digit being the start. -/
def opsOf (ds : List Int) : List PointOp := ds.dropLast.reverse.flatMap digitOps

/-! ### The digits -/

/-- Digit `j` of the form that `3 e` and `e` give. -/
private def nafDigit (e j : Nat) : Int := ((3 * e / 2 ^ (j + 1) % 2 : Nat) : Int) - ((e / 2 ^ (j + 1) % 2 : Nat) : Int)

private def nafDigits (e T : Nat) : List Int := (List.range T).map (nafDigit e)

private theorem nafDigits_getD (e T j : Nat) : (nafDigits e T).getD j 0 = if j < T then nafDigit e j else 0 := by
  rw [nafDigits, List.getD_eq_getElem?_getD, List.getElem?_map]
  by_cases h : j < T
  · simp [h]
  · simp [h]

private theorem third (e t : Nat) : 3 * (e / 2 ^ t) ≤ 3 * e / 2 ^ t ∧ 3 * e / 2 ^ t ≤ 3 * (e / 2 ^ t) + 2 := by
  have hpos := Nat.two_pow_pos t
  have h1 := Nat.div_add_mod e (2 ^ t)
  have h2 := Nat.mod_lt e hpos
  constructor
  · rw [Nat.le_div_iff_mul_le hpos, mul_assoc, mul_comm (e / 2 ^ t)]
    omega
  · rw [← Nat.lt_succ_iff, Nat.div_lt_iff_lt_mul hpos]
    nlinarith

private theorem digit_cases (e j : Nat) : nafDigit e j = -1 ∨ nafDigit e j = 0 ∨ nafDigit e j = 1 := by
  unfold nafDigit
  omega

private theorem digit_adj (e j : Nat) (h : nafDigit e j ≠ 0) : nafDigit e (j + 1) = 0 := by
  unfold nafDigit at h ⊢
  obtain ⟨h1, h2⟩ := third e (j + 1)
  rw [pow_succ 2 (j + 1), ← Nat.div_div_eq_div_mul, ← Nat.div_div_eq_div_mul]
  generalize 3 * e / 2 ^ (j + 1) = A at *
  generalize e / 2 ^ (j + 1) = B at *
  omega

private theorem value_aux (e : Nat) : ∀ T s, signedValue ((List.range' s T).map (nafDigit e)) =
    ((3 * e / 2 ^ (s + 1) : Nat) : Int) - ((e / 2 ^ (s + 1) : Nat) : Int) -
      2 ^ T * (((3 * e / 2 ^ (s + T + 1) : Nat) : Int) - ((e / 2 ^ (s + T + 1) : Nat) : Int)) := by
  intro T
  induction T with
  | zero => intro s; simp [signedValue]
  | succ T ih =>
    intro s
    rw [List.range'_succ, List.map_cons, signedValue, ih, show s + 1 + T + 1 = s + (T + 1) + 1 by omega, nafDigit,
      pow_succ 2 (s + 1), ← Nat.div_div_eq_div_mul, ← Nat.div_div_eq_div_mul, pow_succ 2 T]
    generalize 3 * e / 2 ^ (s + 1) = A
    generalize e / 2 ^ (s + 1) = B
    have h1 := Nat.div_add_mod A 2
    have h2 := Nat.div_add_mod B 2
    zify at h1 h2 ⊢
    linear_combination h1 - h2

private theorem digits_value (e T : Nat) (h : 3 * e < 2 ^ (T + 1)) : signedValue (nafDigits e T) = e := by
  have := value_aux e T 0
  rw [← List.range_eq_range'] at this
  rw [nafDigits, this, zero_add, zero_add, pow_one, Nat.div_eq_of_lt h,
    Nat.div_eq_of_lt (show e < 2 ^ (T + 1) by omega), Nat.cast_zero, sub_self, mul_zero, sub_zero]
  omega

private theorem digits_naf (e t : Nat) (h1 : 2 ^ t ≤ 3 * e) (h2 : 3 * e < 2 ^ (t + 1)) (ht : 0 < t) :
    IsNaf (nafDigits e t) := by
  refine ⟨?_, ?_, ?_⟩
  · intro d hd
    obtain ⟨j, -, rfl⟩ := List.mem_map.mp hd
    exact digit_cases e j
  · obtain ⟨s, rfl⟩ : ∃ s, t = s + 1 := ⟨t - 1, by omega⟩
    rw [nafDigits, List.range_succ, List.map_append, List.map_singleton, List.getLast?_concat, nafDigit,
      Nat.div_eq_of_lt (show e < 2 ^ (s + 1) by rw [pow_succ] at h2; omega)]
    have : 3 * e / 2 ^ (s + 1) = 1 := by
      rw [Nat.div_eq_iff (Nat.two_pow_pos _)]
      rw [pow_succ 2 (s + 1)] at h2
      omega
    rw [this]
    rfl
  · intro j hj
    rw [nafDigits_getD] at hj ⊢
    split at hj
    · split
      · exact digit_adj e j hj
      · rfl
    · exact absurd rfl hj

/-! ### The log -/

private theorem and_pow (x t : Nat) : x &&& 2 ^ t = 0 ↔ x / 2 ^ t % 2 = 0 := by
  rw [Nat.and_two_pow]
  have : x.testBit t = decide (x / 2 ^ t % 2 = 1) := by rw [Nat.testBit_eq_decide_div_mod_eq]
  rw [this]
  rcases Nat.mod_two_eq_zero_or_one (x / 2 ^ t) with h | h <;> simp [h]

private theorem step_log (e : Nat) (point negative : WPoint) (j : Nat) (s : WPoint × List PointOp) :
    scalarStepLogged e (3 * e) point negative (2 ^ (j + 1)) s =
      (scalarStep e (3 * e) point negative (2 ^ (j + 1)) s.1).map fun r => (r, s.2 ++ digitOps (nafDigit e j)) := by
  have b3 := and_pow (3 * e) (j + 1)
  have b1 := and_pow e (j + 1)
  rw [scalarStepLogged, scalarStep]
  cases s.1.double with
  | error x => rfl
  | ok D =>
    change (do
      let s ← (if 3 * e &&& 2 ^ (j + 1) ≠ 0 ∧ e &&& 2 ^ (j + 1) = 0 then do
          let added ← D.add point
          .ok (added, s.2 ++ [.double] ++ [.add])
        else .ok (D, s.2 ++ [.double]) : Py (WPoint × List PointOp))
      (if 3 * e &&& 2 ^ (j + 1) = 0 ∧ e &&& 2 ^ (j + 1) ≠ 0 then do
          let added ← s.1.add negative
          .ok (added, s.2 ++ [.addNegative])
        else .ok s : Py (WPoint × List PointOp))) = Except.map _ (do
      let added ← (if 3 * e &&& 2 ^ (j + 1) ≠ 0 ∧ e &&& 2 ^ (j + 1) = 0 then D.add point else .ok D : Py WPoint)
      (if 3 * e &&& 2 ^ (j + 1) = 0 ∧ e &&& 2 ^ (j + 1) ≠ 0 then added.add negative else .ok added : Py WPoint))
    rw [nafDigit]
    rcases Nat.mod_two_eq_zero_or_one (3 * e / 2 ^ (j + 1)) with h3 | h3 <;>
    rcases Nat.mod_two_eq_zero_or_one (e / 2 ^ (j + 1)) with h1 | h1 <;>
    rw [h3, h1]
    · rw [h3] at b3; rw [h1] at b1
      simp only [ne_eq, b3, b1, not_true_eq_false, and_true, and_false, if_false]
      rfl
    · rw [h3] at b3; rw [h1] at b1
      simp only [ne_eq, b3, b1, one_ne_zero, not_false_eq_true, not_true_eq_false, and_self, if_true,
        if_false]
      change (do let added ← D.add negative; .ok (added, s.2 ++ [.double] ++ [.addNegative])) = Except.map _ (D.add negative)
      cases D.add negative with
      | error x => rfl
      | ok R => simp [digitOps, Except.map, bind, Except.bind]
    · rw [h3] at b3; rw [h1] at b1
      simp only [ne_eq, b3, b1, one_ne_zero, not_false_eq_true, not_true_eq_false, and_self, if_true,
        if_false]
      cases D.add point with
      | error x => rfl
      | ok R => simp [digitOps, Except.map, bind, Except.bind]
    · rw [h3] at b3; rw [h1] at b1
      simp only [ne_eq, b3, b1, one_ne_zero, not_false_eq_true, and_false, false_and, if_false]
      rfl

private theorem loop_log (e : Nat) (point negative : WPoint) (t : Nat) : ∀ s : WPoint × List PointOp,
    scalarLoopLogged e (3 * e) point negative (2 ^ t) s =
      (scalarLoop e (3 * e) point negative (2 ^ t) s.1).map
        fun r => (r, s.2 ++ (nafDigits e t).reverse.flatMap digitOps) := by
  induction t with
  | zero =>
    intro s
    rw [scalarLoopLogged, scalarLoop]
    simp [Except.map, nafDigits]
  | succ t ih =>
    intro s
    have h1 : 1 < 2 ^ (t + 1) := Nat.one_lt_two_pow (by omega)
    rw [scalarLoopLogged, scalarLoop, dif_pos h1, dif_pos h1, step_log,
      show 2 ^ (t + 1) / 2 = 2 ^ t by rw [pow_succ, Nat.mul_div_cancel _ (by decide)]]
    cases scalarStep e (3 * e) point negative (2 ^ (t + 1)) s.1 with
    | error x => rfl
    | ok R =>
      change scalarLoopLogged e (3 * e) point negative (2 ^ t) (R, _) = Except.map _ (scalarLoop e (3 * e) point negative _ R)
      rw [ih]
      cases scalarLoop e (3 * e) point negative (2 ^ t) R with
      | error x => rfl
      | ok T =>
        simp only [Except.map, nafDigits, List.range_succ, List.map_append, List.map_singleton, List.reverse_append,
          List.reverse_singleton, List.singleton_append, List.flatMap_cons, List.append_assoc]

private theorem leftmost (e : Nat) (he : 0 < e) : ∃ t, leftmostBit (3 * e) / 2 = 2 ^ t ∧ 2 ^ (t + 1) ≤ 3 * e ∧
    3 * e < 2 ^ (t + 2) := by
  obtain ⟨t, h1, h2, h3⟩ := leftmostBit_spec (3 * e) (by omega)
  obtain ⟨s, rfl⟩ : ∃ s, t = s + 1 := by
    refine ⟨t - 1, ?_⟩
    rcases Nat.eq_zero_or_pos t with h | h
    · subst h; simp at h3; omega
    · omega
  exact ⟨s, by rw [h1, pow_succ, Nat.mul_div_cancel _ (by decide)], h2, h3⟩

/-- The log of a multiplication by the natural number `e`. -/
private def logOf (e : Nat) : List PointOp := opsOf (nafDigits e (Nat.log2 (3 * e)))

private theorem logOf_eq (e t : Nat) (h1 : 2 ^ (t + 1) ≤ 3 * e) (h2 : 3 * e < 2 ^ (t + 2)) :
    logOf e = (nafDigits e t).reverse.flatMap digitOps := by
  have : Nat.log2 (3 * e) = t + 1 := by
    rw [Nat.log2_eq_log_two]
    exact Nat.log_eq_of_pow_le_of_lt_pow h1 h2
  rw [logOf, this, opsOf, nafDigits, List.range_succ, List.map_append, List.map_singleton, List.dropLast_concat, nafDigits]

private theorem mulLogged_eq (P : WPoint) (k : Int) :
    P.mulLogged k = (P.mul k).map fun R =>
      (R, if P.eq P.curve.identity then [] else logOf (k.fmod P.curve.n).toNat) := by
  rw [WPoint.mulLogged, WPoint.mul, WCurve.scalarMultiple, pyMod]
  by_cases hn : P.curve.n = 0
  · rw [if_pos hn]; rfl
  · rw [if_neg hn]
    generalize k.fmod P.curve.n = e
    by_cases he : e = 0
    · subst he
      have : logOf 0 = [] := by decide
      simp [Except.map, bind, Except.bind, this]
    · by_cases hP : P.eq P.curve.identity
      · simp [Except.map, bind, Except.bind, he, hP]
      · simp only [bind, Except.bind, he, hP, if_false]
        by_cases hpos : e > 0
        · obtain ⟨t, h1, h2, h3⟩ := leftmost e.toNat (by omega)
          simp only [Py.assert, hpos, if_true]
          cases num P.y with
          | error x => rfl
          | ok y =>
            simp only
            cases P.curve.point P.x (some (-y)) with
            | error x => rfl
            | ok N =>
              simp only
              rw [h1, loop_log, logOf_eq _ t h2 h3]
              cases scalarLoop e.toNat (3 * e.toNat) P N (2 ^ t) P with
              | error x => rfl
              | ok R => simp [Except.map]
        · simp [Py.assert, hpos, Except.map]

/-- C142: `WPoint.mulLogged` is `WPoint.mul` with a log: it fails in the same way and gives the same point. -/
theorem C142_same (P : WPoint) (k : Int) : (P.mulLogged k).map Prod.fst = P.mul k := by
  rw [mulLogged_eq]
  cases P.mul k <;> rfl

private theorem eq_identity (P : WPoint) : P.eq P.curve.identity = true ↔ P.x = none ∧ P.y = none := by
  simp [WPoint.eq, WCurve.identity]

private theorem logged {P : WPoint} {k : Int} (hn : 0 < P.curve.n) {R : WPoint} {log : List PointOp}
    (h : P.mulLogged k = .ok (R, log)) :
    log = if P.x = none ∧ P.y = none then [] else logOf (k % P.curve.n).toNat := by
  rw [mulLogged_eq, Int.fmod_eq_emod_of_nonneg _ hn.le] at h
  cases hm : P.mul k with
  | error x => rw [hm] at h; cases h
  | ok R' =>
    rw [hm] at h
    have := congrArg Prod.snd (Except.ok.inj h)
    simp only [eq_identity] at this
    exact this.symm

private theorem logOf_zero : logOf 0 = [] := by decide

private theorem logOf_naf (e : Nat) (he : 0 < e) : ∃ ds, IsNaf ds ∧ signedValue ds = e ∧ logOf e = opsOf ds ∧
    2 ^ ds.length ≤ 3 * e ∧ 3 * e < 2 ^ (ds.length + 1) := by
  obtain ⟨t, -, h2, h3⟩ := leftmost e he
  refine ⟨nafDigits e (t + 1), digits_naf e (t + 1) h2 h3 (by omega), digits_value e (t + 1) h3, ?_, ?_⟩
  · rw [logOf_eq e t h2 h3, opsOf, nafDigits, nafDigits, List.range_succ, List.map_append, List.map_singleton,
      List.dropLast_concat]
  · rw [nafDigits, List.length_map, List.length_range]
    exact ⟨h2, h3⟩

/-- C142: the operations of `scalar_multiple` for a finite point and a scalar that is not 0 modulo `n` are one
doubling, and perhaps one addition of the point or of its negative, for each digit after the first of a non-adjacent form
of the scalar modulo `n`. -/
theorem C142_log (P : WPoint) (k : Int) (hn : 0 < P.curve.n) (R : WPoint) (log : List PointOp)
    (h : P.mulLogged k = .ok (R, log)) :
    if P.x = none ∧ P.y = none ∨ P.curve.n ∣ k then log = [] else
      ∃ ds, IsNaf ds ∧ signedValue ds = k % P.curve.n ∧ log = opsOf ds := by
  rw [logged hn h]
  by_cases hP : P.x = none ∧ P.y = none
  · rw [if_pos (.inl hP), if_pos hP]
  · rw [if_neg hP]
    by_cases hk : P.curve.n ∣ k
    · rw [if_pos (.inr hk), Int.emod_eq_zero_of_dvd hk]
      exact logOf_zero
    · rw [if_neg (not_or.mpr ⟨hP, hk⟩)]
      have h0 := Int.emod_nonneg k hn.ne'
      have h1 : k % P.curve.n ≠ 0 := fun h => hk (Int.dvd_of_emod_eq_zero h)
      obtain ⟨ds, d1, d2, d3, -⟩ := logOf_naf (k % P.curve.n).toNat (by omega)
      exact ⟨ds, d1, by rw [d2]; omega, d3⟩
example := C142_log ⟨{ oid := 0, p := 23, a := 1, b := 1, n := 28 }, some 3, some 10⟩ 11 (by decide)
  ⟨{ oid := 0, p := 23, a := 1, b := 1, n := 28 }, some 18, some 20⟩
  [.double, .double, .addNegative, .double, .double, .addNegative] (by decide +kernel)

/-! ### What the log gives away -/

/-- The operations on multiples of the point, as operations on the factor. -/
def replay (m : Int) (log : List PointOp) : Int :=
  log.foldl (fun m op => match op with
    | .double => 2 * m
    | .add => m + 1
    | .addNegative => m - 1) m

private theorem replay_digit (m d : Int) (hd : d = -1 ∨ d = 0 ∨ d = 1) : replay m (digitOps d) = 2 * m + d := by
  rcases hd with rfl | rfl | rfl <;> (simp [replay, digitOps]; try ring)

private theorem replay_append (m : Int) (l l' : List PointOp) : replay m (l ++ l') = replay (replay m l) l' := by
  simp [replay]

private theorem replay_digits (ds : List Int) (h : SignedDigits ds) (m : Int) :
    replay m (ds.reverse.flatMap digitOps) = 2 ^ ds.length * m + signedValue ds := by
  induction ds with
  | nil => simp [replay, signedValue]
  | cons d ds ih =>
    rw [List.reverse_cons, List.flatMap_append, replay_append, ih fun x hx => h x (List.mem_cons_of_mem _ hx),
      List.flatMap_singleton, replay_digit _ _ (h d (by simp)), signedValue, List.length_cons, pow_succ]
    ring

private theorem signedValue_concat (ds : List Int) (d : Int) :
    signedValue (ds ++ [d]) = signedValue ds + 2 ^ ds.length * d := by
  induction ds with
  | nil => simp [signedValue]
  | cons x ds ih => rw [List.cons_append, signedValue, ih, signedValue, List.length_cons, pow_succ]; ring

private theorem last_one {ds : List Int} (h : ds.getLast? = some 1) : ds = ds.dropLast ++ [1] := by
  have hne : ds ≠ [] := by rintro rfl; simp at h
  rw [List.getLast?_eq_some_getLast hne] at h
  conv_lhs => rw [← List.dropLast_concat_getLast hne, Option.some.inj h]

private theorem replay_logOf (e : Nat) (he : 0 < e) : replay 1 (logOf e) = e := by
  obtain ⟨ds, ⟨d1, d2, -⟩, d4, d5, -⟩ := logOf_naf e he
  have hl := last_one d2
  rw [d5, opsOf, replay_digits _ fun x hx => d1 x (List.mem_of_mem_dropLast hx), ← d4]
  conv_rhs => rw [hl, signedValue_concat]
  ring

/-- C142: the sequence of operations on a finite point gives away the scalar modulo `n`: it is got by doing the same to
the number 1 (unless it is 0, when nothing happens, as for 1). -/
theorem C142_secret (P : WPoint) (k : Int) (hn : 0 < P.curve.n) (hP : ¬ (P.x = none ∧ P.y = none)) (R : WPoint)
    (log : List PointOp) (h : P.mulLogged k = .ok (R, log)) :
    if P.curve.n ∣ k then log = [] else replay 1 log = k % P.curve.n := by
  rw [logged hn h, if_neg hP]
  have h0 := Int.emod_nonneg k hn.ne'
  split
  · next hk =>
    rw [Int.emod_eq_zero_of_dvd hk]
    exact logOf_zero
  · next hk =>
    have h1 : k % P.curve.n ≠ 0 := fun h => hk (Int.dvd_of_emod_eq_zero h)
    rw [replay_logOf _ (by omega)]
    omega
example := C142_secret ⟨{ oid := 0, p := 23, a := 1, b := 1, n := 28 }, some 3, some 10⟩ 11 (by decide) (by decide)
  ⟨{ oid := 0, p := 23, a := 1, b := 1, n := 28 }, some 18, some 20⟩
  [.double, .double, .addNegative, .double, .double, .addNegative] (by decide +kernel)

/-! ### Counts -/

private def NonAdj (ds : List Int) : Prop := ∀ j, ds.getD j 0 ≠ 0 → ds.getD (j + 1) 0 = 0

private theorem NonAdj.tail {d : Int} {ds : List Int} (h : NonAdj (d :: ds)) : NonAdj ds := fun j hj => by
  have := h (j + 1) (by simpa using hj)
  simpa using this

private theorem NonAdj.head {d : Int} {ds : List Int} (h : NonAdj (d :: ds)) (hd : d ≠ 0) :
    ds = [] ∨ ∃ ds', ds = 0 :: ds' := by
  have := h 0 (by simpa using hd)
  cases ds with
  | nil => exact .inl rfl
  | cons x ds => exact .inr ⟨ds, by simp at this; rw [this]⟩

private theorem weight_cons (d : Int) (ds : List Int) : weight (d :: ds) = weight ds + if d = 0 then 0 else 1 := by
  rw [weight, weight, List.countP_cons]
  by_cases h : d = 0 <;> simp [h]

private theorem weight_bound (n : Nat) : ∀ ds : List Int, ds.length ≤ n → NonAdj ds → 2 * weight ds ≤ ds.length + 1 := by
  induction n using Nat.strong_induction_on with
  | _ n ih =>
    intro ds hl h
    cases ds with
    | nil => simp [weight]
    | cons d ds =>
      rw [weight_cons]
      rw [List.length_cons] at hl ⊢
      by_cases hd : d = 0
      · have := ih (n - 1) (by omega) ds (by omega) h.tail
        rw [if_pos hd]
        omega
      · rw [if_neg hd]
        rcases h.head hd with rfl | ⟨ds', rfl⟩
        · simp [weight]
        · rw [List.length_cons] at hl ⊢
          have := ih (n - 2) (by omega) ds' (by omega) h.tail.tail
          rw [weight_cons, if_pos rfl]
          omega

private theorem count_double (ds : List Int) : (ds.flatMap digitOps).count .double = ds.length := by
  induction ds with
  | nil => rfl
  | cons d ds ih =>
    rw [List.flatMap_cons, List.count_append, ih, List.length_cons, digitOps]
    split
    · simp; omega
    · split <;> simp <;> omega

private theorem count_adds (ds : List Int) (h : SignedDigits ds) :
    (ds.flatMap digitOps).countP (· ≠ .double) = weight ds := by
  induction ds with
  | nil => rfl
  | cons d ds ih =>
    rw [List.flatMap_cons, List.countP_append, ih fun x hx => h x (List.mem_cons_of_mem _ hx), weight_cons, digitOps]
    rcases h d (by simp) with rfl | rfl | rfl <;> simp <;> omega

private theorem weight_reverse (ds : List Int) : weight ds.reverse = weight ds := by
  rw [weight, weight, List.countP_reverse]

private theorem ops_counts {ds : List Int} (h : IsNaf ds) :
    (opsOf ds).count .double + 1 = ds.length ∧ (opsOf ds).countP (· ≠ .double) + 1 = weight ds := by
  obtain ⟨d1, d2, -⟩ := h
  have hl := last_one d2
  constructor
  · rw [opsOf, count_double, List.length_reverse]
    conv_rhs => rw [hl]
    simp
  · rw [opsOf, count_adds _ fun x hx => d1 x (List.mem_of_mem_dropLast (List.mem_reverse.mp hx)), weight_reverse]
    conv_rhs => rw [hl]
    simp [weight]

/-- C142: for the scalar `e = k % n` not 0 there are `d` doublings with `2^(d+1) ≤ 3 e < 2^(d+2)`, so that their number
gives away the size of the scalar, and at most half as many additions. -/
theorem C142_counts (P : WPoint) (k : Int) (hn : 0 < P.curve.n) (hP : ¬ (P.x = none ∧ P.y = none))
    (hk : ¬ P.curve.n ∣ k) (R : WPoint) (log : List PointOp) (h : P.mulLogged k = .ok (R, log)) :
    2 ^ (log.count .double + 1) ≤ 3 * (k % P.curve.n) ∧ 3 * (k % P.curve.n) < 2 ^ (log.count .double + 2) ∧
      2 * log.countP (· ≠ .double) ≤ log.count .double := by
  rw [logged hn h, if_neg hP]
  have h0 := Int.emod_nonneg k hn.ne'
  have h1 : k % P.curve.n ≠ 0 := fun h => hk (Int.dvd_of_emod_eq_zero h)
  obtain ⟨ds, d1, d2, d3, d4, d5⟩ := logOf_naf (k % P.curve.n).toNat (by omega)
  obtain ⟨c1, c2⟩ := ops_counts d1
  have := weight_bound _ ds (le_refl _) d1.2.2
  rw [d3]
  rw [← c1] at d4 d5
  zify at d4 d5
  rw [Int.toNat_of_nonneg h0] at d4 d5
  exact ⟨d4, d5, by omega⟩
example := C142_counts ⟨{ oid := 0, p := 23, a := 1, b := 1, n := 28 }, some 3, some 10⟩ 11 (by decide) (by decide) (by decide)
  ⟨{ oid := 0, p := 23, a := 1, b := 1, n := 28 }, some 18, some 20⟩
  [.double, .double, .addNegative, .double, .double, .addNegative] (by decide +kernel)

/-! ### No signed form has fewer digits -/

private def nafWeight (e : Int) : Nat :=
  if e = 0 then 0
  else if e % 2 = 0 then nafWeight (e / 2)
  else nafWeight ((e - (2 - e % 4)) / 2) + 1
termination_by e.natAbs
decreasing_by all_goals omega

private theorem nw_even (v : Int) : nafWeight (2 * v) = nafWeight v := by
  by_cases h : v = 0
  · subst h; rfl
  · rw [nafWeight, if_neg (by omega), if_pos (by omega)]
    congr 1
    omega

private theorem nw_one (q : Int) : nafWeight (4 * q + 1) = nafWeight q + 1 := by
  rw [nafWeight, if_neg (by omega), if_neg (by omega), show (4 * q + 1 - (2 - (4 * q + 1) % 4)) / 2 = 2 * q by omega,
    nw_even]

private theorem nw_three (q : Int) : nafWeight (4 * q + 3) = nafWeight (q + 1) + 1 := by
  rw [nafWeight, if_neg (by omega), if_neg (by omega),
    show (4 * q + 3 - (2 - (4 * q + 3) % 4)) / 2 = 2 * (q + 1) by omega, nw_even]

private theorem nw_step (n : Nat) : ∀ e : Int, e.natAbs ≤ n →
    nafWeight (e + 1) ≤ nafWeight e + 1 ∧ nafWeight e ≤ nafWeight (e + 1) + 1 := by
  induction n using Nat.strong_induction_on with
  | _ n ih =>
    intro e hn
    obtain ⟨q, hq⟩ : ∃ q, e = 4 * q ∨ e = 4 * q + 1 ∨ e = 4 * q + 2 ∨ e = 4 * q + 3 := ⟨e / 4, by omega⟩
    obtain ⟨r, hr⟩ : ∃ r, q = 2 * r ∨ q = 2 * r + 1 := ⟨q / 2, by omega⟩
    have e4 : nafWeight (4 * q) = nafWeight q := by
      rw [show 4 * q = 2 * (2 * q) by ring, nw_even, nw_even]
    have e2 : nafWeight (4 * q + 2) = nafWeight (2 * q + 1) := by
      rw [show 4 * q + 2 = 2 * (2 * q + 1) by ring, nw_even]
    have e1 := nw_one q
    have e3 := nw_three q
    rcases hq with rfl | rfl | rfl | rfl
    · omega
    · have i1 := ih (n - 1) (by omega) (2 * q) (by omega)
      rw [nw_even] at i1
      rw [show 4 * q + 1 + 1 = 4 * q + 2 by ring, e2, e1]
      rcases hr with rfl | rfl
      · have := nw_one r
        rw [show 2 * (2 * r) + 1 = 4 * r + 1 by ring] at *
        rw [nw_even] at *
        omega
      · have := nw_three r
        have i2 := ih (n - 1) (by omega) (2 * r + 1) (by omega)
        rw [show 2 * (2 * r + 1) + 1 = 4 * r + 3 by ring] at *
        rw [show 2 * r + 1 + 1 = 2 * (r + 1) by ring, nw_even] at i2
        omega
    · have i1 := ih (n - 1) (by omega) (2 * q + 1) (by omega)
      rw [show 2 * q + 1 + 1 = 2 * (q + 1) by ring, nw_even] at i1
      rw [show 4 * q + 2 + 1 = 4 * q + 3 by ring, e2, e3]
      rcases hr with rfl | rfl
      · have := nw_one r
        have i2 := ih (n - 1) (by omega) (2 * r) (by omega)
        rw [show 2 * (2 * r) + 1 = 4 * r + 1 by ring] at *
        rw [nw_even] at i2
        omega
      · have := nw_three r
        rw [show 2 * (2 * r + 1) + 1 = 4 * r + 3 by ring] at *
        rw [show 2 * r + 1 + 1 = 2 * (r + 1) by ring, nw_even] at *
        omega
    · rw [show 4 * q + 3 + 1 = 4 * (q + 1) by ring, e3, show 4 * (q + 1) = 2 * (2 * (q + 1)) by ring, nw_even, nw_even]
      omega

private theorem nw_le (ds : List Int) (h : SignedDigits ds) : nafWeight (signedValue ds) ≤ weight ds := by
  induction ds with
  | nil => simp [signedValue, nafWeight]
  | cons d ds ih =>
    have := ih fun x hx => h x (List.mem_cons_of_mem _ hx)
    rw [signedValue, weight_cons]
    rcases h d (by simp) with rfl | rfl | rfl
    · have := (nw_step _ (-1 + 2 * signedValue ds) (le_refl _)).2
      rw [show -1 + 2 * signedValue ds + 1 = 2 * signedValue ds by ring, nw_even] at this
      rw [if_neg (by decide)]
      omega
    · rw [zero_add, nw_even, if_pos rfl]
      omega
    · have := (nw_step _ (2 * signedValue ds) (le_refl _)).1
      rw [nw_even] at this
      rw [add_comm, if_neg (by decide)]
      omega

private theorem nw_naf (n : Nat) : ∀ ds : List Int, ds.length ≤ n → SignedDigits ds → NonAdj ds →
    weight ds = nafWeight (signedValue ds) := by
  induction n using Nat.strong_induction_on with
  | _ n ih =>
    intro ds hl hs h
    cases ds with
    | nil => simp [signedValue, nafWeight, weight]
    | cons d ds =>
      rw [weight_cons, signedValue]
      rw [List.length_cons] at hl
      by_cases hd : d = 0
      · rw [if_pos hd, hd, zero_add, nw_even, add_zero]
        exact ih (n - 1) (by omega) ds (by omega) (fun x hx => hs x (List.mem_cons_of_mem _ hx)) h.tail
      · rw [if_neg hd]
        rcases h.head hd with rfl | ⟨ds', rfl⟩
        · rcases hs d (by simp) with rfl | rfl | rfl
          · have := nw_three (-1)
            simp [signedValue, weight] at this ⊢
            rw [this]; simp [nafWeight]
          · exact absurd rfl hd
          · have := nw_one 0
            simp [signedValue, weight] at this ⊢
            rw [this]; simp [nafWeight]
        · rw [List.length_cons] at hl
          have := ih (n - 2) (by omega) ds' (by omega)
            (fun x hx => hs x (List.mem_cons_of_mem _ (List.mem_cons_of_mem _ hx))) h.tail.tail
          rw [weight_cons, if_pos rfl, signedValue, zero_add, add_zero, this]
          rcases hs d (by simp) with rfl | rfl | rfl
          · rw [show -1 + 2 * (2 * signedValue ds') = 4 * (signedValue ds' - 1) + 3 by ring, nw_three, sub_add_cancel]
          · exact absurd rfl hd
          · rw [show 1 + 2 * (2 * signedValue ds') = 4 * signedValue ds' + 1 by ring, nw_one]

/-- C142: no way to write the scalar modulo `n` with digits -1, 0 and 1 needs fewer additions. -/
theorem C142_minimal (P : WPoint) (k : Int) (hn : 0 < P.curve.n) (R : WPoint) (log : List PointOp)
    (h : P.mulLogged k = .ok (R, log)) (hk : ¬ P.curve.n ∣ k) (ds : List Int) (hd : SignedDigits ds)
    (hv : signedValue ds = k % P.curve.n) : log.countP (· ≠ .double) + 1 ≤ weight ds := by
  have h0 := Int.emod_nonneg k hn.ne'
  have h1 : k % P.curve.n ≠ 0 := fun h => hk (Int.dvd_of_emod_eq_zero h)
  obtain ⟨ds', d1, d2, d3, -⟩ := logOf_naf (k % P.curve.n).toNat (by omega)
  have hw := nw_le ds hd
  have hw' := nw_naf _ ds' (le_refl _) d1.1 d1.2.2
  rw [d2, Int.toNat_of_nonneg h0, ← hv] at hw'
  obtain ⟨-, c2⟩ := ops_counts d1
  rw [logged hn h]
  split
  · simp; omega
  · rw [d3]; omega
example := C142_minimal ⟨{ oid := 0, p := 23, a := 1, b := 1, n := 28 }, some 3, some 10⟩ 11 (by decide)
  ⟨{ oid := 0, p := 23, a := 1, b := 1, n := 28 }, some 18, some 20⟩
  [.double, .double, .addNegative, .double, .double, .addNegative] (by decide +kernel) (by decide) [1, 1, 0, 1] (by unfold SignedDigits; decide) (by decide)

/-! ### Additions seen without their signs -/

/-- Whether an operation is a doubling. -/
def isDouble (op : PointOp) : Bool := op = .double

private def signs (l : List PointOp) : List Bool := (l.filter (! isDouble ·)).map (· = .add)

private theorem rebuild : ∀ l l' : List PointOp, l.map isDouble = l'.map isDouble → signs l = signs l' → l = l' := by
  intro l
  induction l with
  | nil => intro l' h _; cases l' with
    | nil => rfl
    | cons x l' => cases h
  | cons x l ih =>
    intro l' h hs
    cases l' with
    | nil => cases h
    | cons y l' =>
      rw [List.map_cons, List.map_cons, List.cons.injEq] at h
      cases x <;> cases y <;> simp [isDouble, signs] at h hs ⊢ <;>
        exact ih l' h (by simpa [signs, isDouble] using hs)

private theorem signs_length (l : List PointOp) : (signs l).length = (l.map isDouble).count false := by
  induction l with
  | nil => rfl
  | cons x l ih => cases x <;> simp [signs, isDouble] at ih ⊢ <;> exact ih

/-- C142: who sees the doublings and additions but not the signs of the latter is left with at most `2^a` scalars, where
`a` is the number of additions. -/
theorem C142_signs (P : WPoint) (hn : 0 < P.curve.n) (hP : ¬ (P.x = none ∧ P.y = none)) (u : List Bool) :
    {k : Int | 0 < k ∧ k < P.curve.n ∧ ∃ R log, P.mulLogged k = .ok (R, log) ∧ log.map isDouble = u}.ncard ≤
      2 ^ u.count false := by
  have key : ∀ k : Int, 0 < k → k < P.curve.n → ∀ R log, P.mulLogged k = .ok (R, log) → log = logOf k.toNat ∧
      replay 1 (logOf k.toNat) = k := by
    intro k h0 h1 R log h
    have := logged hn h
    rw [if_neg hP, Int.emod_eq_of_lt h0.le h1] at this
    exact ⟨this, by rw [replay_logOf _ (by omega)]; omega⟩
  have hc : (Set.range (fun v : List.Vector Bool (u.count false) => v.1)).ncard ≤ 2 ^ u.count false := by
    rw [← Set.image_univ]
    refine (Set.ncard_image_le Set.finite_univ).trans ?_
    rw [Set.ncard_univ, Nat.card_eq_fintype_card, card_vector, Fintype.card_bool]
  refine le_trans (Set.ncard_le_ncard_of_injOn (fun k => signs (logOf k.toNat)) ?_ ?_ (Set.finite_range _)) hc
  · rintro k ⟨h0, h1, R, log, h, hu⟩
    obtain ⟨rfl, -⟩ := key k h0 h1 R log h
    exact ⟨⟨signs (logOf k.toNat), by rw [signs_length, hu]⟩, rfl⟩
  · rintro k ⟨h0, h1, R, log, h, hu⟩ k' ⟨h0', h1', R', log', h', hu'⟩ e
    obtain ⟨rfl, r⟩ := key k h0 h1 R log h
    obtain ⟨rfl, r'⟩ := key k' h0' h1' R' log' h'
    rw [← r, ← r', rebuild _ _ (hu.trans hu'.symm) e]
example := C142_signs ⟨{ oid := 0, p := 23, a := 1, b := 1, n := 28 }, some 3, some 10⟩ (by decide) (by decide)
  [true, true, false]

/-- C142: on the shipped curves of prime order every scalar has a log. -/
theorem C142_shipped (K : WClass) (hK : K ∈ primeOrderClasses) (oid : Nat) (P : WPoint)
    (hc : P.curve = K.instance oid) (hon : (K.instance oid).onCurve P = .ok true)
    (hx : ∀ v, P.x = some v → 0 ≤ v ∧ v < K.p) (k : Int) : ∃ R log, P.mulLogged k = .ok (R, log) := by
  obtain ⟨R, h, -⟩ := C95_scalar K hK oid P hc hon hx k
  rw [← C142_same] at h
  cases hm : P.mulLogged k with
  | error x => rw [hm] at h; cases h
  | ok r => exact ⟨r.1, r.2, rfl⟩

-- 11 = 16 - 4 - 1 on the curve y² = x³ + x + 1 modulo 23, order 28.
private def exampleCurve : WCurve := { oid := 0, p := 23, a := 1, b := 1, n := 28 }

example : (⟨exampleCurve, some 3, some 10⟩ : WPoint).mulLogged 11 = .ok (⟨exampleCurve, some 18, some 20⟩,
    [.double, .double, .addNegative, .double, .double, .addNegative]) := by decide +kernel

example : IsNaf [-1, 0, -1, 0, 1] ∧ signedValue [-1, 0, -1, 0, 1] = 11 := by
  refine ⟨⟨by simp [SignedDigits], rfl, fun j hj => ?_⟩, rfl⟩
  match j with
  | 0 => rfl
  | 1 => exact absurd rfl hj
  | 2 => rfl
  | 3 => exact absurd rfl hj
  | j + 4 => rfl

end Cryptopy
