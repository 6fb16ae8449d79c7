import Mathlib.Data.ZMod.Basic
import Mathlib.Data.ZMod.Units
import Mathlib.RingTheory.ZMod.UnitsCyclic
import Mathlib.NumberTheory.Basic
import Verif.Lemmas.Primality

/-!
Strong liars: at most a quarter of the bases pass the Miller-Rabin test of an odd composite number.
-/

namespace Cryptopy
open Model

section Liars

variable {n : Nat} [NeZero n] {s r : Nat}

/-- The bases that pass, as elements of `ZMod n`. -/
def Liar (n s r : Nat) (z : ZMod n) : Prop := z ^ r = 1 ∨ ∃ j < s, z ^ (2 ^ j * r) = -1

omit [NeZero n] in
theorem liar_pow {z : ZMod n} (h : Liar n s r z) : z ^ (2 ^ s * r) = 1 := by
  rcases h with h | ⟨j, hj, h⟩
  · rw [mul_comm, pow_mul, h, one_pow]
  · obtain ⟨d, rfl⟩ := Nat.exists_eq_add_of_lt hj
    rw [show 2 ^ (j + d + 1) * r = 2 ^ j * r * (2 ^ d * 2) by rw [pow_succ, pow_add]; ring, pow_mul, h, mul_comm (2 ^ d),
      pow_mul, neg_one_sq, one_pow]

/-- Disjoint translates of a set of units by units. -/
theorem card_translates {ι : Type*} [Fintype ι] (hn : 1 < n) (T : Finset (ZMod n)) (u : ι → ZMod n)
    (hT : ∀ z ∈ T, IsUnit z) (hu : ∀ i, IsUnit (u i))
    (hd : ∀ z ∈ T, ∀ z' ∈ T, ∀ i j, z * u i = z' * u j → i = j) : T.card * Fintype.card ι ≤ n - 1 := by
  have : Nontrivial (ZMod n) := by
    have : Fact (1 < n) := ⟨hn⟩
    infer_instance
  have h := Finset.card_le_card_of_injOn (s := T ×ˢ (Finset.univ : Finset ι))
    (t := (Finset.univ : Finset (ZMod n)).erase 0) (fun x => x.1 * u x.2) (by
      rintro ⟨z, i⟩ hz
      rw [Finset.mem_coe, Finset.mem_product] at hz
      rw [Finset.mem_coe, Finset.mem_erase]
      exact ⟨((hT z hz.1).mul (hu i)).ne_zero, Finset.mem_univ _⟩) (by
      rintro ⟨z, i⟩ hz ⟨z', j⟩ hz' he
      rw [Finset.mem_coe, Finset.mem_product] at hz hz'
      have hij := hd z hz.1 z' hz'.1 i j he
      subst hij
      have := (hu i).mul_right_cancel he
      exact Prod.ext this rfl)
  rw [Finset.card_product, Finset.card_erase_of_mem (Finset.mem_univ _), Finset.card_univ, Finset.card_univ,
    ZMod.card] at h
  exact h

/-- Powers along an idempotent. -/
theorem idem_pow {R : Type*} [CommRing R] {e : R} (he : e * e = e) (a : R) (t : Nat) :
    (e * a + (1 - e)) ^ t = e * a ^ t + (1 - e) := by
  induction t with
  | zero => rw [pow_zero, pow_zero]; ring
  | succ t ih =>
    rw [pow_succ, ih, pow_succ]
    linear_combination (a ^ t * a - a ^ t - a + 1) * he

/-- The largest exponent `i < s` for which -1 is a `2^i`-th power. -/
theorem top_exponent (hs : 0 < s) : ∃ i < s, (∃ a : ZMod n, a ^ 2 ^ i = -1) ∧
    ∀ j < s, (∃ a : ZMod n, a ^ 2 ^ j = -1) → j ≤ i := by
  classical
  refine ⟨Nat.findGreatest (fun i => ∃ a : ZMod n, a ^ 2 ^ i = -1) (s - 1), ?_, ?_, ?_⟩
  · have := Nat.findGreatest_le (P := fun i => ∃ a : ZMod n, a ^ 2 ^ i = -1) (s - 1)
    omega
  · exact Nat.findGreatest_spec (P := fun i => ∃ a : ZMod n, a ^ 2 ^ i = -1) (m := 0) (Nat.zero_le _) ⟨-1, by simp⟩
  · intro j hj h
    exact Nat.le_findGreatest (by omega) h

omit [NeZero n] in
theorem liar_sign {i : Nat} (hi : ∀ j < s, (∃ a : ZMod n, a ^ 2 ^ j = -1) → j ≤ i) {z : ZMod n}
    (h : Liar n s r z) : z ^ (2 ^ i * r) = 1 ∨ z ^ (2 ^ i * r) = -1 := by
  rcases h with h | ⟨j, hj, h⟩
  · left; rw [mul_comm, pow_mul, h, one_pow]
  · have hji := hi j hj ⟨z ^ r, by rw [← pow_mul, mul_comm]; exact h⟩
    rcases Nat.eq_or_lt_of_le hji with rfl | hlt
    · right; exact h
    · left
      obtain ⟨d, rfl⟩ := Nat.exists_eq_add_of_lt hlt
      rw [show 2 ^ (j + d + 1) * r = 2 ^ j * r * (2 ^ d * 2) by rw [pow_succ, pow_add]; ring, pow_mul, h,
        mul_comm (2 ^ d), pow_mul, neg_one_sq, one_pow]

/-- Two idempotents `f`, `g` are far apart. -/
def Far {R : Type*} [CommRing R] (f g : R) : Prop := f ≠ g ∧ f + g ≠ 1

omit [NeZero n] in
theorem two_cancel (hodd : n % 2 = 1) {x y : ZMod n} (h : 2 * x = 2 * y) : x = y := by
  have hu : IsUnit ((2 : Nat) : ZMod n) := (ZMod.isUnit_iff_coprime 2 n).mpr
    ((Nat.coprime_two_left).mpr (Nat.odd_iff.mpr hodd))
  exact hu.mul_left_cancel (by push_cast; exact h)

omit [NeZero n] in
/-- Signs of far idempotents differ even up to a global sign. -/
theorem sign_differ (hodd : n % 2 = 1) {e f a b : ZMod n} (ha : a = 1 ∨ a = -1) (hb : b = 1 ∨ b = -1)
    (hf : Far e f) : a * (1 - 2 * e) ≠ b * (1 - 2 * f) := by
  intro h
  rcases ha with rfl | rfl <;> rcases hb with rfl | rfl
  · exact hf.1 (two_cancel hodd (by linear_combination -h))
  · exact hf.2 (two_cancel hodd (by linear_combination -h))
  · exact hf.2 (two_cancel hodd (by linear_combination h))
  · exact hf.1 (two_cancel hodd (by linear_combination h))

/-- Three orthogonal parts: four cosets. -/
theorem liars_three (hn : 1 < n) (hodd : n % 2 = 1) (hs : 0 < s) (hr : r % 2 = 1) (e f : ZMod n)
    (he : e * e = e) (hf : f * f = f) (hef : e * f = 0) (he0 : e ≠ 0) (hf0 : f ≠ 0) (h1 : e + f ≠ 1)
    (T : Finset (ZMod n)) (hT : ∀ z ∈ T, Liar n s r z) : T.card * 4 ≤ n - 1 := by
  obtain ⟨i, his, ⟨a, ha⟩, hi⟩ := top_exponent (n := n) hs
  have hr0 : 0 < r := by omega
  have hF : ∀ g : ZMod n, g * g = g → (g * a + (1 - g)) ^ (2 ^ i * r) = 1 - 2 * g := by
    intro g hg
    rw [idem_pow hg, pow_mul, ha, (Nat.odd_iff.mpr hr).neg_one_pow]
    ring
  let v : Fin 4 → ZMod n := ![0, e, f, e + f]
  have hv : ∀ k, v k * v k = v k := by
    intro k
    fin_cases k
    · exact mul_zero 0
    · exact he
    · exact hf
    · change (e + f) * (e + f) = e + f
      linear_combination he + hf + 2 * hef
  have e1 : e ≠ 1 := by
    rintro rfl
    exact hf0 (by rw [one_mul] at hef; exact hef)
  have f1 : f ≠ 1 := by
    rintro rfl
    exact he0 (by rw [mul_one] at hef; exact hef)
  have hee : e ≠ f := by
    rintro rfl
    exact he0 (by rw [← he, hef])
  have x1 : e + (e + f) ≠ 1 := fun h => he0 (by linear_combination e * h - 2 * he - hef)
  have x2 : f + (e + f) ≠ 1 := fun h => hf0 (by linear_combination f * h - 2 * hf - hef)
  have x3 : e + f ≠ 0 := fun h => he0 (by linear_combination e * h - he - hef + h - h)
  have hfar : ∀ k l, k ≠ l → Far (v k) (v l) := by
    intro k l hkl
    have key : ∀ k l : Fin 4, k < l → Far (v k) (v l) := by
      intro k l
      fin_cases k <;> fin_cases l <;> intro h <;> first | exact absurd h (by decide) | skip
      · exact ⟨he0.symm, by change 0 + e ≠ 1; rw [zero_add]; exact e1⟩
      · exact ⟨hf0.symm, by change 0 + f ≠ 1; rw [zero_add]; exact f1⟩
      · exact ⟨x3.symm, by change 0 + (e + f) ≠ 1; rw [zero_add]; exact h1⟩
      · exact ⟨hee, h1⟩
      · exact ⟨fun h => hf0 (by change e = e + f at h; linear_combination -h), x1⟩
      · exact ⟨fun h => he0 (by change f = e + f at h; linear_combination -h), x2⟩
    rcases lt_or_gt_of_ne hkl with h | h
    · exact key k l h
    · obtain ⟨p1, p2⟩ := key l k h
      exact ⟨p1.symm, by rw [add_comm]; exact p2⟩
  have hpos : 2 ^ i * r ≠ 0 := Nat.mul_ne_zero (by positivity) (by omega)
  have hpos2 : 2 ^ s * r ≠ 0 := Nat.mul_ne_zero (by positivity) (by omega)
  have h := card_translates hn T (fun k => v k * a + (1 - v k))
    (fun z hz => IsUnit.of_pow_eq_one (liar_pow (hT z hz)) hpos2)
    (fun k => by
      refine IsUnit.of_pow_eq_one (n := 2 ^ i * r * 2) ?_ (by omega)
      rw [pow_mul, hF _ (hv k)]
      linear_combination 4 * hv k)
    (by
      intro z hz z' hz' k l heq
      by_contra hkl
      apply sign_differ hodd (liar_sign hi (hT z hz)) (liar_sign hi (hT z' hz')) (hfar k l hkl)
      rw [← hF _ (hv k), ← hF _ (hv l), ← mul_pow, ← mul_pow, heq])
  simpa using h

/-- Two orthogonal parts and a unit of order not dividing `n - 1`: four cosets. -/
theorem liars_two (hn : 1 < n) (hodd : n % 2 = 1) (hs : 0 < s) (hr : r % 2 = 1) (hnsr : 2 ^ s * r = n - 1) (e w : ZMod n)
    (he : e * e = e) (he0 : e ≠ 0) (he1 : e ≠ 1) (hw : IsUnit w) (hw1 : w ^ (n - 1) ≠ 1)
    (T : Finset (ZMod n)) (hT : ∀ z ∈ T, Liar n s r z) : T.card * 4 ≤ n - 1 := by
  obtain ⟨i, his, ⟨a, ha⟩, hi⟩ := top_exponent (n := n) hs
  have hF : ∀ g : ZMod n, g * g = g → (g * a + (1 - g)) ^ (2 ^ i * r) = 1 - 2 * g := by
    intro g hg
    rw [idem_pow hg, pow_mul, ha, (Nat.odd_iff.mpr hr).neg_one_pow]
    ring
  obtain ⟨d, hd⟩ := Nat.exists_eq_add_of_lt his
  have hsplit : n - 1 = 2 ^ i * r * 2 * 2 ^ d := by
    rw [← hnsr, hd, pow_succ, pow_add]; ring
  let v : Bool → ZMod n := fun b => if b then e else 0
  let u : Bool → ZMod n := fun b => v b * a + (1 - v b)
  have hv : ∀ k, v k * v k = v k := by
    intro k
    cases k
    · exact mul_zero 0
    · exact he
  have hsq : ∀ k, u k ^ (2 ^ i * r * 2) = 1 := by
    intro k
    rw [pow_mul, hF _ (hv k)]
    linear_combination 4 * hv k
  have hu1 : ∀ k, u k ^ (n - 1) = 1 := by
    intro k
    rw [hsplit, pow_mul, hsq, one_pow]
  have hfar : ∀ k l, k ≠ l → Far (v k) (v l) := by
    intro k l hkl
    cases k <;> cases l
    · exact absurd rfl hkl
    · exact ⟨he0.symm, by change 0 + e ≠ 1; rw [zero_add]; exact he1⟩
    · exact ⟨he0, by change e + 0 ≠ 1; rw [add_zero]; exact he1⟩
    · exact absurd rfl hkl
  have hpos2 : 2 ^ s * r ≠ 0 := Nat.mul_ne_zero (by positivity) (by omega)
  let W : Bool → ZMod n := fun b => if b then w else 1
  have hW : ∀ k l, W k ^ (n - 1) = W l ^ (n - 1) → k = l := by
    intro k l h
    cases k <;> cases l
    · rfl
    · exact absurd (by change 1 ^ (n - 1) = w ^ (n - 1) at h; rw [one_pow] at h; exact h.symm) hw1
    · exact absurd (by change w ^ (n - 1) = 1 ^ (n - 1) at h; rw [one_pow] at h; exact h) hw1
    · rfl
  have hWu : ∀ k, IsUnit (W k) := by
    intro k
    cases k
    · exact isUnit_one
    · exact hw
  have h := card_translates hn T (fun k : Bool × Bool => u k.1 * W k.2)
    (fun z hz => IsUnit.of_pow_eq_one (liar_pow (hT z hz)) hpos2)
    (fun k => (IsUnit.of_pow_eq_one (hu1 k.1) (by omega)).mul (hWu k.2))
    (by
      rintro z hz z' hz' ⟨k, k'⟩ ⟨l, l'⟩ heq
      have hk : k' = l' := by
        apply hW
        have h := congrArg (· ^ (n - 1)) heq
        simp only [mul_pow] at h
        have h1 := liar_pow (hT z hz)
        have h2 := liar_pow (hT z' hz')
        rw [hnsr] at h1 h2
        rw [h1, h2, hu1, hu1, one_mul, one_mul, one_mul, one_mul] at h
        exact h
      subst hk
      have heq' : z * u k = z' * u l := by
        apply (hWu k').mul_right_cancel
        simp only at heq
        linear_combination heq
      have hkl : k = l := by
        by_contra hkl
        apply sign_differ hodd (liar_sign hi (hT z hz)) (liar_sign hi (hT z' hz')) (hfar k l hkl)
        rw [← hF _ (hv k), ← hF _ (hv l), ← mul_pow, ← mul_pow]
        exact congrArg (· ^ (2 ^ i * r)) heq'
      rw [hkl])
  simpa using h

/-- Prime powers. -/
theorem liars_prime_power (p e : Nat) (hp : p.Prime) (hn : n = p ^ (e + 1)) (hnsr : 2 ^ s * r = n - 1)
    (T : Finset (ZMod n)) (hT : ∀ z ∈ T, Liar n s r z) : T.card * p ^ e ≤ n - 1 := by
  have hp2 := hp.two_le
  have hle : p ^ e * 2 ≤ n := by rw [hn, pow_succ]; exact Nat.mul_le_mul_left _ hp2
  have hn2 : 1 < n := by
    have : 0 < p ^ e := Nat.pow_pos hp.pos
    omega
  let u : Fin (p ^ e) → ZMod n := fun k => ((1 + p * (k : Nat) : Nat) : ZMod n)
  have hu : ∀ k, u k ^ n = 1 := by
    intro k
    have hdvd := dvd_sub_pow_of_dvd_sub (R := Int) (p := p) (a := 1 + p * (k : Nat)) (b := 1) (by
      rw [add_sub_cancel_left]; exact Dvd.intro _ rfl) e
    rw [one_pow] at hdvd
    have h0 : u k ^ p ^ e = 1 := by
      have : (((1 + p * (k : Nat)) ^ p ^ e - 1 : Int) : ZMod n) = 0 := by
        rw [ZMod.intCast_zmod_eq_zero_iff_dvd, hn]
        exact_mod_cast hdvd
      push_cast at this
      simp only [u]
      push_cast
      linear_combination this
    obtain ⟨q, hq⟩ : p ^ e ∣ n := ⟨p, by rw [hn, pow_succ]⟩
    have : u k ^ n = u k ^ (p ^ e * q) := by rw [← hq]
    rw [this, pow_mul, h0, one_pow]
  have hu' : ∀ k, u k ^ (n - 1) * u k = 1 := by
    intro k
    rw [← pow_succ, Nat.sub_add_cancel (by omega), hu]
  have hinj : ∀ k l, u k = u l → k = l := by
    intro k l h
    simp only [u] at h
    rw [ZMod.natCast_eq_natCast_iff'] at h
    have hlt : ∀ k : Fin (p ^ e), 1 + p * (k : Nat) < n := by
      intro k
      have h1 : p * ((k : Nat) + 1) ≤ p * p ^ e := Nat.mul_le_mul_left _ k.2
      have h2 : p * p ^ e = n := by rw [hn, pow_succ]; ring
      rw [h2, Nat.mul_add] at h1
      omega
    rw [Nat.mod_eq_of_lt (hlt k), Nat.mod_eq_of_lt (hlt l)] at h
    exact Fin.ext (Nat.eq_of_mul_eq_mul_left hp.pos (Nat.add_left_cancel h))
  have hpos2 : 2 ^ s * r ≠ 0 := by omega
  have h := card_translates hn2 T u
    (fun z hz => IsUnit.of_pow_eq_one (liar_pow (hT z hz)) hpos2)
    (fun k => IsUnit.of_pow_eq_one (hu k) (by omega))
    (by
      intro z hz z' hz' k l heq
      apply hinj
      have h := congrArg (· ^ (n - 1)) heq
      simp only [mul_pow] at h
      have h1 := liar_pow (hT z hz)
      have h2 := liar_pow (hT z' hz')
      rw [hnsr] at h1 h2
      rw [h1, h2, one_mul, one_mul] at h
      linear_combination u l * hu' k - u k * hu' l - u k * u l * h)
  simpa using h

/-- Idempotents of a product of two coprime numbers. -/
theorem exists_idem (m k : Nat) (hm : 1 < m) (hk : 1 < k) (hc : m.Coprime k) :
    ∃ e : ZMod (m * k), e * e = e ∧ e ≠ 0 ∧ e ≠ 1 := by
  have : Fact (1 < m) := ⟨hm⟩
  have : Fact (1 < k) := ⟨hk⟩
  let φ := ZMod.chineseRemainder hc
  refine ⟨φ.symm (1, 0), ?_, ?_, ?_⟩
  · rw [← map_mul]; congr 1; simp
  · intro h
    have := φ.symm.injective (h.trans (map_zero φ.symm).symm)
    exact one_ne_zero (congrArg Prod.fst this)
  · intro h
    have := φ.symm.injective (h.trans (map_one φ.symm).symm)
    exact zero_ne_one (congrArg Prod.snd this)

/-- Orthogonal idempotents of a product of three coprime numbers. -/
theorem exists_idems (m k l : Nat) (hm : 1 < m) (hk : 1 < k) (hl : 1 < l) (hc : m.Coprime (k * l)) (hc' : k.Coprime l) :
    ∃ e f : ZMod (m * (k * l)), e * e = e ∧ f * f = f ∧ e * f = 0 ∧ e ≠ 0 ∧ f ≠ 0 ∧ e + f ≠ 1 := by
  have : Fact (1 < m) := ⟨hm⟩
  obtain ⟨g, hg, hg0, hg1⟩ := exists_idem k l hk hl hc'
  let φ := ZMod.chineseRemainder hc
  refine ⟨φ.symm (1, 0), φ.symm (0, g), ?_, ?_, ?_, ?_, ?_, ?_⟩
  · rw [← map_mul]; congr 1; simp
  · rw [← map_mul]; congr 1; simp [hg]
  · rw [← map_mul, ← map_zero φ.symm]; congr 1; simp
  · intro h
    have := φ.symm.injective (h.trans (map_zero φ.symm).symm)
    exact one_ne_zero (congrArg Prod.fst this)
  · intro h
    have := φ.symm.injective (h.trans (map_zero φ.symm).symm)
    exact hg0 (congrArg Prod.snd this)
  · intro h
    rw [← map_add] at h
    have := φ.symm.injective (h.trans (map_one φ.symm).symm)
    apply hg1
    have := congrArg Prod.snd this
    simpa using this

/-- If `q - 1` does not divide `m q - 1` then some unit has an order that does not divide it. -/
theorem exists_witness_coprime (m q : Nat) (hq : q.Prime) (hc : m.Coprime q) (hnd : ¬ q - 1 ∣ m * q - 1) :
    ∃ w : ZMod (m * q), IsUnit w ∧ w ^ (m * q - 1) ≠ 1 := by
  have : Fact q.Prime := ⟨hq⟩
  let φ := ZMod.chineseRemainder hc
  obtain ⟨g, hg⟩ := IsCyclic.exists_generator (α := (ZMod q)ˣ)
  have ho : orderOf g = q - 1 := by
    rw [orderOf_eq_card_of_forall_mem_zpowers hg, Nat.card_eq_fintype_card, ZMod.card_units]
  refine ⟨φ.symm (1, g), ?_, ?_⟩
  · have : IsUnit ((1, (g : ZMod q)) : ZMod m × ZMod q) := Prod.isUnit_iff.mpr ⟨isUnit_one, g.isUnit⟩
    exact this.map φ.symm
  · intro h
    rw [← map_pow] at h
    have h := φ.symm.injective (h.trans (map_one φ.symm).symm)
    have h2 : (g : ZMod q) ^ (m * q - 1) = 1 := congrArg Prod.snd h
    have h3 : g ^ (m * q - 1) = 1 := by
      apply Units.ext
      push_cast
      exact h2
    have h4 := orderOf_dvd_of_pow_eq_one h3
    rw [ho] at h4
    exact hnd h4

/-- For two primes some unit has an order that does not divide `p q - 1`. -/
theorem exists_witness_two (p q : Nat) (hp : p.Prime) (hq : q.Prime) (hlt : p < q) :
    ∃ w : ZMod (p * q), IsUnit w ∧ w ^ (p * q - 1) ≠ 1 := by
  refine exists_witness_coprime p q hq ((Nat.coprime_primes hp hq).mpr hlt.ne) ?_
  intro h4
  have hp2 := hp.two_le
  have e : p * q - 1 = (p - 1) + p * (q - 1) := by
    obtain ⟨q', rfl⟩ : ∃ q', q = q' + 1 := ⟨q - 1, by omega⟩
    rw [Nat.mul_add, Nat.add_sub_cancel]
    omega
  rw [e] at h4
  have h5 := (Nat.dvd_add_iff_left (Dvd.intro_left p rfl)).mpr h4
  have := Nat.le_of_dvd (by omega) h5
  omega

omit [NeZero n] in
/-- A number with a square factor has a unit of order not dividing `n - 1`. -/
theorem exists_witness_square (hn : 1 < n) (p : Nat) (hp : p.Prime) (hpn : p * p ∣ n) :
    ∃ w : ZMod n, IsUnit w ∧ w ^ (n - 1) ≠ 1 := by
  obtain ⟨m, rfl⟩ := hpn
  have hm : 0 < m := Nat.pos_of_ne_zero (by rintro rfl; simp at hn)
  have hx : ((p * m : Nat) : ZMod (p * p * m)) * ((p * m : Nat) : ZMod (p * p * m)) = 0 := by
    rw [← Nat.cast_mul, ZMod.natCast_eq_zero_iff]
    exact ⟨m, by ring⟩
  have hx0 : ((p * m : Nat) : ZMod (p * p * m)) ≠ 0 := by
    rw [Ne, ZMod.natCast_eq_zero_iff]
    intro h
    have h1 := Nat.le_of_dvd (Nat.mul_pos hp.pos hm) h
    have h2 : 2 * (p * m) ≤ p * (p * m) := Nat.mul_le_mul_right _ hp.two_le
    have h3 : 0 < p * m := Nat.mul_pos hp.pos hm
    rw [← Nat.mul_assoc] at h2
    rw [Nat.mul_assoc] at h1
    rw [Nat.mul_assoc] at h2
    omega
  generalize ((p * m : Nat) : ZMod (p * p * m)) = x at hx hx0
  have hpow : ∀ t : Nat, (1 + x) ^ t = 1 + t * x := by
    intro t
    induction t with
    | zero => simp
    | succ t ih =>
      rw [pow_succ, ih]; push_cast
      linear_combination (t : ZMod (p * p * m)) * hx
  refine ⟨1 + x, IsUnit.of_mul_eq_one (1 - x) (by linear_combination -hx), ?_⟩
  intro h
  rw [hpow, Nat.cast_sub (by omega), ZMod.natCast_self] at h
  apply hx0
  push_cast at h
  linear_combination -h

theorem liars_nine (T : Finset (ZMod 9)) (hs : s = 3) (hr : r = 1) (hT : ∀ z ∈ T, Liar 9 s r z) :
    T.card * 4 ≤ 9 - 1 := by
  subst hs hr
  have hsub : T ⊆ {1, 8} := by
    intro z hz
    have := liar_pow (hT z hz)
    have h : ∀ z : ZMod 9, z ^ (2 ^ 3 * 1) = 1 → z ∈ ({1, 8} : Finset (ZMod 9)) := by decide
    exact h z this
  have := Finset.card_le_card hsub
  have : ({1, 8} : Finset (ZMod 9)).card = 2 := by decide
  omega

/-- The bound. -/
theorem liars_quarter (hodd : n % 2 = 1) (hn : 1 < n) (hc : ¬ n.Prime) (hr : r % 2 = 1) (hnsr : 2 ^ s * r = n - 1)
    (T : Finset (ZMod n)) (hT : ∀ z ∈ T, Liar n s r z) : T.card * 4 ≤ n - 1 := by
  have hs : 0 < s := by
    rcases Nat.eq_zero_or_pos s with rfl | h
    · omega
    · exact h
  obtain ⟨p, hp⟩ : ∃ p, p = n.minFac := ⟨_, rfl⟩
  have hpp : p.Prime := hp ▸ Nat.minFac_prime (by omega)
  have hpn : p ∣ n := hp ▸ Nat.minFac_dvd n
  have hp3 : 3 ≤ p := by
    have := hpp.two_le
    rcases Nat.lt_or_ge 2 p with h | h
    · exact h
    · have : p = 2 := by omega
      rw [this] at hpn
      omega
  obtain ⟨e, k, hpk, hnk⟩ := Nat.exists_eq_pow_mul_and_not_dvd (n := n) (by omega) p (by omega)
  have he : e ≠ 0 := by
    rintro rfl
    rw [pow_zero, one_mul] at hnk
    exact hpk (hnk ▸ hpn)
  have hk0 : k ≠ 0 := by
    rintro rfl
    rw [mul_zero] at hnk
    omega
  by_cases hk1 : k = 1
  · rw [hk1, mul_one] at hnk
    have he1 : e ≠ 1 := by
      rintro rfl
      rw [pow_one] at hnk
      exact hc (hnk ▸ hpp)
    obtain ⟨e, rfl⟩ : ∃ e', e = e' + 1 := ⟨e - 1, by omega⟩
    by_cases h4 : 4 ≤ p ^ e
    · exact le_trans (Nat.mul_le_mul_left _ h4) (liars_prime_power p e hpp hnk hnsr T hT)
    · obtain ⟨e, rfl⟩ : ∃ e', e = e' + 1 := ⟨e - 1, by omega⟩
      have h5 : p * 1 ≤ p * p ^ e := Nat.mul_le_mul_left _ (Nat.pow_pos hpp.pos)
      have hp' : p = 3 := by
        rw [pow_succ', Nat.not_le] at h4
        omega
      have he' : e = 0 := by
        by_contra hne
        obtain ⟨e, rfl⟩ : ∃ e', e = e' + 1 := ⟨e - 1, by omega⟩
        have h6 : 1 ≤ 3 ^ e := Nat.pow_pos (by norm_num)
        rw [hp', pow_succ, pow_succ] at h4
        omega
      have hn9 : n = 9 := by rw [hnk, hp', he']; norm_num
      subst hn9
      have hs3 : s ≤ 3 := by
        by_contra h
        obtain ⟨d, rfl⟩ : ∃ d, s = d + 4 := ⟨s - 4, by omega⟩
        have h7 : 1 ≤ 2 ^ d := Nat.pow_pos (by norm_num)
        have h8 : 2 ^ (d + 4) * 1 ≤ 2 ^ (d + 4) * r := Nat.mul_le_mul_left _ (by omega)
        rw [hnsr, pow_add] at h8
        omega
      have : s = 3 ∧ r = 1 := by
        interval_cases s <;> omega
      exact liars_nine T this.1 this.2 hT
  · have hcop : (p ^ e).Coprime k := Nat.Coprime.pow_left _ ((Nat.Prime.coprime_iff_not_dvd hpp).mpr hpk)
    have hpe1 : 1 < p ^ e := Nat.one_lt_pow he (by omega)
    by_cases hw : ∃ w : ZMod n, IsUnit w ∧ w ^ (n - 1) ≠ 1
    · obtain ⟨w, hwu, hw1⟩ := hw
      obtain ⟨i, hi, hi0, hi1⟩ : ∃ e : ZMod n, e * e = e ∧ e ≠ 0 ∧ e ≠ 1 := by
        rw [hnk]; exact exists_idem (p ^ e) k hpe1 (by omega) hcop
      exact liars_two hn hodd hs hr hnsr i w hi hi0 hi1 hwu hw1 T hT
    · have hsq : ∀ q : Nat, q.Prime → ¬ q * q ∣ n := fun q hq hqn => hw (exists_witness_square hn q hq hqn)
      have he1 : e = 1 := by
        by_contra hne
        obtain ⟨d, rfl⟩ : ∃ d, e = d + 2 := ⟨e - 2, by omega⟩
        exact hsq p hpp ⟨p ^ d * k, by rw [hnk]; ring⟩
      rw [he1, pow_one] at hnk hcop
      have hkp : ¬ k.Prime := by
        intro hkp
        have hlt : p < k := by
          have hle : p ≤ k := hp ▸ Nat.minFac_le_of_dvd hkp.two_le ⟨p, by rw [hnk, mul_comm]⟩
          rcases Nat.eq_or_lt_of_le hle with h | h
          · exact absurd (h ▸ dvd_refl p) hpk
          · exact h
        apply hw
        rw [hnk]
        exact exists_witness_two p k hpp hkp hlt
      obtain ⟨q, hq⟩ : ∃ q, q = k.minFac := ⟨_, rfl⟩
      have hqp : q.Prime := hq ▸ Nat.minFac_prime hk1
      obtain ⟨l, hl⟩ : q ∣ k := hq ▸ Nat.minFac_dvd k
      have hl1 : 1 < l := by
        rcases Nat.lt_or_ge 1 l with h | h
        · exact h
        · exfalso
          interval_cases l
          · exact hk0 (by rw [hl, mul_zero])
          · exact hkp (by rw [hl, mul_one]; exact hqp)
      have hql : q.Coprime l := by
        rw [Nat.Prime.coprime_iff_not_dvd hqp]
        rintro ⟨m, rfl⟩
        exact hsq q hqp ⟨p * m, by rw [hnk, hl]; ring⟩
      rw [hl] at hcop hnk
      obtain ⟨i, j, h1, h2, h3, h4, h5, h6⟩ : ∃ e f : ZMod n, e * e = e ∧ f * f = f ∧ e * f = 0 ∧ e ≠ 0 ∧ f ≠ 0 ∧
          e + f ≠ 1 := by
        rw [hnk]; exact exists_idems p q l (by omega) hqp.one_lt hl1 hcop hql
      exact liars_three hn hodd hs hr i j h1 h2 h3 h4 h5 h6 T hT

end Liars

/-! ### The test of the model -/

theorem squareLoop_iff (n : Nat) (hn : 3 ≤ n) (k : Nat) : ∀ y : Int, 0 ≤ y → y < n →
    ((match squareLoop n k y with | none => false | some y => decide (y = (n : Int) - 1)) = true ↔
      ∃ j ≤ k, (y : ZMod n) ^ 2 ^ j = -1) := by
  have hcast : ∀ y : Int, 0 ≤ y → y < n → ((y : ZMod n) = -1 ↔ y = (n : Int) - 1) := by
    intro y h0 h1
    constructor
    · intro h
      exact eq_of_cast_eq h0 h1 (by omega) (by omega) (by rw [h]; push_cast; simp)
    · rintro rfl; push_cast; simp
  have : NeZero n := ⟨by omega⟩
  have h11 : (1 : ZMod n) ≠ -1 := by
    intro h
    have := (hcast 1 (by omega) (by omega)).mp (by simpa using h)
    omega
  induction k with
  | zero =>
    intro y h0 h1
    rw [squareLoop]
    simp only [decide_eq_true_eq, Nat.le_zero, exists_eq_left, pow_zero, pow_one]
    exact (hcast y h0 h1).symm
  | succ k ih =>
    intro y h0 h1
    rw [squareLoop]
    by_cases hy : y = (n : Int) - 1
    · rw [if_neg (by simpa using hy)]
      simp only [decide_eq_true_eq]
      exact ⟨fun _ => ⟨0, Nat.zero_le _, by rw [pow_zero, pow_one]; exact (hcast y h0 h1).mpr hy⟩, fun _ => hy⟩
    · rw [if_pos hy]
      have hc : (((y ^ 2).fmod (n : Int) : Int) : ZMod n) = (y : ZMod n) ^ 2 := by
        rw [fmod_cast _ (by omega)]; push_cast; rfl
      have hstep : (∃ j ≤ k + 1, (y : ZMod n) ^ 2 ^ j = -1) ↔
          ∃ j ≤ k, (((y ^ 2).fmod (n : Int) : Int) : ZMod n) ^ 2 ^ j = -1 := by
        rw [hc]
        constructor
        · rintro ⟨j, hj, h⟩
          cases j with
          | zero => exact absurd ((hcast y h0 h1).mp (by simpa using h)) hy
          | succ j => exact ⟨j, by omega, by rw [← pow_mul, ← pow_succ']; exact h⟩
        · rintro ⟨j, hj, h⟩
          exact ⟨j + 1, by omega, by rw [pow_succ', pow_mul]; exact h⟩
      by_cases h1' : (y ^ 2).fmod (n : Int) = 1
      · simp only [h1', if_true]
        rw [hstep, h1']
        simp only [Int.cast_one, one_pow]
        exact ⟨fun h => absurd h (by simp), fun ⟨_, _, h⟩ => absurd h h11⟩
      · simp only [h1', if_false]
        rw [ih _ (Int.fmod_nonneg_of_pos _ (by omega)) (Int.fmod_lt_of_pos _ (by omega)), hstep]

theorem millerRabinRound_iff (n : Nat) (hn : 3 ≤ n) (r s : Nat) (hs : 0 < s) (a : Int) :
    millerRabinRound n r s a = true ↔ Liar n s r (a : ZMod n) := by
  have : NeZero n := ⟨by omega⟩
  have hy0 : 0 ≤ (a ^ r).fmod (n : Int) := Int.fmod_nonneg_of_pos _ (by omega)
  have hy1 : (a ^ r).fmod (n : Int) < n := Int.fmod_lt_of_pos _ (by omega)
  have hc : (((a ^ r).fmod (n : Int) : Int) : ZMod n) = (a : ZMod n) ^ r := by
    rw [fmod_cast _ (by omega)]; push_cast; rfl
  rw [millerRabinRound, Int.toNat_natCast]
  simp only [Liar]
  have e1 : (a : ZMod n) ^ r = 1 ↔ (a ^ r).fmod (n : Int) = 1 := by
    rw [← hc]
    constructor
    · intro h; exact eq_of_cast_eq hy0 hy1 (by omega) (by omega) (by rw [h]; simp)
    · intro h; rw [h]; simp
  have e2 : ∀ j, (a : ZMod n) ^ (2 ^ j * r) = (((a ^ r).fmod (n : Int) : Int) : ZMod n) ^ 2 ^ j := by
    intro j; rw [hc, ← pow_mul, mul_comm]
  have e3 : (∃ j < s, (a : ZMod n) ^ (2 ^ j * r) = -1) ↔
      ∃ j ≤ s - 1, (((a ^ r).fmod (n : Int) : Int) : ZMod n) ^ 2 ^ j = -1 := by
    simp only [e2]
    exact ⟨fun ⟨j, h, h'⟩ => ⟨j, by omega, h'⟩, fun ⟨j, h, h'⟩ => ⟨j, by omega, h'⟩⟩
  rw [e1, e3]
  generalize (a ^ r).fmod (n : Int) = y at *
  by_cases h1 : y = 1
  · simp [h1]
  by_cases h2 : y = (n : Int) - 1
  · rw [if_neg (by simp [h2])]
    simp only [true_iff]
    right
    exact ⟨0, Nat.zero_le _, by rw [h2]; push_cast; simp⟩
  rw [if_pos ⟨h1, h2⟩]
  refine (squareLoop_iff n hn (s - 1) y hy0 hy1).trans ?_
  simp [h1]

end Cryptopy
