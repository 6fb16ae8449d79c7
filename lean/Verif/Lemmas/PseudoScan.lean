import Mathlib.GroupTheory.OrderOfElement
import Verif.Lemmas.Primality
import Verif.Lemmas.Ecpp

/-!
A search for composite numbers that pass the Euler test to the base 2, arranged so that the kernel evaluates it fast:
the loops are written with the recursors of `Nat` and `Bool`, every value is forced before it is passed on.
-/

namespace Cryptopy.PseudoScan
open Model

/-- `2^e` modulo `n`, the exponent being taken in four pieces. -/
noncomputable def pw2 (n e : Nat) : Nat :=
  Nat.mod (Nat.mul (Nat.pow (Nat.mod (Nat.mul (Nat.pow (Nat.mod (Nat.mul (Nat.pow
    (Nat.mod (Nat.pow 2 (Nat.div e 262144)) n) 64) (Nat.pow 2 (Nat.mod (Nat.div e 4096) 64))) n) 64)
    (Nat.pow 2 (Nat.mod (Nat.div e 64) 64))) n) 64) (Nat.pow 2 (Nat.mod e 64))) n

theorem pw2_eq (n e : Nat) : pw2 n e = 2 ^ e % n := by
  have h : pw2 n e = ((((2 ^ (e / 262144) % n) ^ 64 * 2 ^ (e / 4096 % 64)) % n) ^ 64 * 2 ^ (e / 64 % 64) % n) ^ 64 *
    2 ^ (e % 64) % n := rfl
  rw [h]
  have key : ∀ a b c : Nat, ((2 ^ a % n) ^ 64 * 2 ^ b) % n = 2 ^ (a * 64 + b) % n := by
    intro a b _
    rw [pow_add, pow_mul, Nat.mul_mod, ← Nat.pow_mod, ← Nat.mul_mod]
  rw [key _ _ 0, key _ _ 0, key _ _ 0]
  congr 2
  omega

/-- `2^((n-1)/2)` is neither 1 nor -1 modulo `n`. -/
noncomputable def fails2 (n : Nat) : Bool :=
  Nat.rec false (fun n' _ => Nat.rec true (fun y _ =>
    Bool.rec (Bool.rec true false (Nat.beq y (Nat.pred n'))) false (Nat.beq y 0)) (pw2 (Nat.succ n') (Nat.div n' 2))) n

theorem fails2_spec {n : Nat} (hn : 3 ≤ n) (h : fails2 n = true) :
    2 ^ ((n - 1) / 2) % n ≠ 1 ∧ 2 ^ ((n - 1) / 2) % n ≠ n - 1 := by
  obtain ⟨m, rfl⟩ : ∃ m, n = m + 3 := ⟨n - 3, by omega⟩
  have e : fails2 (m + 3) = Nat.rec true (fun y _ =>
    Bool.rec (Bool.rec true false (Nat.beq y (m + 1))) false (Nat.beq y 0)) (pw2 (m + 3) ((m + 2) / 2)) := rfl
  rw [e, pw2_eq] at h
  rw [show m + 3 - 1 = m + 2 by omega]
  generalize 2 ^ ((m + 2) / 2) % (m + 3) = y at *
  cases y with
  | zero => omega
  | succ y =>
    simp only at h
    constructor
    · intro e
      have : y = 0 := by omega
      subst this
      cases h
    · intro e
      have : y = m + 1 := by omega
      subst this
      have e1 : Nat.beq (m + 1) 0 = false := rfl
      have e2 : Nat.beq (m + 1) (m + 1) = true := by rw [Nat.beq_eq]
      rw [e1, e2] at h
      cases h

/-- Every `p m` below `B`, `m` running through `q, q + o, q + 2 o, ...`, fails the test, is excused by `ex`, or `m` has
a factor in common with `P`. -/
noncomputable def scan (ex : Nat → Bool) (B P p o f : Nat) : Nat → Bool :=
  Nat.rec (fun q => Nat.ble B (Nat.mul p q)) (fun _ ih q =>
    Nat.rec false (fun r _ =>
      Bool.rec (Bool.rec (ih (Nat.succ r))
        (Bool.rec (Bool.rec false (ih (Nat.succ r)) (ex (Nat.mul p q))) (ih (Nat.succ r)) (fails2 (Nat.mul p q)))
        (Nat.beq (Nat.gcd q P) 1)) true (Nat.ble B (Nat.mul p q))) (Nat.add q o)) f

theorem scan_spec (ex : Nat → Bool) (B P p o : Nat) (ho : 0 < o) (f : Nat) : ∀ q, scan ex B P p o f q = true →
    ∀ k, p * (q + k * o) < B → Nat.gcd (q + k * o) P ≠ 1 ∨ fails2 (p * (q + k * o)) = true ∨ ex (p * (q + k * o)) = true := by
  induction f with
  | zero =>
    intro q h k hk
    have h : Nat.ble B (p * q) = true := h
    rw [Nat.ble_eq] at h
    have : p * q ≤ p * (q + k * o) := Nat.mul_le_mul_left _ (by omega)
    omega
  | succ f ih =>
    intro q h k hk
    obtain ⟨o, rfl⟩ : ∃ o', o = o' + 1 := ⟨o - 1, by omega⟩
    have e : scan ex B P p (o + 1) (f + 1) q = Bool.rec (Bool.rec (scan ex B P p (o + 1) f (q + (o + 1)))
        (Bool.rec (Bool.rec false (scan ex B P p (o + 1) f (q + (o + 1))) (ex (p * q)))
          (scan ex B P p (o + 1) f (q + (o + 1))) (fails2 (p * q)))
        (Nat.beq (Nat.gcd q P) 1)) true (Nat.ble B (p * q)) := rfl
    rw [e] at h
    have hB : Nat.ble B (p * q) = false := by
      rw [← Bool.not_eq_true, Nat.ble_eq]
      have : p * q ≤ p * (q + k * (o + 1)) := Nat.mul_le_mul_left _ (by omega)
      omega
    rw [hB] at h
    simp only at h
    have hrest : scan ex B P p (o + 1) f (q + (o + 1)) = true := by
      cases h1 : Nat.beq (Nat.gcd q P) 1
      · rw [h1] at h; exact h
      · cases h2 : fails2 (p * q)
        · cases h3 : ex (p * q)
          · rw [h1, h2, h3] at h; cases h
          · rw [h1, h2, h3] at h; exact h
        · rw [h1, h2] at h; exact h
    cases k with
    | zero =>
      rw [zero_mul, add_zero]
      cases h1 : Nat.beq (Nat.gcd q P) 1
      · left
        rw [← Bool.not_eq_true, Nat.beq_eq] at h1
        exact h1
      · right
        cases h2 : fails2 (p * q)
        · right
          cases h3 : ex (p * q)
          · rw [h1, h2, h3] at h; cases h
          · rfl
        · left; rfl
    | succ k =>
      have e2 : q + (k + 1) * (o + 1) = q + (o + 1) + k * (o + 1) := by ring
      rw [e2] at hk ⊢
      exact ih _ hrest k hk

/-! ### Orders -/

/-- The product of the primes up to 173. -/
def primorial173 : Nat := 166589903787325219380851695350896256250980509594874862046961683989710

/-- The primes up to 173. -/
def primes173 : List Nat :=
  [2, 3, 5, 7, 11, 13, 17, 19, 23, 29, 31, 37, 41, 43, 47, 53, 59, 61, 67, 71, 73, 79, 83, 89, 97, 101, 103, 107, 109,
   113, 127, 131, 137, 139, 149, 151, 157, 163, 167, 173]

theorem mem_primes173 {q : Nat} (hq : q.Prime) (h : q < 179) : q ∈ primes173 := by
  have key : ((List.range 179).all fun q => !(trial 14 q) || primes173.elem q) = true := by decide +kernel
  have := List.all_eq_true.mp key q (List.mem_range.mpr h)
  rw [(trial_iff 14 q (by omega)).mpr hq] at this
  simpa using this

theorem prime_of_mem {q : Nat} (hq : q ∈ primes173) : q.Prime ∧ q ≤ 173 := by
  have key : (primes173.all fun q => trial 14 q && Nat.ble q 173) = true := by decide +kernel
  have := List.all_eq_true.mp key q hq
  rw [Bool.and_eq_true, Nat.ble_eq] at this
  exact ⟨(trial_iff 14 q (by omega)).mp this.1, this.2⟩

theorem primorial_eq : primorial173 = primes173.prod := by decide +kernel

theorem prime_dvd_primorial {q : Nat} (hq : q.Prime) : q ∣ primorial173 ↔ q ≤ 173 := by
  rw [primorial_eq]
  constructor
  · intro h
    rw [hq.prime.dvd_prod_iff] at h
    obtain ⟨a, ha, hqa⟩ := h
    obtain ⟨h1, h2⟩ := prime_of_mem ha
    exact le_trans (Nat.le_of_dvd h1.pos hqa) h2
  · intro h
    exact List.dvd_prod (mem_primes173 hq (by omega))

/-- A number below `179^2` without factor in common with the primes up to 173 is prime. -/
theorem prime_of_coprime {n : Nat} (h2 : 2 ≤ n) (hn : n < 32041) (hc : Nat.gcd n primorial173 = 1) : n.Prime := by
  by_contra hnp
  have h3 := Nat.minFac_sq_le_self (by omega : 0 < n) hnp
  have hp := Nat.minFac_prime (n := n) (by omega)
  have h4 : n.minFac < 179 := by nlinarith
  have h5 : n.minFac ≤ 173 := (prime_of_mem (mem_primes173 hp h4)).2
  have h6 := Nat.dvd_gcd (Nat.minFac_dvd n) ((prime_dvd_primorial hp).mpr h5)
  rw [hc] at h6
  exact absurd (Nat.dvd_one.mp h6) hp.one_lt.ne'

/-- `g^e` modulo `p`, the exponent being taken in two pieces. -/
def pwg (g p e : Nat) : Nat := Nat.mod (Nat.mul (Nat.pow (Nat.mod (Nat.pow g (Nat.div e 128)) p) 128) (Nat.pow g (Nat.mod e 128))) p

theorem pwg_eq (g p e : Nat) : pwg g p e = g ^ e % p := by
  have h : pwg g p e = ((g ^ (e / 128) % p) ^ 128 * g ^ (e % 128)) % p := rfl
  rw [h, Nat.mul_mod, ← Nat.pow_mod, ← Nat.mul_mod, ← pow_mul, ← pow_add]
  congr 2
  omega

/-- None of the primes `f` of the list that divide `o` has `g^(o/f) = 1` modulo `p`. -/
noncomputable def noDiv (g p o : Nat) (l : List Nat) : Bool :=
  List.rec true (fun f _ ih => Bool.rec ih (Bool.rec ih false (Nat.beq (pwg g p (Nat.div o f)) 1))
    (Nat.beq (Nat.mod o f) 0)) l

theorem noDiv_spec {g p o : Nat} (l : List Nat) (h : noDiv g p o l = true) : ∀ f ∈ l, f ∣ o → g ^ (o / f) % p ≠ 1 := by
  induction l with
  | nil => intro f hf; cases hf
  | cons a l ih =>
    have e : noDiv g p o (a :: l) = Bool.rec (noDiv g p o l) (Bool.rec (noDiv g p o l) false
      (Nat.beq (pwg g p (o / a)) 1)) (Nat.beq (o % a) 0) := rfl
    rw [e, pwg_eq] at h
    intro f hf hfo
    cases h1 : Nat.beq (o % a) 0
    · rw [h1] at h
      rcases List.mem_cons.mp hf with rfl | hf
      · rw [Nat.mod_eq_zero_of_dvd hfo] at h1; cases h1
      · exact ih h f hf hfo
    · cases h2 : Nat.beq (g ^ (o / a) % p) 1
      · rw [h1, h2] at h
        rcases List.mem_cons.mp hf with rfl | hf
        · rw [← Bool.not_eq_true, Nat.beq_eq] at h2; exact h2
        · exact ih h f hf hfo
      · rw [h1, h2] at h; cases h

/-- The fifteenth power of `primorial173`. -/
def primorialPow : Nat := 2112176277090656059229368350787210903041277552269660714087592137040511136485744506642750019952971251886208776209608308304255846288833026228687013890096030647467060029804111773216987454806819559530388468504883482239289911843601676095412392826787043125018252150390584460868264237953657372725764500171328245202104639488998585370185971040653368472252653452945314313601914542308327680945357077475398769524864414797522903198401342047690030967840295723779348454934550413680445571329266926566649752986516749559093850646782894381033304606757923226409046413140763360620958247799942967690821150659569412394862713649196772759432358357982640515214310366076707464983523914092163372267358639366383023660211773568487462964216665398124484754379413840920772720711463717240582528278106321740220717988324015056381863089950161415190381954938202589256905331785607774119494967227682811791970461797749112838472388438716786764526918348480458968216450392255197575619563418013907043524360289121934378203751500989318580049444514024344051000000000000000

theorem primorialPow_eq : primorialPow = primorial173 ^ 15 := by decide +kernel

/-- A check that `g` has order `o` modulo `p`, for `o < 179^2`. -/
noncomputable def ordOk (g p o : Nat) : Bool :=
  Bool.rec false (Bool.rec false (Ecpp.force (Nat.gcd o primorialPow) fun d => Ecpp.force (Nat.div o d) fun c =>
    Nat.beq c 1 || (Nat.ble 2 c && Nat.blt c 32041 && Nat.beq (Nat.gcd c primorial173) 1 &&
      !(Nat.beq (pwg g p d) 1))) (Nat.beq (pwg g p o) 1)) (noDiv g p o primes173)

theorem ordOk_spec {g p o : Nat} (hp : 1 < p) (ho : 0 < o) (h : ordOk g p o = true) : orderOf (g : ZMod p) = o := by
  have hmod : ∀ e : Nat, g ^ e % p = 1 ↔ (g : ZMod p) ^ e = 1 := by
    intro e
    have h5 := ZMod.natCast_eq_natCast_iff' (g ^ e) 1 p
    rw [Nat.mod_eq_of_lt hp] at h5
    rw [← h5]; push_cast; exact Iff.rfl
  simp only [ordOk, Ecpp.force_eq, pwg_eq] at h
  cases h2 : noDiv g p o primes173
  · rw [h2] at h; cases h
  cases h1 : Nat.beq (g ^ o % p) 1
  · rw [h1, h2] at h; cases h
  rw [h1, h2] at h
  rw [Nat.beq_eq] at h1
  have h3 := h
  simp only at h3
  refine orderOf_eq_of_pow_and_pow_div_prime ho ((hmod o).mp h1) fun f hf hfo he => ?_
  rw [← hmod] at he
  by_cases hs : f ≤ 173
  · exact noDiv_spec _ h2 f (mem_primes173 hf (by omega)) hfo he
  · rw [primorialPow_eq] at h3
    have hd : Nat.gcd o (primorial173 ^ 15) ∣ o := Nat.gcd_dvd_left _ _
    have hfd : ¬ f ∣ Nat.gcd o (primorial173 ^ 15) := fun hfd =>
      hs ((prime_dvd_primorial hf).mp (hf.dvd_of_dvd_pow (hfd.trans (Nat.gcd_dvd_right _ _))))
    generalize Nat.gcd o (primorial173 ^ 15) = d at *
    obtain ⟨c, rfl⟩ := hd
    have hdp : 0 < d := Nat.pos_of_ne_zero fun e => by rw [e] at ho; omega
    have ec : Nat.div (d * c) d = c := Nat.mul_div_cancel_left c hdp
    rw [ec] at h3
    have hfc : f ∣ c := (hf.dvd_mul.mp hfo).resolve_left hfd
    rw [Bool.or_eq_true, Nat.beq_eq, Bool.and_eq_true, Bool.and_eq_true, Bool.and_eq_true, Nat.ble_eq, Nat.blt_eq,
      Nat.beq_eq, Bool.not_eq_true', ← Bool.not_eq_true, Nat.beq_eq] at h3
    rcases h3 with h3 | ⟨⟨⟨h3, h4⟩, h5⟩, h6⟩
    · rw [h3] at hfc; exact hf.one_lt.ne' (Nat.dvd_one.mp hfc)
    · have hc := prime_of_coprime h3 h4 h5
      have : f = c := (Nat.prime_dvd_prime_iff_eq hf hc).mp hfc
      rw [this, Nat.mul_div_cancel _ hc.pos] at he
      exact h6 he

end Cryptopy.PseudoScan
