import Verif.Model.SelfReduce
import Verif.Lemmas.GenericPoints
import Verif.Props.Brainpool
import Verif.Props.KeyCount

/-!
C182: finding private keys and shared secrets is as hard for one key as for all, and one bit of the key is as hard as the key.
-/

namespace Cryptopy
open Cryptopy.Model Cryptopy.Spec

/-- Point arithmetic is arithmetic of scalars modulo `n`. -/
private theorem laws {K : WClass} (hK : K ∈ primeOrderClasses) {oid : Nat} {P : WPoint} (hP : ReducedPoint K oid P)
    (hfin : P ≠ (K.instance oid).identity) {n : Nat} (hn : K.n = n) :
    ∃ h : Int → WPoint, (∀ k, P.mul k = .ok (h k)) ∧ (∀ j k, h j = h k ↔ (n : Int) ∣ j - k) ∧
      (∀ j k, (h j).add (h k) = .ok (h (j + k))) ∧ ∀ j k, (h j).mul k = .ok (h (j * k)) := by
  obtain ⟨p, n', e1, e2, hp, h2, hn', hn2, -, hd, -, -, -, -, -, hg⟩ := C95_parameters K hK
  have : Fact p.Prime := ⟨hp⟩
  have : Fact n'.Prime := ⟨hn'⟩
  obtain rfl : n' = n := by exact_mod_cast e2.symm.trans hn
  have g : Good (K.instance oid) p := ⟨e1, h2, hd⟩
  obtain ⟨Q, s⟩ := stands_of_onCurve g P hP.1 hP.2.1 (fun v hv => by rw [← e1]; exact hP.2.2.1 v hv)
  have hy : InRange p P.y := fun v hv => by rw [← e1]; exact hP.2.2.2 v hv
  have hall : n' • Q = 0 := by
    obtain ⟨-, G, -, hG, hm⟩ := hg ‹_›
    obtain ⟨k, hk⟩ := hm Q
    have h0 : n' • (k • G) = 0 := by rw [smul_comm, ← hG, addOrderOf_nsmul_eq_zero, smul_zero]
    rw [hk]
    exact h0
  have hQ : Q ≠ 0 := by
    rintro rfl
    exact hfin (stands_zero s)
  have ho : addOrderOf Q = n' := addOrderOf_eq_prime hall hQ
  have hodd : n' % 2 = 1 := hn'.eq_two_or_odd.resolve_left hn2
  have hmul : ∀ k, ∃ X, P.mul k = .ok X := fun k => by
    obtain ⟨X, h, -⟩ := C95_scalar K hK oid P hP.1 hP.2.1 hP.2.2.1 k
    exact ⟨X, h⟩
  choose h hh using hmul
  refine ⟨h, hh, fun j k => ?_, fun j k => ?_, fun j k => ?_⟩
  · have := C95_scalars_modulo_n K hK oid P hP.1 hP.2.1 hP.2.2.1 hP.2.2.2 hfin j k
    rw [hh, hh, Except.ok.injEq, hn] at this
    exact this
  · obtain ⟨R, h1, h2⟩ := C77_scalar_add (K.instance oid) e1 ‹_› hd P hP.1 s.red hy Q s.rep n' e2 hodd ho j k
    rw [hh] at h1
    rw [hh, hh] at h2
    rw [Except.ok.inj h1]
    exact h2
  · obtain ⟨R, -, h2, h3⟩ := C95_diffie_hellman K hK oid P hP.1 hP.2.1 hP.2.2.1 hP.2.2.2 j k
    rw [hh] at h2 h3
    rw [Except.ok.inj h3]
    exact h2

private theorem n_odd {K : WClass} (hK : K ∈ primeOrderClasses) {n : Nat} (hn : K.n = n) : n % 2 = 1 := by
  obtain ⟨p, n', -, e2, -, -, hn', hn2, -⟩ := C95_parameters K hK
  obtain rfl : n' = n := by exact_mod_cast e2.symm.trans hn
  exact hn'.eq_two_or_odd.resolve_left hn2

/-- The number below `n` that is `j` modulo `n`. -/
private def res (n : Nat) (hn : 0 < n) (j : Int) : Fin n :=
  ⟨(j % n).toNat, by
    have h1 := Int.emod_lt_of_pos j (show (0 : Int) < n by omega)
    have h2 := Int.emod_nonneg j (show (n : Int) ≠ 0 by omega)
    omega⟩

private theorem res_dvd (n : Nat) (hn : 0 < n) (j : Int) : (n : Int) ∣ (res n hn j : Nat) - j := by
  have h2 := Int.emod_nonneg j (show (n : Int) ≠ 0 by omega)
  rw [res, Int.toNat_of_nonneg h2]
  exact ⟨-(j / n), by rw [Int.emod_def]; ring⟩

private theorem fin_eq (n : Nat) (x y : Fin n) (h : (n : Int) ∣ (x : Nat) - (y : Nat)) : x = y := by
  have h1 := Int.emod_emod_of_dvd (x : Int) (dvd_refl (n : Int))
  have := Int.emod_eq_emod_iff_emod_sub_eq_zero.mpr (Int.emod_eq_zero_of_dvd h)
  rw [Int.emod_eq_of_lt (by omega) (by exact_mod_cast x.2), Int.emod_eq_of_lt (by omega) (by exact_mod_cast y.2)] at this
  exact Fin.ext (by exact_mod_cast this)

/-- The shift by `y` modulo `n`. -/
private theorem shift_card (n : Nat) (hn : 0 < n) (y : Int) (A B : Set (Fin n))
    (h : ∀ r x : Fin n, (n : Int) ∣ x - (y + r) → (r ∈ A ↔ x ∈ B)) : A.ncard = B.ncard := by
  refine Set.ncard_congr (fun r _ => res n hn (y + r)) (fun r hr => (h r _ (res_dvd n hn _)).mp hr) ?_ ?_
  · intro r r' _ _ e
    have h1 := res_dvd n hn (y + r)
    rw [e] at h1
    have h2 := dvd_sub (res_dvd n hn (y + r')) h1
    exact fin_eq n r r' (by
      rwa [show ((res n hn (y + r') : Nat) : Int) - (y + (r' : Nat)) - (((res n hn (y + r') : Nat) : Int) - (y + (r : Nat))) =
        (r : Nat) - (r' : Nat) by ring] at h2)
  · intro x hx
    have h1 := res_dvd n hn (x - y)
    have h2 : (n : Int) ∣ x - (y + res n hn (x - y)) := by
      rw [← dvd_neg]
      rwa [show -((x : Int) - (y + (res n hn (x - y) : Nat))) = (res n hn (x - y) : Nat) - (x - y) by ring]
    refine ⟨res n hn (x - y), (h _ x h2).mpr hx, ?_⟩
    refine fin_eq n _ _ ?_
    have h3 := dvd_sub (res_dvd n hn (y + res n hn (x - y))) h2
    rwa [show ((res n hn (y + (res n hn (x - y) : Nat)) : Nat) : Int) - (y + (res n hn (x - y) : Nat)) -
      ((x : Int) - (y + (res n hn (x - y) : Nat))) = (res n hn (y + (res n hn (x - y) : Nat)) : Nat) - (x : Nat) by ring] at h3

section
variable (K : WClass) (hK : K ∈ primeOrderClasses) (oid : Nat) (P : WPoint) (hP : ReducedPoint K oid P)
  (hfin : P ≠ (K.instance oid).identity) (n : Nat) (hn : K.n = n)
include hK hP hfin hn

/-- C182: let `find` be any procedure at all that gets a point and returns a number.  For how many of the `n` blinding values the
private key of a given point `X = y * P` is found by way of `X + r * P` does not depend on `y`: it is the number of private keys that
`find` finds directly.  So nobody's key is safer than the average key. -/
theorem C182_every_key (find : WPoint → Int) (y : Int) :
    ∃ X, P.mul y = .ok X ∧
      {r : Fin n | ∃ v, blindKey find P X r = .ok v ∧ (n : Int) ∣ v - y}.ncard =
        {x : Fin n | ∃ X, P.mul x = .ok X ∧ (n : Int) ∣ find X - x}.ncard := by
  obtain ⟨h, hm, hinj, hadd, hmul⟩ := laws hK hP hfin hn
  refine ⟨h y, hm y, shift_card n (by have := n_odd hK hn; omega) y _ _ fun r x hx => ?_⟩
  have e : h x = h (y + r) := (hinj _ _).mpr hx
  have hb : blindKey find P (h y) r = .ok (find (h (y + r)) - r) := by
    rw [blindKey, hm]
    change (do let Z ← (h y).add (h r); return find Z - r) = _
    rw [hadd]
    rfl
  simp only [Set.mem_ofPred_eq, hb, hm, e, Except.ok.injEq, exists_eq_left']
  constructor
  · intro hd
    have := dvd_sub hd hx
    rwa [show find (h (y + r)) - r - y - ((x : Int) - (y + r)) = find (h (y + r)) - x by ring] at this
  · intro hd
    have := dvd_add hd hx
    rwa [show find (h (y + r)) - x + ((x : Int) - (y + r)) = find (h (y + r)) - r - y by ring] at this

/-- C182: in the same way for shared secrets: if `agree`, any procedure that gets two points and returns one, is right for `m` of the
`n * n` pairs of private keys, the shared secret of any given two points is found by way of blinded ones for at least `m` of the
`n * n` pairs of blinding values. -/
theorem C182_every_pair (agree : WPoint → WPoint → WPoint) (x y : Int) :
    ∃ X Y S, P.mul x = .ok X ∧ P.mul y = .ok Y ∧ P.mul (x * y) = .ok S ∧
      {u : Fin n × Fin n | ∃ X Y S, P.mul u.1 = .ok X ∧ P.mul u.2 = .ok Y ∧ P.mul (u.1 * u.2) = .ok S ∧ agree X Y = S}.ncard ≤
        {u : Fin n × Fin n | blindShared agree P X Y u.1 u.2 = .ok S}.ncard := by
  obtain ⟨h, hm, hinj, hadd, hmul⟩ := laws hK hP hfin hn
  refine ⟨h x, h y, h (x * y), hm x, hm y, hm _, ?_⟩
  have h0 : 0 < n := by have := n_odd hK hn; omega
  refine Set.ncard_le_ncard_of_injOn (fun u => (res n h0 (u.1 - x), res n h0 (u.2 - y))) ?_ ?_ (Set.toFinite _)
  · rintro ⟨a, b⟩ ⟨A, B, C, hA, hB, hC, e⟩
    rw [hm, Except.ok.injEq] at hA hB hC
    subst hA hB hC
    have h1 := res_dvd n h0 (a - x)
    have h2 := res_dvd n h0 (b - y)
    generalize res n h0 (a - x) = r at h1 ⊢
    generalize res n h0 (b - y) = s at h2 ⊢
    have e1 : h (x + r) = h a := (hinj _ _).mpr (by rwa [show x + (r : Int) - a = r - (a - x) by ring])
    have e2 : h (y + s) = h b := (hinj _ _).mpr (by rwa [show y + (s : Int) - b = s - (b - y) by ring])
    change blindShared agree P (h x) (h y) r s = .ok (h (x * y))
    rw [blindShared, hm, hm, hm, hmul, hmul]
    change (do
      let X' ← (h x).add (h r)
      let Y' ← (h y).add (h s)
      let Z ← (agree X' Y').add (h (x * -s))
      let Z ← Z.add (h (y * -r))
      Z.add (h (-(r * s)))) = _
    rw [hadd, hadd]
    change (do
      let Z ← (agree (h (x + r)) (h (y + s))).add (h (x * -s))
      let Z ← Z.add (h (y * -r))
      Z.add (h (-(r * s)))) = _
    rw [e1, e2, e, hadd]
    change (do
      let Z ← (h (a * b + x * -s)).add (h (y * -r))
      Z.add (h (-(r * s)))) = _
    rw [hadd]
    change (h (a * b + x * -s + y * -r)).add (h (-(r * s))) = _
    rw [hadd, Except.ok.injEq, hinj]
    obtain ⟨c, hc⟩ := h1
    obtain ⟨d, hd⟩ := h2
    exact ⟨-(c * (b : Int) + d * (x + r)), by linear_combination (-(b : Int)) * hc - (x + (r : Int)) * hd⟩
  · rintro ⟨a, b⟩ _ ⟨a', b'⟩ _ e
    obtain ⟨e1, e2⟩ := Prod.mk.inj e
    refine Prod.ext (fin_eq n _ _ ?_) (fin_eq n _ _ ?_)
    · have h1 := res_dvd n h0 (a - x)
      rw [e1] at h1
      have := dvd_sub (res_dvd n h0 (a' - x)) h1
      rwa [show ((res n h0 (a' - x) : Nat) : Int) - ((a' : Int) - x) - ((res n h0 (a' - x) : Nat) - ((a : Int) - x)) =
        (a : Nat) - (a' : Nat) by ring] at this
    · have h1 := res_dvd n h0 (b - y)
      rw [e2] at h1
      have := dvd_sub (res_dvd n h0 (b' - y)) h1
      rwa [show ((res n h0 (b' - y) : Nat) : Int) - ((b' : Int) - y) - ((res n h0 (b' - y) : Nat) - ((b : Int) - y)) =
        (b : Nat) - (b' : Nat) by ring] at this

/-- C182: whoever can compute `x*x*P` from `x*P` can compute shared secrets. -/
theorem C182_squares (square : WPoint → WPoint)
    (hs : ∀ (x : Fin n) X, P.mul x = .ok X → P.mul (x * x) = .ok (square X)) (x y quarter : Int) (hq : (n : Int) ∣ 4 * quarter - 1) :
    ∃ X Y S, P.mul x = .ok X ∧ P.mul y = .ok Y ∧ P.mul (x * y) = .ok S ∧ sharedFromSquares square quarter X Y = .ok S := by
  obtain ⟨h, hm, hinj, hadd, hmul⟩ := laws hK hP hfin hn
  refine ⟨h x, h y, h (x * y), hm x, hm y, hm _, ?_⟩
  have h0 : 0 < n := by have := n_odd hK hn; omega
  have hsq : ∀ j, square (h j) = h (j * j) := by
    intro j
    have hd := res_dvd n h0 j
    have e := hs (res n h0 j) _ (hm _)
    rw [hm, (hinj _ _).mpr hd, Except.ok.injEq] at e
    rw [← e, hinj]
    obtain ⟨c, hc⟩ := hd
    exact ⟨c * ((res n h0 j : Nat) + j), by linear_combination (((res n h0 j : Nat) : Int) + j) * hc⟩
  rw [sharedFromSquares, hadd, hmul]
  change (do
    let D ← (h x).add (h (y * -1))
    let M ← (square D).mul (-1)
    let Z ← (square (h (x + y))).add M
    Z.mul quarter) = _
  rw [hadd]
  change (do
    let M ← (square (h (x + y * -1))).mul (-1)
    let Z ← (square (h (x + y))).add M
    Z.mul quarter) = _
  rw [hsq, hsq, hmul]
  change (do
    let Z ← (h ((x + y) * (x + y))).add (h ((x + y * -1) * (x + y * -1) * -1))
    Z.mul quarter) = _
  rw [hadd]
  change (h _).mul quarter = _
  rw [hmul, Except.ok.injEq, hinj]
  obtain ⟨c, hc⟩ := hq
  exact ⟨x * y * c, by linear_combination x * y * hc⟩

/-- C182: one bit of the private key is as hard to find as the key: whoever can tell from public keys whether the private key below `n` is
odd can compute the private key of every point with one such question for each bit of `n`. -/
theorem C182_parity (odd : WPoint → Bool) (ho : ∀ (x : Fin n) X, P.mul x = .ok X → (odd X = true ↔ (x : Nat) % 2 = 1))
    (bits : Nat) (hb : n ≤ 2 ^ bits) (x : Fin n) :
    ∃ X, P.mul x = .ok X ∧ keyFromParity odd (((n + 1) / 2 : Nat) : Int) P bits X = .ok (x : Int) := by
  obtain ⟨h, hm, hinj, hadd, hmul⟩ := laws hK hP hfin hn
  refine ⟨h x, hm x, ?_⟩
  have hodd := n_odd hK hn
  have key : ∀ (bits x : Nat), x < n → x < 2 ^ bits → keyFromParity odd (((n + 1) / 2 : Nat) : Int) P bits (h x) = .ok (x : Int) := by
    intro bits
    induction bits with
    | zero =>
      intro x _ hx
      obtain rfl : x = 0 := by simpa using hx
      rfl
    | succ k ih =>
      intro x hxn hx
      have hhalf : ∀ w : Nat, h ((2 * w : Nat) * (((n + 1) / 2 : Nat) : Int)) = h (w : Int) := by
        intro w
        rw [hinj]
        refine ⟨w, ?_⟩
        have : ((2 * ((n + 1) / 2) : Nat) : Int) = n + 1 := by
          rw [show 2 * ((n + 1) / 2) = n + 1 by omega]; push_cast; rfl
        push_cast at this ⊢
        linear_combination (w : Int) * this
      have hlt : x / 2 < 2 ^ k := by rw [pow_succ] at hx; omega
      have hw := ih (x / 2) (by omega) hlt
      rw [keyFromParity]
      by_cases hx2 : x % 2 = 1
      · rw [if_pos ((ho ⟨x, hxn⟩ _ (hm _)).mpr hx2), hm]
        change (do
          let Y ← (h x).add (h (-1))
          let Y ← Y.mul (((n + 1) / 2 : Nat) : Int)
          let v ← keyFromParity odd (((n + 1) / 2 : Nat) : Int) P k Y
          return 2 * v + 1) = _
        rw [hadd]
        change (do
          let Y ← (h (x + -1)).mul (((n + 1) / 2 : Nat) : Int)
          let v ← keyFromParity odd (((n + 1) / 2 : Nat) : Int) P k Y
          return 2 * v + 1) = _
        rw [show ((x : Int) + -1) = ((2 * (x / 2) : Nat) : Int) by omega, hmul, hhalf]
        change (do
          let v ← keyFromParity odd (((n + 1) / 2 : Nat) : Int) P k (h ((x / 2 : Nat) : Int))
          return 2 * v + 1) = _
        rw [hw]
        change Except.ok _ = _
        rw [Except.ok.injEq]
        omega
      · rw [if_neg (fun hc => hx2 ((ho ⟨x, hxn⟩ _ (hm _)).mp hc)),
          show (x : Int) = ((2 * (x / 2) : Nat) : Int) by omega, hmul, hhalf]
        change (do
          let v ← keyFromParity odd (((n + 1) / 2 : Nat) : Int) P k (h ((x / 2 : Nat) : Int))
          return 2 * v) = _
        rw [hw]
        change Except.ok _ = _
        rw [Except.ok.injEq]
        omega
  exact key bits x x.2 (lt_of_lt_of_le x.2 hb)

end

-- The hypotheses hold for the generator of SECP_256k1, and procedures as in the last two theorems exist (though nobody knows fast ones).
open scoped Classical in
example (oid : Nat) (find : WPoint → Int) (agree : WPoint → WPoint → WPoint) : ∃ G, SECP_256k1.generator oid = .ok G ∧
    (∃ X, G.mul 12345 = .ok X ∧ {r : Fin SECP_256k1.n.toNat | ∃ v, blindKey find G X r = .ok v ∧
        (SECP_256k1.n.toNat : Int) ∣ v - 12345}.ncard =
      {x : Fin SECP_256k1.n.toNat | ∃ X, G.mul x = .ok X ∧ (SECP_256k1.n.toNat : Int) ∣ find X - x}.ncard) ∧
    (∃ X Y S, G.mul 123 = .ok X ∧ G.mul 45 = .ok Y ∧ G.mul (123 * 45) = .ok S ∧
      {u : Fin SECP_256k1.n.toNat × Fin SECP_256k1.n.toNat | ∃ X Y S, G.mul u.1 = .ok X ∧ G.mul u.2 = .ok Y ∧
        G.mul (u.1 * u.2) = .ok S ∧ agree X Y = S}.ncard ≤
        {u : Fin SECP_256k1.n.toNat × Fin SECP_256k1.n.toNat | blindShared agree G X Y u.1 u.2 = .ok S}.ncard) ∧
    (∃ square : WPoint → WPoint, ∃ X Y S, G.mul 123 = .ok X ∧ G.mul 45 = .ok Y ∧ G.mul (123 * 45) = .ok S ∧
      sharedFromSquares square ((SECP_256k1.n.toNat * 3 + 1) / 4 : Nat) X Y = .ok S) ∧
    ∃ odd : WPoint → Bool, ∀ x : Fin SECP_256k1.n.toNat,
      ∃ X, G.mul x = .ok X ∧ keyFromParity odd (((SECP_256k1.n.toNat + 1) / 2 : Nat) : Int) G 256 X = .ok (x : Int) := by
  have hK : SECP_256k1 ∈ primeOrderClasses := by simp [primeOrderClasses]
  obtain ⟨-, -, -, -, -, -, -, -, -, -, -, -, -, -, hG, -⟩ := C95_parameters _ hK
  obtain ⟨-, -, -, -, -, -, h1, h2, h3, h4, h5⟩ := gen_facts hK (hG oid)
  have hn : SECP_256k1.n = SECP_256k1.n.toNat := by decide +kernel
  obtain ⟨h, hm, hinj, -, -⟩ := laws hK ⟨h1, h2, h3, h4⟩ h5 hn
  have hone : ∀ x y : Fin SECP_256k1.n.toNat, h x = h y → x = y := fun x y e => fin_eq _ _ _ ((hinj _ _).mp e)
  refine ⟨_, hG oid, C182_every_key _ hK oid _ ⟨h1, h2, h3, h4⟩ h5 _ hn find 12345,
    C182_every_pair _ hK oid _ ⟨h1, h2, h3, h4⟩ h5 _ hn agree 123 45, ?_, ?_⟩
  · refine ⟨fun X => if hX : ∃ x : Fin SECP_256k1.n.toNat, X = h x then h (hX.choose * hX.choose) else X,
      C182_squares _ hK oid _ ⟨h1, h2, h3, h4⟩ h5 _ hn _ (fun x X hX => ?_) 123 45 _ (by decide +kernel)⟩
    rw [hm, Except.ok.injEq] at hX
    have hex : ∃ y : Fin SECP_256k1.n.toNat, X = h y := ⟨x, hX.symm⟩
    rw [dif_pos hex, hm, ← hone _ _ (hX.trans hex.choose_spec)]
  · refine ⟨fun X => decide (∃ x : Fin SECP_256k1.n.toNat, X = h x ∧ (x : Nat) % 2 = 1),
      fun x => C182_parity _ hK oid _ ⟨h1, h2, h3, h4⟩ h5 _ hn _ (fun x X hX => ?_) 256 (by decide +kernel) x⟩
    rw [hm, Except.ok.injEq] at hX
    rw [decide_eq_true_iff]
    constructor
    · rintro ⟨y, hy, e⟩
      rwa [hone x y (hX.trans hy)]
    · exact fun e => ⟨x, hX.symm, e⟩

end Cryptopy
