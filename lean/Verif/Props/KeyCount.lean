import Mathlib.Data.Int.CardIntervalMod
import Mathlib.Data.Set.Card
import Verif.Props.Curves

/-!
C128: how often each public key arises when `new_private_key` is used on the shipped curves of prime order.
-/

namespace Cryptopy
open Cryptopy.Model Cryptopy.Spec WeierstrassCurve

/-- The random strings of `size` octets for which the private key multiplies `G` to `T`. -/
def stringsFor (G T : WPoint) (size : Nat) : Set Bytes :=
  {s | s.length = size ∧ G.mul (newPrivateKey (fun _ => s) size) = .ok T}

private theorem ncard_strings (size r v : Nat) (hr : 0 < r) :
    {s : Bytes | s.length = size ∧ stringToInt s ≡ v [MOD r]}.ncard =
      256 ^ size / r + if v % r < 256 ^ size % r then 1 else 0 := by
  rw [← Nat.count_modEq_card _ hr, Nat.count_eq_card_filter_range,
    ← Set.ncard_coe_finset]
  refine Set.ncard_congr (fun s _ => stringToInt s) ?_ ?_ ?_
  · rintro s ⟨h1, h2⟩
    have : stringToInt s < 256 ^ size := (C84_range size _).mpr ⟨fun n => if n = size then s else List.replicate n 0,
      fun n => by dsimp only; split <;> simp_all, by simp [newPrivateKey]⟩
    simpa using ⟨this, h2⟩
  · rintro s t ⟨h1, -⟩ ⟨h2, -⟩ h
    rw [stringToInt_eq, stringToInt_eq] at h
    exact beValue_inj (h1.trans h2.symm) h
  · intro w hw
    simp only [Finset.coe_filter, Finset.mem_range, Set.mem_ofPred_eq] at hw
    obtain ⟨u, h1, h2⟩ := (C84_range size w).mp hw.1
    exact ⟨u size, ⟨h1 _, by rw [newPrivateKey] at h2; rw [h2]; exact hw.2⟩, h2⟩

theorem gen_facts {K : WClass} (hK : K ∈ primeOrderClasses) {oid : Nat} {G : WPoint}
    (hG : K.generator oid = .ok G) : ∃ p n : Nat, K.p = p ∧ K.n = n ∧ n.Prime ∧ n ≠ 2 ∧ G.curve = K.instance oid ∧
      (K.instance oid).onCurve G = .ok true ∧ (∀ v, G.x = some v → 0 ≤ v ∧ v < K.p) ∧
      (∀ v, G.y = some v → 0 ≤ v ∧ v < K.p) ∧ G ≠ (K.instance oid).identity := by
  obtain ⟨p, n, e1, e2, -, -, hn, hn2, -, -, hx0, hx, hy0, hy, hg, -⟩ := C95_parameters _ hK
  rw [hg oid] at hG
  injection hG with hG
  subst hG
  refine ⟨p, n, e1, e2, hn, hn2, rfl, ?_, ?_, ?_, ?_⟩
  · have h := hg oid
    rw [WClass.generator, WCurve.point] at h
    cases h1 : (K.instance oid).onCurve ⟨K.instance oid, some K.xG, some K.yG⟩ with
    | error e => rw [h1] at h; cases h
    | ok v =>
      rw [h1] at h
      cases v with
      | true => rfl
      | false => cases h
  · rintro v ⟨⟩; rw [e1]; exact ⟨hx0, hx⟩
  · rintro v ⟨⟩; rw [e1]; exact ⟨hy0.le, hy⟩
  · simp [WCurve.identity]

/-- C128: on a shipped curve of prime order the public key `k * G` arises from `256 ** size / n` random strings, or from
one more when `k % n` is below `256 ** size % n`. -/
theorem C128_exact (K : WClass) (hK : K ∈ primeOrderClasses) (oid : Nat) (G T : WPoint)
    (hG : K.generator oid = .ok G) (size k : Nat) (hT : G.mul k = .ok T) :
    ((stringsFor G T size).ncard : Int) =
      256 ^ size / K.n + if (k : Int) % K.n < 256 ^ size % K.n then 1 else 0 := by
  obtain ⟨p, n, e1, e2, hn, hn2, hc, hon, hx, hy, hf⟩ := gen_facts hK hG
  have : stringsFor G T size = {s : Bytes | s.length = size ∧ stringToInt s ≡ k [MOD n]} := by
    ext s
    simp only [stringsFor, Set.mem_ofPred_eq, newPrivateKey, ← hT,
      C95_scalars_modulo_n K hK oid G hc hon hx hy hf, e2]
    refine and_congr_right fun _ => ?_
    rw [Nat.modEq_iff_dvd, ← dvd_neg, neg_sub]
  rw [this, ncard_strings _ _ _ hn.pos, e2]
  push_cast
  congr 1
  have : ((k : Int) % n < 256 ^ size % n) ↔ k % n < 256 ^ size % n := by norm_cast
  simp only [this]

/-- Every valid point with reduced coordinates is a multiple of the generator. -/
theorem exists_multiple {K : WClass} (hK : K ∈ primeOrderClasses) {oid : Nat} {G T : WPoint}
    (hG : K.generator oid = .ok G) (hc : T.curve = K.instance oid)
    (hon : (K.instance oid).onCurve T = .ok true) (hx : ∀ v, T.x = some v → 0 ≤ v ∧ v < K.p)
    (hy : ∀ v, T.y = some v → 0 ≤ v ∧ v < K.p) : ∃ k : Nat, G.mul k = .ok T := by
  obtain ⟨-, -, -, -, -, -, hc', hon', hx', hy', -⟩ := gen_facts hK hG
  obtain ⟨p, n, e1, e2, hn, hn2, i, g, Q, s, ho⟩ := valid_stands hK hc' hon' hx'
  obtain ⟨p1, n1, f1, f2, -, -, -, -, -, -, -, -, -, -, hg, hall⟩ := C95_parameters K hK
  obtain rfl : p1 = p := by
    have : (p1 : Int) = p := f1.symm.trans e1
    exact_mod_cast this
  obtain ⟨-, Q1, hr, hord, hm⟩ := hall i
  have hQ : Q = Q1 := by
    rw [hg oid] at hG
    injection hG with hG
    subst hG
    exact rep_unique s.rep hr
  subst hQ
  obtain ⟨T', st⟩ := stands_of_onCurve g T hc hon (fun v hv => by rw [← e1]; exact hx v hv)
  obtain ⟨k, hk⟩ := hm T'
  have hodd : n % 2 = 1 := (hn.eq_two_or_odd).resolve_left hn2
  have : Fact n.Prime := ⟨hn⟩
  obtain ⟨R, r1, r2, r3⟩ := mul_stands g s n e2 hodd
    (or_iff_not_imp_right.mpr fun h => addOrderOf_eq_prime ho h) k
  refine ⟨k, r1.trans ?_⟩
  have hk' : T' = (k : Int) • Q := by rw [natCast_zsmul]; exact hk
  rw [stands_unique r2 (hk' ▸ st) (r3 fun v hv => by rw [← e1]; exact hy' v hv)
    (fun v hv => by rw [← e1]; exact hy v hv)]

/-- C128: the count for every valid point with reduced coordinates: no two public keys differ by more than one string. -/
theorem C128_every_point (K : WClass) (hK : K ∈ primeOrderClasses) (oid : Nat) (G T : WPoint)
    (hG : K.generator oid = .ok G) (size : Nat) (hc : T.curve = K.instance oid)
    (hon : (K.instance oid).onCurve T = .ok true) (hx : ∀ v, T.x = some v → 0 ≤ v ∧ v < K.p)
    (hy : ∀ v, T.y = some v → 0 ≤ v ∧ v < K.p) :
    ((stringsFor G T size).ncard : Int) = 256 ^ size / K.n ∨
      ((stringsFor G T size).ncard : Int) = 256 ^ size / K.n + 1 := by
  obtain ⟨k, hk⟩ := exists_multiple hK hG hc hon hx hy
  rw [C128_exact K hK oid G T hG size k hk]
  split
  · exact .inr rfl
  · exact .inl (add_zero _)

/-- C128: no public key is more likely than the point at infinity. -/
theorem C128_infinity (K : WClass) (hK : K ∈ primeOrderClasses) (oid : Nat) (G : WPoint)
    (hG : K.generator oid = .ok G) (size : Nat) :
    ((stringsFor G (K.instance oid).identity size).ncard : Int) = 256 ^ size / K.n + 1 := by
  obtain ⟨p, n, e1, e2, hn, hn2, hc, hon, hx, hy, hf⟩ := gen_facts hK hG
  have h0 : G.mul (0 : Nat) = .ok (K.instance oid).identity := by
    rw [C84_zero G (by rw [hc]; change K.n ≠ 0; rw [e2]; exact_mod_cast hn.ne_zero) _ (by simp), hc]
  rw [C128_exact K hK oid G _ hG size 0 h0, if_pos]
  have h1 : ¬ n ∣ 256 ^ size := by
    intro h
    have h2 := hn.dvd_of_dvd_pow h
    rw [show 256 = 2 ^ 8 by rfl] at h2
    exact hn2 ((Nat.prime_dvd_prime_iff_eq hn Nat.prime_two).mp (hn.dvd_of_dvd_pow h2))
  have h2 : 0 < 256 ^ size % n := Nat.pos_of_ne_zero fun h => h1 (Nat.dvd_of_mod_eq_zero h)
  rw [e2, Nat.cast_zero, Int.zero_emod]
  exact_mod_cast h2

/-- The least counts `256 ** coord_size / n` of the curves, by name. -/
def leastCount (name : String) : Int :=
  if name = "SECP_521r1" ∨ name = "NIST_P521" then 128 else if name = "GOST2012_test" then 3 else 1

private theorem least_ok : ∀ K ∈ primeOrderClasses, 0 ≤ K.p ∧ K.p < 256 ^ (K.p.toNat.log2 / 8 + 1) ∧
    256 ^ (K.p.toNat.log2 / 8) ≤ K.p ∧ 256 ^ (K.p.toNat.log2 / 8 + 1) / K.n = leastCount K.name := by
  decide +kernel

/-- C128: with the size that `new_private_key` asks for, the least count is 1, except for 128 on the two 521 bit curves
and 3 on `GOST2012_test`; so every valid point with reduced coordinates, infinity included, is the public key of some
random string. -/
theorem C128_shipped (K : WClass) (hK : K ∈ primeOrderClasses) :
    ∃ size, coordSize K.p = .ok size ∧ 256 ^ size / K.n = leastCount K.name ∧
      ∀ oid G T, K.generator oid = .ok G → T.curve = K.instance oid → (K.instance oid).onCurve T = .ok true →
        (∀ v, T.x = some v → 0 ≤ v ∧ v < K.p) → (∀ v, T.y = some v → 0 ≤ v ∧ v < K.p) →
        ∃ s : Bytes, s.length = size ∧ G.mul (newPrivateKey (fun _ => s) size) = .ok T := by
  obtain ⟨h0, h1, h2, h3⟩ := least_ok K hK
  obtain ⟨size, a1, a2, a3, -⟩ := C85_coord_size K.p h0
  have hs : size = K.p.toNat.log2 / 8 + 1 := by
    refine le_antisymm (a3 _ h1) ?_
    by_contra hlt
    have : (256 : Int) ^ size ≤ 256 ^ (K.p.toNat.log2 / 8) := pow_le_pow_right₀ (by norm_num) (by omega)
    omega
  rw [← hs] at h3
  refine ⟨size, a1, h3, fun oid G T hG hc hon hx hy => ?_⟩
  have hpos : 1 ≤ leastCount K.name := by
    unfold leastCount
    split_ifs <;> norm_num
  have hcount := C128_every_point K hK oid G T hG size hc hon hx hy
  rw [h3] at hcount
  have : (stringsFor G T size).ncard ≠ 0 := by omega
  obtain ⟨s, hs⟩ := Set.nonempty_of_ncard_ne_zero this
  exact ⟨s, hs.1, hs.2⟩

/-- On `BrainPoolP256r1` the point at infinity is the public key of two random strings, the octets of 0 and of `n`; the
public key of the private key `n - 1` has just one. -/
example (oid : Nat) : ∃ G T, BrainPoolP256r1.generator oid = .ok G ∧
    (stringsFor G (BrainPoolP256r1.instance oid).identity 32).ncard = 2 ∧
    G.mul ((BrainPoolP256r1.n - 1).toNat : Nat) = .ok T ∧ (stringsFor G T 32).ncard = 1 := by
  have hK : BrainPoolP256r1 ∈ primeOrderClasses := by simp [primeOrderClasses]
  obtain ⟨-, -, -, -, -, -, -, -, -, -, -, -, -, -, hg, -⟩ := C95_parameters _ hK
  have hG := hg oid
  obtain ⟨-, -, -, -, -, -, hc, hon, hx, -, -⟩ := gen_facts hK hG
  obtain ⟨T, hT, -⟩ := C95_scalar _ hK oid _ hc hon hx ((BrainPoolP256r1.n - 1).toNat : Nat)
  have h1 := C128_infinity _ hK oid _ hG 32
  have h2 := C128_exact _ hK oid _ T hG 32 _ hT
  have e1 : (256 : Int) ^ 32 / BrainPoolP256r1.n = 1 := by decide +kernel
  have e2 : ¬ (((BrainPoolP256r1.n - 1).toNat : Nat) : Int) % BrainPoolP256r1.n < 256 ^ 32 % BrainPoolP256r1.n := by
    decide +kernel
  rw [e1] at h1
  rw [if_neg e2, e1] at h2
  exact ⟨_, T, hG, by exact_mod_cast h1, hT, by exact_mod_cast h2⟩

end Cryptopy
