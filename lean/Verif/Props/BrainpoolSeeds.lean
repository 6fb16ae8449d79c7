import Mathlib.NumberTheory.LegendreSymbol.QuadraticReciprocity
import Verif.Spec.Brainpool
import Verif.Lemmas.Euler
import Verif.Lemmas.PrimeCert
import Verif.Lemmas.Sha1
import Verif.Props.Curves
import Verif.Props.PiSeeds

/-!
C134: how the Brainpool curves follow from their seeds.
-/

namespace Cryptopy
open Model Spec Ecpp

namespace BrainpoolSeeds

/-! ### Composite numbers -/

/-- `2 ^ m` to `2 ^ (m * 2 ^ i + e % 2 ^ i)` modulo `n`. -/
def powTwo (n e : Nat) : Nat → Nat → Nat
  | 0, acc => acc
  | i + 1, acc => force (acc * acc * 2 ^ ((e >>> i) % 2) % n) fun x => powTwo n e i x

theorem powTwo_spec (n e : Nat) (i m acc : Nat) (h : acc ≡ 2 ^ m [MOD n]) :
    powTwo n e i acc ≡ 2 ^ (m * 2 ^ i + e % 2 ^ i) [MOD n] := by
  induction i generalizing m acc with
  | zero => simpa [powTwo, Nat.mod_one] using h
  | succ i ih =>
    rw [powTwo, force_eq]
    have h1 : acc * acc * 2 ^ ((e >>> i) % 2) % n ≡ 2 ^ (2 * m + (e >>> i) % 2) [MOD n] := by
      refine (Nat.mod_modEq _ _).trans ?_
      rw [pow_add, two_mul, pow_add]
      exact (h.mul h).mul_right _
    have h2 := ih _ _ h1
    have hm : e % 2 ^ (i + 1) = (e >>> i) % 2 * 2 ^ i + e % 2 ^ i := by
      rw [Nat.shiftRight_eq_div_pow, Nat.mod_pow_succ]; ring
    rwa [show (2 * m + (e >>> i) % 2) * 2 ^ i + e % 2 ^ i = m * 2 ^ (i + 1) + e % 2 ^ (i + 1) by rw [hm]; ring] at h2

/-- The product of the primes up to 97. -/
def small : Nat := 2305567963945518424753102147331756070

/-- A common factor with `small`, or a Fermat test with base 2 that fails. -/
def composite (q : Nat) : Bool :=
  force (Nat.gcd q small) fun g => (Nat.blt 1 g && Nat.blt g q) ||
    (Nat.blt 2 q && Nat.blt q (2 ^ (q.log2 + 1)) && force (powTwo q (q - 1) (q.log2 + 1) 1) fun x => !(Nat.beq (x % q) 1))

theorem composite_spec {q : Nat} (h : composite q = true) : ¬ q.Prime := by
  intro hp
  simp only [composite, force_eq, Bool.or_eq_true, Bool.and_eq_true, Bool.not_eq_true', Nat.blt_eq] at h
  rcases h with ⟨h1, h2⟩ | ⟨⟨h2, h3⟩, h4⟩
  · rcases (Nat.dvd_prime hp).mp (Nat.gcd_dvd_left q small) with h | h <;> omega
  · have h5 := powTwo_spec q (q - 1) (q.log2 + 1) 0 1 (by rfl)
    rw [zero_mul, zero_add, Nat.mod_eq_of_lt (by omega)] at h5
    have h6 : 2 ^ (q - 1) ≡ 1 [MOD q] := by
      have := Nat.ModEq.pow_totient (x := 2) (n := q)
        ((Nat.coprime_primes Nat.prime_two hp).mpr (by omega))
      rwa [Nat.totient_prime hp] at this
    have h7 : powTwo q (q - 1) (q.log2 + 1) 1 % q = 1 := by
      have := h5.trans h6
      rw [Nat.ModEq, Nat.mod_eq_of_lt (a := 1) (by omega)] at this
      exact this
    rw [h7] at h4
    exact absurd h4 (by decide)

/-- `q, q + 4, ...`, `n` numbers, are composite. -/
def composites : Nat → Nat → Bool
  | 0, _ => true
  | n + 1, q => composite q && force (q + 4) fun q => composites n q

theorem composites_spec {n q : Nat} (h : composites n q = true) : ∀ i < n, ¬ (q + 4 * i).Prime := by
  induction n generalizing q with
  | zero => intro i hi; omega
  | succ n ih =>
    rw [composites, Bool.and_eq_true, force_eq] at h
    intro i hi
    match i with
    | 0 => exact composite_spec h.1
    | i + 1 =>
      have := ih h.2 i (by omega)
      rwa [show q + 4 + 4 * i = q + 4 * (i + 1) by ring] at this

theorem least {c p n : Nat} (hp : p.Prime) (h : composites n (c + (3 - c % 4)) = true) (e : c + (3 - c % 4) + 4 * n = p) :
    LeastPrime c p := by
  refine ⟨by omega, hp, by omega, fun q h1 h2 h3 => ?_⟩
  by_contra hq
  have := composites_spec h ((q - (c + (3 - c % 4))) / 4) (by omega)
  rw [show c + (3 - c % 4) + 4 * ((q - (c + (3 - c % 4))) / 4) = q by omega] at this
  exact this h2

/-! ### The prime of `BrainPoolP384r1` takes a second seed -/

theorem prime256 : Nat.Prime 76884956397045344220809746629001649093037950200943055203735601445031516197751 := by
  obtain ⟨p, n, h1, -, h2, -⟩ := C95_parameters BrainPoolP256r1 (by simp only [primeOrderClasses, List.mem_cons, true_or, or_true])
  have h3 : (p : Int) = 76884956397045344220809746629001649093037950200943055203735601445031516197751 := h1.symm
  have h4 : p = 76884956397045344220809746629001649093037950200943055203735601445031516197751 := by exact_mod_cast h3
  rwa [← h4]

/-- A prime between the number of the first seed and `2 ^ 383`. -/
theorem prime382 : Nat.Prime 17032491991022732826258005364039054391302959781638069842343657119827050602501344941720974771480952961404557910156251 := by
  refine Cert.prime_of_lucas 383 _ 10 [2, 3, 3, 3, 3, 3, 3, 3, 3, 5, 5, 5, 5, 5, 5, 5, 5, 5, 5, 5, 7, 7, 7, 7, 7, 7, 7, 7, 7, 7, 7, 11, 11, 11, 11, 11, 11, 11, 11, 13, 13, 13, 13, 13, 13, 13, 13, 76884956397045344220809746629001649093037950200943055203735601445031516197751] (by decide +kernel) ?_
  intro q hq
  have : q ∈ [2, 3, 5, 7, 11, 13] ∨ q = 76884956397045344220809746629001649093037950200943055203735601445031516197751 := by
    simp only [List.mem_cons, List.not_mem_nil, or_false] at hq ⊢
    omega
  rcases this with h | rfl
  · fin_cases h <;> norm_num
  · exact prime256

theorem least_exists {c r : Nat} (hr : r.Prime) (h3 : r % 4 = 3) (hc : c ≤ r) : ∃ q, LeastPrime c q ∧ q ≤ r := by
  classical
  have hex : ∃ q, c ≤ q ∧ q.Prime ∧ q % 4 = 3 := ⟨r, hc, hr, h3⟩
  obtain ⟨h1, h2, h4⟩ := Nat.find_spec hex
  exact ⟨Nat.find hex, ⟨h1, h2, h4, fun q a b d => Nat.find_min' hex ⟨a, b, d⟩⟩, Nat.find_min' hex ⟨hc, hr, h3⟩⟩

/-! ### Certificates -/

/-- For each curve: the bit length, how many seeds are skipped before `p` is found, the number of composite candidates
before `p`, the number of seeds before that of `a`, the number of seeds from that of `a` to that of `b`, the solution of
`-3 = a z ^ 4`, a root of `-b`, and roots of the squares in between. -/
def certs : List (Nat × Nat × Nat × Nat × Nat × Nat × Nat × List Nat) :=
  [(160, 0, 24, 282, 3,
      0x24dbff5dec9b986bbfe5295a29bfbae45e0f5d0b,
      0x1050fbf388240cab27adbf3e0d7494c97948c71e, [0x5213b2be6a324ecc8e4a1f8711fe9ec19eda63c9, 0xc982926e9b287ed01744eefe8df71e4b40108d84]),
    (192, 0, 79, 1254, 1,
      0xa7939754b7dc6f1e8e5dbb93dbc3cb8e316f8daa6e875dcc,
      0x63422efd8d5692c19be4ca6073366aedf164102423430cc, []),
    (224, 0, 54, 1344, 3,
      0xa9cec2c8e21bc33f990b38828f022fd3bc1a2194caf8c13e4de635c0,
      0x2c35d7eceb30ea5cef8249b2f61f930bdfbfac543b4076e02070f30f, [0x331e39d9a819da5f087b67324fddc4bb6b82cb0db36a3f0dd2db363c, 0x4d2097362a86f7a00f287cc91fc17124f4fe60d739ff82f2f204656c]),
    (256, 0, 148, 1941, 1,
      0x3e2d4bd9597b58639ae7aa669cab9837cf5cf20a2c852d10f655668dfc150ef0,
      0x4c3d5cc75c63bbb7b70e9a69de692418e98f80576e0f95b473d2ce7facf44844, []),
    (320, 0, 125, 2222, 5,
      0x15f75caf668077f7e85b42eb01f0a81ff56ecd6191d55cb82b7d861458a18fefc3e5ab7496f3c7b1,
      0x3552aa97718c7cbc27614a69d3a178ac2dd68070705993655194b1c5255736441e3b86abb2ed7ba0, [0xba11187bdda47caa796cad83244edd4d9a0a1d81362151c374c11264a7caef65cf2d6bc216d8533b, 0x1b97f96dfd878722a73f7a37cce1609b034f7268251f3b90f4afa1384a46f911201080417f3a472e, 0x4dcad78fde73c3a8651a8f2cbc36be8adb9fba0b127535710a6bd938183a529e7d2a8f2dc102cfdd, 0x157ac770c5686fc783386351762c334a47b2cce3127b987d41a122bee4384024a40aa0160dde7c55]),
    (384, 1, 103, 5653, 2,
      0x4ad935a569a53b30f8f30976e9b19942445cb42e704dc86f30be612560eb628bd9fd696d08604c94bae95c74ab7ec337,
      0x1307370956efa539d0733d7d474cf4b90acb4a3665989d05247aebabd2e01545df253d2ec98037b69b6d8d50967751cb, [0x76ab75d9ddbf9116a167a56c328170a8bffa932b4c161d093f4e07024919440aeb29df0266dc99d01909a180ee43cb5d]),
    (512, 0, 292, 1871, 1,
      0x12ee58e6764838b69782136f0f2d3ba06e27695716054092e60a80bedb212b64e585d90bce13761f85c3f1d2a64e3be8fea2220f01eba5eeb0f35dbd29d922ab,
      0x3589de96eeaadb96b54ffaa4a78b0afd984ddc5a2407eb3b537c11229afbc083c43d09ab82d7d97ae9c2462dd91ea5c6779594cd195548f7cfe1b6557a269475, [])]

/-- The check of the prime. -/
def primeOk (e : WClass × Nat × Nat) (t : Nat × Nat × Nat × Nat × Nat × Nat × Nat × List Nat) : Bool :=
  force e.1.p.toNat fun p => force t.1 fun L =>
  Sha1.expandFast (L - 160 * ((L - 1) / 160)) ((L - 1) / 160) (e.2.1 + t.2.1) (fun c =>
    Nat.beq (c + (3 - c % 4) + 4 * t.2.2.1) p && composites t.2.2.1 (c + (3 - c % 4)) && Nat.ble (2 ^ (L - 1)) p &&
      Nat.blt p (2 ^ L)) &&
  (Nat.beq t.2.1 0 || Nat.beq t.2.1 1 && Nat.blt (e.2.1 + 1) (2 ^ 160) &&
    Sha1.expandFast (L - 160 * ((L - 1) / 160)) ((L - 1) / 160) e.2.1 fun c =>
      Nat.ble c 17032491991022732826258005364039054391302959781638069842343657119827050602501344941720974771480952961404557910156251 && Nat.blt 17032491991022732826258005364039054391302959781638069842343657119827050602501344941720974771480952961404557910156251 (2 ^ (L - 1)))

theorem primes_checked : (brainpoolSeedTable.zip certs).all (fun x => primeOk x.1 x.2) = true := by decide +kernel

/-- The roots of the numbers of the seeds `s`, `s + 1`, ... -/
def rootsOk (p L : Nat) : Nat → List Nat → Bool
  | _, [] => true
  | s, r :: rs => Sha1.expandFast (L - 160 * ((L - 1) / 160) - 1) ((L - 1) / 160) s (fun x => Nat.beq (r ^ 2 % p) (x % p)) &&
    force (s + 1) fun s => rootsOk p L s rs

theorem rootsOk_spec {p L s : Nat} {rs : List Nat} (h : rootsOk p L s rs = true) :
    ∀ i < rs.length, ∃ r, r ^ 2 % p = seedNumber1 L (s + i) % p := by
  induction rs generalizing s with
  | nil => intro i hi; simp at hi
  | cons r rs ih =>
    rw [rootsOk, Bool.and_eq_true, force_eq, Sha1.expandFast_eq] at h
    intro i hi
    match i with
    | 0 => exact ⟨r, Nat.eq_of_beq_eq_true h.1⟩
    | i + 1 =>
      obtain ⟨r, hr⟩ := ih h.2 i (by simpa using hi)
      exact ⟨r, by rw [hr, show s + 1 + i = s + (i + 1) by ring]⟩

/-- The check of the coefficients. -/
def coefficientsOk (e : WClass × Nat × Nat) (t : Nat × Nat × Nat × Nat × Nat × Nat × Nat × List Nat) : Bool :=
  force e.1.p.toNat fun p => force e.1.a.toNat fun a => force e.1.b.toNat fun b => force t.1 fun L =>
  force (e.2.2 + t.2.2.2.1) fun s => force t.2.2.2.2.1 fun j =>
  Nat.ble (2 ^ (L - 1)) p && Nat.blt p (2 ^ L) && Nat.blt (s + j) (2 ^ 160) && Nat.beq (p % 4) 3 && Nat.blt 0 j && !(Nat.beq (b % p) 0) &&
  Sha1.expandFast (L - 160 * ((L - 1) / 160) - 1) ((L - 1) / 160) s (fun x => Nat.beq x a) &&
  Sha1.expandFast (L - 160 * ((L - 1) / 160) - 1) ((L - 1) / 160) (s + j) (fun x => Nat.beq x b) &&
  Nat.beq ((a * t.2.2.2.2.2.1 ^ 4 + 3) % p) 0 && Nat.beq ((t.2.2.2.2.2.2.1 ^ 2 + b) % p) 0 &&
  Nat.beq (t.2.2.2.2.2.2.2.length + 1) j && rootsOk p L (s + 1) t.2.2.2.2.2.2.2

theorem coefficients_checked : (brainpoolSeedTable.zip certs).all (fun x => coefficientsOk x.1 x.2) = true := by
  decide +kernel

theorem signs_checked : ∀ e ∈ brainpoolSeedTable, 0 ≤ e.1.a ∧ 0 ≤ e.1.b := by decide +kernel

theorem zip_all {α β : Type} (f : α × β → Bool) (l : List α) (m : List β) (hl : l.length = m.length)
    (h : (l.zip m).all f = true) : ∀ x ∈ l, ∃ y, f (x, y) = true := by
  induction l generalizing m with
  | nil => intro x hx; simp at hx
  | cons a l ih =>
    cases m with
    | nil => simp at hl
    | cons b m =>
      rw [List.zip_cons_cons, List.all_cons, Bool.and_eq_true] at h
      intro x hx
      rcases List.mem_cons.mp hx with rfl | hx
      · exact ⟨b, h.1⟩
      · exact ih m (by simpa using hl) h.2 x hx

theorem update (s k : Nat) (h : s + k < 2 ^ 160) : updateSeed^[k] s = s + k := by
  induction k with
  | zero => rfl
  | succ k ih => rw [Function.iterate_succ_apply', ih (by omega), updateSeed, Nat.mod_eq_of_lt (by omega)]; ring

theorem listed : ∀ e ∈ brainpoolSeedTable, e.1 ∈ primeOrderClasses := by
  intro e he
  simp only [brainpoolSeedTable, List.mem_cons, List.not_mem_nil, or_false] at he
  rcases he with rfl | rfl | rfl | rfl | rfl | rfl | rfl <;> simp only [primeOrderClasses, List.mem_cons, true_or, or_true]

theorem nonsquare {p b r : Nat} (hp : p.Prime) (h3 : p % 4 = 3) (hb : b % p ≠ 0) (hr : (r ^ 2 + b) % p = 0) :
    ¬ ∃ x, x ^ 2 % p = b % p := by
  rintro ⟨x, hx⟩
  have : Fact p.Prime := ⟨hp⟩
  have h1 : (x : ZMod p) ^ 2 = b := by
    have := (ZMod.natCast_eq_natCast_iff _ _ p).mpr hx
    exact_mod_cast this
  have h2 : (r : ZMod p) ^ 2 + b = 0 := by
    have := (ZMod.natCast_eq_zero_iff (r ^ 2 + b) p).mpr (Nat.dvd_of_mod_eq_zero hr)
    exact_mod_cast this
  have hx0 : (x : ZMod p) ≠ 0 := by
    intro h0
    rw [h0] at h1
    have : ((b : Nat) : ZMod p) = 0 := by rw [← h1]; ring
    exact hb (Nat.mod_eq_zero_of_dvd ((ZMod.natCast_eq_zero_iff b p).mp this))
  exact ZMod.mod_four_ne_three_of_sq_eq_neg_sq' hx0 (x := (r : ZMod p)) (by rw [h1]; linear_combination h2) h3

end BrainpoolSeeds

open BrainpoolSeeds

private theorem pi_checked : ((List.range 7).all fun i => Nat.beq (PiSeeds.value * 16 ^ (40 * i + 39) / 10 ^ 1000 % 2 ^ 160)
    ((brainpoolSeedTable.map fun e => e.2.1).getD i 0)) = true := by decide +kernel

private theorem e_checked : ((List.range 7).all fun i => Nat.blt (Euler.num 230 * 16 ^ (40 * i + 39) % Nat.factorial 230 * 230 +
      (230 + 1) * 16 ^ (40 * i + 39)) (Nat.factorial 230 * 230) &&
    Nat.beq (Euler.num 230 * 16 ^ (40 * i + 39) / Nat.factorial 230 % 2 ^ 160)
    ((brainpoolSeedTable.map fun e => e.2.2).getD i 0)) = true := by decide +kernel

private theorem seven {f : Nat → Nat} {l : List Nat} (hl : l.length = 7) (h : ∀ i < 7, f i = l.getD i 0) :
    (List.range 7).map f = l := by
  refine List.ext_getElem (by simp [hl]) fun i h1 h2 => ?_
  rw [List.getElem_map, List.getElem_range, h i (by omega), List.getD_eq_getElem _ _ h2]

/-- C134: the recorded seeds for `p` are what `brainpool_seeds()` returns, the consecutive segments of 40 hexadecimal digits
of pi, and the seeds for `a` and `b` are those of Euler's number. -/
theorem C134_seeds :
    brainpoolSeeds 7 160 = .ok (brainpoolSeedTable.map fun e => e.2.1) ∧
    (List.range 7).map (fun i => (⌊Real.pi * 2 ^ (160 * (i + 1) - 4)⌋ % 2 ^ 160).toNat) =
      brainpoolSeedTable.map (fun e => e.2.1) ∧
    (List.range 7).map (fun i => (⌊Real.exp 1 * 2 ^ (160 * (i + 1) - 4)⌋ % 2 ^ 160).toNat) =
      brainpoolSeedTable.map (fun e => e.2.2) := by
  have e1 : ∀ i : Nat, (2 : ℝ) ^ (160 * (i + 1) - 4) = 16 ^ (40 * i + 39) := by
    intro i
    rw [show 160 * (i + 1) - 4 = 4 * (40 * i + 39) by omega, pow_mul]
    norm_num
  have e2 : ∀ n : Nat, ((n : Int) % 2 ^ 160).toNat = n % 2 ^ 160 := fun n => by omega
  have hpi : (List.range 7).map (fun i => (⌊Real.pi * 2 ^ (160 * (i + 1) - 4)⌋ % 2 ^ 160).toNat) =
      brainpoolSeedTable.map (fun e => e.2.1) := by
    refine seven (by rfl) fun i hi => ?_
    obtain ⟨K, hK, d⟩ := PiSeeds.digits
    have hc := Nat.eq_of_beq_eq_true (List.all_eq_true.mp pi_checked i (List.mem_range.mpr hi))
    rw [← hK] at hc
    rw [e1, PiSeeds.floor_pi d _ (by omega), e2, hc]
  refine ⟨?_, hpi, seven (by rfl) fun i hi => ?_⟩
  · rw [(C133_seeds 7 160).2.2 (by norm_num) (by norm_num) (by norm_num), hpi]
  · have hc := List.all_eq_true.mp e_checked i (List.mem_range.mpr hi)
    rw [Bool.and_eq_true, Nat.blt_eq] at hc
    have hf := Euler.floor_eq 230 (16 ^ (40 * i + 39)) (by norm_num) hc.1
    push_cast at hf
    rw [e1, hf]
    have := Nat.eq_of_beq_eq_true hc.2
    rw [← this, ← e2]
    push_cast
    rfl

/-- The generation gives at most one prime. -/
theorem C134_unique (L s p q : Nat) (hp : PrimeFromSeed L s p) (hq : PrimeFromSeed L s q) : p = q := by
  have one : ∀ {c a b}, LeastPrime c a → LeastPrime c b → a = b := fun ha hb =>
    le_antisymm (ha.2.2.2 _ hb.1 hb.2.1 hb.2.2.1) (hb.2.2.2 _ ha.1 ha.2.1 ha.2.2.1)
  induction hp with
  | found s p h1 h2 h3 =>
    cases hq with
    | found _ _ h4 h5 h6 => exact one h1 h4
    | next _ q' _ h4 h5 h6 => exact absurd (one h1 h4 ▸ ⟨h2, h3⟩) h5
  | next s q' p h1 h2 h3 ih =>
    cases hq with
    | found _ _ h4 h5 h6 => exact absurd (one h4 h1 ▸ ⟨h5, h6⟩) h2
    | next _ q' _ h4 h5 h6 => exact ih h6
/-- The hypotheses of the two theorems hold for every row of the table. -/
example : (BrainPoolP160r1, 0x3243F6A8885A308D313198A2E03707344A409382, 0x2B7E151628AED2A6ABF7158809CF4F3C762E7160) ∈
    brainpoolSeedTable := by simp [brainpoolSeedTable]

/-- C134: the generation of a prime of `L` bits from `seed_p` ends with the `p` of the curve. -/
theorem C134_prime (K : WClass) (sp sab : Nat) (h : (K, sp, sab) ∈ brainpoolSeedTable) :
    ∃ L p : Nat, K.p = p ∧ 2 ^ (L - 1) ≤ p ∧ p < 2 ^ L ∧ PrimeFromSeed L sp p := by
  obtain ⟨p, n, hp, -, hprime, -⟩ := C95_parameters K (listed _ h)
  obtain ⟨⟨L, t, m, x⟩, ht⟩ := zip_all _ brainpoolSeedTable certs (by rfl) primes_checked _ h
  simp only [primeOk, force_eq, Sha1.expandFast_eq, hp, Int.toNat_natCast, Bool.and_eq_true, Bool.or_eq_true,
    Nat.beq_eq, Nat.ble_eq, Nat.blt_eq] at ht
  obtain ⟨⟨⟨⟨h1, h2⟩, h3⟩, h4⟩, h5⟩ := ht
  have hl := least (c := seedNumber2 L (sp + t)) hprime h2 h1
  have hf := PrimeFromSeed.found _ p hl h3 h4
  refine ⟨L, p, hp, h3, h4, ?_⟩
  rcases h5 with rfl | ⟨⟨rfl, h6⟩, h7, h8⟩
  · exact hf
  · obtain ⟨q, hq, hr⟩ := least_exists (c := seedNumber2 L sp) prime382 (by norm_num) h7
    refine .next _ q _ hq (fun hh => ?_) ?_
    · exact absurd (lt_of_le_of_lt (hh.1.trans hr) h8) (lt_irrefl _)
    · rw [updateSeed, Nat.mod_eq_of_lt h6]
      exact hf
example := C134_prime BrainPoolP160r1 0x3243F6A8885A308D313198A2E03707344A409382 0x2B7E151628AED2A6ABF7158809CF4F3C762E7160
  (by simp [brainpoolSeedTable])

/-- C134: `a` and `b` are candidates of the generation started with `seed_ab`: `a` is the number of one of the seeds from
`seed_ab` on, `-3 = a z ^ 4` has a solution, and `b` is the first number after it that is no square. -/
theorem C134_coefficients (K : WClass) (sp sab : Nat) (h : (K, sp, sab) ∈ brainpoolSeedTable) :
    ∃ L p a b k j : Nat, K.p = p ∧ K.a = a ∧ K.b = b ∧ 2 ^ (L - 1) ≤ p ∧ p < 2 ^ L ∧
      Candidates L p (updateSeed^[k] sab) j a b := by
  obtain ⟨L, p, hp, hl, hu, -⟩ := C134_prime K sp sab h
  obtain ⟨p', n, hp', -, hprime, -⟩ := C95_parameters K (listed _ h)
  obtain rfl : p' = p := by exact_mod_cast hp'.symm.trans hp
  obtain ⟨⟨L', t, m, k, j, z, nb, rs⟩, ht⟩ := zip_all _ brainpoolSeedTable certs (by rfl) coefficients_checked _ h
  obtain ⟨sa, sb⟩ := signs_checked _ h
  obtain ⟨a, ha⟩ := Int.eq_ofNat_of_zero_le sa
  obtain ⟨b, hb⟩ := Int.eq_ofNat_of_zero_le sb
  dsimp only at ha hb
  simp only [coefficientsOk, force_eq, Sha1.expandFast_eq, hp, ha, hb, Int.toNat_natCast, Bool.and_eq_true,
    Bool.not_eq_true', Nat.beq_eq, Nat.ble_eq, Nat.blt_eq] at ht
  obtain ⟨⟨⟨⟨⟨⟨⟨⟨⟨⟨⟨h0, h1⟩, h2⟩, h3⟩, h4⟩, h5⟩, h6⟩, h7⟩, h8⟩, h9⟩, h10⟩, h11⟩ := ht
  refine ⟨L', p', a, b, k, j, hp, ha, hb, h0, h1, ?_⟩
  rw [update _ _ (by omega)]
  refine ⟨h6.symm, ⟨z, h8⟩, h4, ?_, nonsquare hprime h3 ?_ h9, fun i hi hj => ?_⟩
  · rw [update _ _ h2]; exact h7.symm
  · intro h
    rw [h] at h5
    exact absurd h5 (by decide)
  · obtain ⟨r, hr⟩ := rootsOk_spec h11 (i - 1) (by omega)
    refine ⟨r, ?_⟩
    rw [hr, update _ _ (by omega), show sab + k + 1 + (i - 1) = sab + k + i by omega]

/-- The curve that needs the second seed is in the table; the number of its first seed is too small. -/
example : (BrainPoolP384r1, 0x5F12C7F9924A19947B3916CF70801F2E2858EFC1, 0xBCFBFA1C877C56284DAB79CD4C2B3293D20E9E5E) ∈
    brainpoolSeedTable ∧ seedNumber2 384 0x5F12C7F9924A19947B3916CF70801F2E2858EFC1 < 2 ^ 383 := by
  refine ⟨by simp only [brainpoolSeedTable, List.mem_cons, true_or, or_true], ?_⟩
  have h : Sha1.expandFast (384 - 160 * ((384 - 1) / 160)) ((384 - 1) / 160) 0x5F12C7F9924A19947B3916CF70801F2E2858EFC1
      (fun c => Nat.blt c (2 ^ 383)) = true := by decide +kernel
  rw [Sha1.expandFast_eq, Nat.blt_eq] at h
  exact h

end Cryptopy
