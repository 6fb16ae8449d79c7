import Verif.Model.AnalysisScripts
import Verif.Props.Bent
import Verif.Props.SboxTables

/-!
C159: what the programs in `analysis/` print.
-/

namespace Cryptopy.Props
open Model Spec

/-- C159: no call of the class of `permutation.py` gives an orbit list: `orbit_start_and_length` raises NameError for objects
of the class and its subclasses, `map_orbits_of_permutation` raises TypeError for objects of the class, and calls through the
class raise TypeError.  The program raises NameError. -/
theorem C159_permutation (keys : List (Nat × List Nat) → List Nat) (content : Option (List Nat)) (table : List Nat) :
    permutationLengths keys content = .error .name ∧ permutationOrbits none = .error .type ∧
    permutationUnbound table = .error .type ∧ permutationMain keys = .error .name := by
  refine ⟨?_, rfl, rfl, ?_⟩
  · rw [permutationLengths, readGlobal, if_neg (by decide)]; rfl
  · rw [permutationMain, readGlobal, if_neg (by decide)]; rfl

/-- C159: only an object of a subclass that also is a sequence gets the orbits, and they are those of `sbox_analysis.py`. -/
theorem C159_subclass (content : Option (List Nat)) (d : List (Nat × List Nat)) :
    permutationOrbits content = .ok d ↔ ∃ l, content = some l ∧ mapOrbits l = .ok d := by
  cases content with
  | none => simp [permutationOrbits]
  | some l => simp [permutationOrbits]
example : permutationOrbits (some [1, 0, 2]) = .ok [(0, [0, 1]), (2, [2])] := by decide

/-- C159: `sbox_analysis.py` prints five orbits of the AES table and nine of the SMS4 table, whatever the order of the
dictionary is. -/
theorem C159_sbox_analysis (keys : List (Nat × List Nat) → List Nat) (hk : ∀ d, (keys d).Perm (d.map Prod.fst)) :
    ∃ a s, sboxAnalysisMain keys = .ok [(5, a), (9, s)] ∧ a.Perm [(0, 59), (1, 81), (4, 87), (11, 27), (115, 2)] ∧
      s.Perm [(0, 120), (1, 24), (4, 56), (13, 35), (36, 9), (45, 3), (54, 6), (171, 1), (180, 2)] := by
  obtain ⟨⟨a, h1, h2⟩, s, h3, h4⟩ := C135_orbits keys hk
  refine ⟨a, s, ?_, h2, h4⟩
  rw [sboxAnalysisMain, h1, h3]
  change Except.ok [(a.length, a), (s.length, s)] = _
  rw [h2.length_eq, h4.length_eq]
  rfl
example := C159_sbox_analysis (fun d => d.map Prod.fst) fun _ => .refl _

/-- C159: what `walshtransform.py` prints: an affine list, a list at distance 2 and one at distance 1 from the affine lists. -/
theorem C159_walsh : walshMain = .ok [
    ([1, 1, 0, 0, 1, 1, 0, 0], [0, 0, -8, 0, 0, 0, 0, 0], 0),
    ([1, 1, 0, 1, 0, 1, 1, 1], [-4, 4, 0, 0, 0, 0, -4, -4], 2),
    ([0, 0, 1, 1, 1, 0, 1, 1], [-2, -2, 6, -2, 2, 2, 2, 2], 1)] := by
  decide +kernel

private theorem not_bent {n m : Nat} (hm : 1 ≤ m) (hn : n = 2 * m) {s r : List Nat} (h : InverseTables n s r) (c : Nat)
    (h1 : 1 ≤ c) (h2 : c < 2 ^ n) :
    nonLinearity (s.map (binaryInnerProduct c)) ≠ .ok (2 ^ (2 * m - 1) - 2 ^ (m - 1) : ℚ) := by
  intro hb
  have hl : (s.map (binaryInnerProduct c)).length = 2 ^ n := by rw [List.length_map, h.1]
  have ht : ∀ v ∈ s.map (binaryInnerProduct c), v < 2 := by
    intro v hv
    obtain ⟨x, -, rfl⟩ := List.mem_map.mp hv
    exact bip_lt _ _
  obtain ⟨ws, h3, h4⟩ := (C143_bent_iff n _ hl ht m hm hn).mp hb
  rw [walshTransform_eq n _ hl ht] at h3
  injection h3 with h3
  subst h3
  have h5 := h4 _ (List.mem_map.mpr ⟨0, List.mem_range.mpr (by positivity), rfl⟩)
  rw [wht_distance ht] at h5
  obtain ⟨hS, hne⟩ := (masks n (bits n c)).mpr ⟨c, h1, h2, rfl⟩
  have h6 : distance n (ofTable (s.map (binaryInnerProduct c))) (linear (bits n 0)) =
      distance n (fun x => linear (bits n c) (s.getD x 0)) (fun _ => false) := by
    rw [distance, distance]
    congr 1
    refine Finset.filter_congr fun x hx => ?_
    have hx := Finset.mem_range.mp hx
    have h7 : linear (bits n 0) x = false := by rw [linear, bits]; simp
    have h8 : ofTable (s.map (binaryInnerProduct c)) x = linear (bits n c) (s.getD x 0) := by
      rw [ofTable, List.getD_eq_getElem _ _ (by rw [List.length_map, h.1]; exact hx), List.getElem_map,
        ← List.getD_eq_getElem _ 0 (by rw [h.1]; exact hx)]
      have := bip_linear n c (s.getD x 0) (lt_of_le_of_lt Nat.and_le_left h2)
      cases h9 : linear (bits n c) (s.getD x 0)
      · rw [h9] at this; exact decide_eq_false (by rw [this]; decide)
      · rw [h9] at this; exact decide_eq_true (by rw [this])
    rw [h7, h8]
  have h10 : distance n (fun _ => false) (linear (bits n c)) =
      ((Finset.range (2 ^ n)).filter fun x => linear (bits n c) x ≠ false).card := by
    rw [distance]; congr 1; refine Finset.filter_congr fun x _ => ne_comm
  have h11 := linear_balanced n (bits n c) hS hne false
  rw [h6, distance_inverse h (linear (bits n c)) (fun _ => false), h10] at h5
  have h12 : (2 : Int) * (((Finset.range (2 ^ n)).filter fun x => linear (bits n c) x ≠ false).card : Nat) = 2 ^ n := by
    exact_mod_cast h11
  rw [h12, sub_self] at h5
  have : (0 : Int) < 2 ^ m := by positivity
  omega

/-- C159: for every result of `shuffle` the program of `sbox_nonlinearity.py` prints (112, 112) for AES and SMS4, (102, 110)
for the table called Streebog, and for the shuffled table two even numbers of which the smaller is at most 116 and the
larger at most 118. -/
theorem C159_nonlinearity (shuffled : List Nat) (hs : shuffled.Perm (List.range 256)) :
    ∃ lo hi : Nat, nonlinearityMain shuffled = .ok [(112, 112), (112, 112), (102, 110), ((lo : ℚ), (hi : ℚ))] ∧
      Even lo ∧ Even hi ∧ lo ≤ 116 ∧ lo ≤ hi ∧ hi ≤ 118 := by
  have hlen : shuffled.length = 256 := by rw [hs.length_eq, List.length_range]
  have hnd : shuffled.Nodup := hs.nodup_iff.mpr List.nodup_range
  have hmem : ∀ v, v ∈ shuffled ↔ v < 256 := fun v => by rw [hs.mem_iff, List.mem_range]
  have hinv : InverseTables 8 shuffled ((List.range 256).map fun y => shuffled.idxOf y) := by
    have hget : ∀ y < 256, ((List.range 256).map fun y => shuffled.idxOf y).getD y 0 = shuffled.idxOf y := by
      intro y hy
      rw [List.getD_eq_getElem _ _ (by simpa using hy)]
      simp
    refine ⟨hlen, by simp, fun x hx => ?_, fun y hy => ?_⟩
    · have hx : x < shuffled.length := by rw [hlen]; exact hx
      have hv : shuffled.getD x 0 < 256 := by
        rw [List.getD_eq_getElem _ _ hx]
        exact (hmem _).mp (List.getElem_mem hx)
      refine ⟨hv, ?_⟩
      rw [hget _ hv, List.getD_eq_getElem _ _ hx]
      exact hnd.idxOf_getElem x hx
    · have hy' : y ∈ shuffled := (hmem y).mpr hy
      have hi := List.idxOf_lt_length_of_mem hy'
      rw [hget y hy]
      refine ⟨by rw [hlen] at hi; exact hi, ?_⟩
      rw [List.getD_eq_getElem _ _ hi]
      exact List.getElem_idxOf hi
  obtain ⟨lo, hi, e, ⟨⟨S0, t1, t2, t3⟩, hlo⟩, ⟨S, s1, s2, s3⟩, -⟩ := C94_sbox 8 (by norm_num) shuffled hlen
  obtain ⟨lo', hi', e', ev1, ev2⟩ := C143_permutation 8 (by norm_num) shuffled _ hinv
  obtain ⟨lo'', hi'', e'', hle⟩ := C143_eight shuffled hlen
  rw [e] at e' e''
  injection e' with e'
  injection e'' with e''
  rw [Prod.mk.injEq] at e' e''
  have a1 : lo = lo' := by exact_mod_cast e'.1
  have a2 : hi = hi' := by exact_mod_cast e'.2
  have a3 : lo = lo'' := by exact_mod_cast e''.1
  subst a1 a2
  refine ⟨lo, hi, ?_, ev1, ev2, by omega, hlo ⟨S, s1, s2, s3⟩, ?_⟩
  · rw [nonlinearityMain, List.mapM_cons, C94_aes, List.mapM_cons, C94_sms4, List.mapM_cons, C94_streebog, List.mapM_cons, e]
    rfl
  · obtain ⟨c, c1, c2, rfl⟩ := (masks 8 S).mp ⟨s1, s2⟩
    rw [← component_eq 8 shuffled hlen c c2] at s3
    have hl : (shuffled.map (binaryInnerProduct c)).length = 2 ^ 8 := by rw [List.length_map, hlen]; rfl
    have ht : ∀ v ∈ shuffled.map (binaryInnerProduct c), v < 2 := by
      intro v hv
      obtain ⟨x, -, rfl⟩ := List.mem_map.mp hv
      exact bip_lt _ _
    have b1 := C89_bound 8 _ hl ht
    have b2 := C89_nonlinearity 8 _ hl ht (by norm_num)
    have b3 := not_bent (m := 4) (by norm_num) rfl hinv c c1 c2
    rw [b2, ← s3] at b3
    rw [← s3, show (2 : ℝ) ^ 8 = 16 ^ 2 by norm_num, Real.sqrt_sq (by norm_num)] at b1
    have b4 : hi ≤ 120 := by
      have : (hi : ℝ) ≤ 120 := by linarith
      exact_mod_cast this
    have b5 : hi ≠ 120 := by
      rintro rfl
      apply b3
      norm_num
    obtain ⟨k, hk⟩ := ev2
    omega
example : ∃ lo hi : Nat, nonlinearityMain ((List.range 256).reverse) = .ok [(112, 112), (112, 112), (102, 110),
    ((lo : ℚ), (hi : ℚ))] ∧ Even lo ∧ Even hi ∧ lo ≤ 116 ∧ lo ≤ hi ∧ hi ≤ 118 :=
  C159_nonlinearity _ (List.reverse_perm _)

end Cryptopy.Props
