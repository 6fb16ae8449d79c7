import Verif.Model.CurveList

/-!
C126: what the lists of curves of `ecc/curves.py` contain and what can be looked up in them.
-/

namespace Cryptopy
open Model (CurveClass CurveLists CurveNumbers Member getAllClasses collectCurves curveClasses curvesNamespace
  shippedCurves)

namespace CurveList

/-- The base classes by which the loop sorts. -/
def sorts : List String :=
  ["SmallWeierstrassCurveFp", "KoblitzCurveFp", "TwistedEdwardsCurveFp", "EdwardsCurveFp", "MontgomeryCurveFp"]

/-- The list for a base class. -/
def pick (l : CurveLists) : String → List CurveClass
  | "SmallWeierstrassCurveFp" => l.smallWeierstrass
  | "KoblitzCurveFp" => l.koblitz
  | "TwistedEdwardsCurveFp" => l.twistedEdwards
  | "EdwardsCurveFp" => l.edwards
  | "MontgomeryCurveFp" => l.montgomery
  | _ => []

theorem fold_lists (es : List (String × CurveClass)) (l : CurveLists) (ns : List (String × Member)) :
    (es.foldl (fun s e => (s.1.collect e.2, Model.bind (Model.bind s.2 "curve_name" .other) "c" (.cls e.2)))
      (l, ns)).1 = (es.map Prod.snd).foldl CurveLists.collect l := by
  induction es generalizing l ns with
  | nil => rfl
  | cons e es ih => exact ih _ _

theorem fold_collect (cs : List CurveClass) (l : CurveLists) :
    cs.foldl CurveLists.collect l =
      ⟨l.smallWeierstrass ++ cs.filter (·.base = "SmallWeierstrassCurveFp"),
        l.koblitz ++ cs.filter (·.base = "KoblitzCurveFp"),
        l.twistedEdwards ++ cs.filter (·.base = "TwistedEdwardsCurveFp"),
        l.edwards ++ cs.filter (·.base = "EdwardsCurveFp"),
        l.montgomery ++ cs.filter (·.base = "MontgomeryCurveFp")⟩ := by
  induction cs generalizing l with
  | nil => simp
  | cons c cs ih =>
    rw [List.foldl_cons, ih]
    unfold CurveLists.collect
    by_cases h1 : c.base = "SmallWeierstrassCurveFp"
    · simp [h1]
    by_cases h2 : c.base = "TwistedEdwardsCurveFp"
    · simp [h2]
    by_cases h3 : c.base = "EdwardsCurveFp"
    · simp [h3]
    by_cases h4 : c.base = "MontgomeryCurveFp"
    · simp [h4]
    by_cases h5 : c.base = "KoblitzCurveFp"
    · simp [h5]
    simp [h1, h2, h3, h4, h5]

/-- The classes of the module in the order of their names. -/
def ordered (modname : String) (ns : List (String × Member)) : List CurveClass :=
  (getAllClasses modname ns).map Prod.snd

theorem mem_getAllClasses (modname : String) (ns : List (String × Member)) (k : String) (c : CurveClass) :
    (k, c) ∈ getAllClasses modname ns ↔ (k, Member.cls c) ∈ ns ∧ c.module = modname := by
  unfold getAllClasses
  rw [List.mem_insertionSort, List.mem_filterMap]
  constructor
  · rintro ⟨⟨k', m⟩, hm, h⟩
    cases m with
    | other => cases h
    | cls c' =>
      simp only at h
      split at h
      · next hmod => cases h; exact ⟨hm, hmod⟩
      · cases h
  · rintro ⟨hm, hmod⟩
    exact ⟨_, hm, by simp [hmod]⟩

theorem lists_eq (modname : String) (ns : List (String × Member)) :
    (collectCurves modname ns).1 =
      ⟨(ordered modname ns).filter (·.base = "SmallWeierstrassCurveFp"),
        (ordered modname ns).filter (·.base = "KoblitzCurveFp"),
        (ordered modname ns).filter (·.base = "TwistedEdwardsCurveFp"),
        (ordered modname ns).filter (·.base = "EdwardsCurveFp"),
        (ordered modname ns).filter (·.base = "MontgomeryCurveFp")⟩ := by
  unfold collectCurves
  rw [fold_lists, fold_collect]
  rfl

end CurveList

open CurveList

/-- C126: for any contents of the module, a class is in a list exactly if it is a class of the module whose first base
has the name that goes with the list, whatever name it is bound to; so no class is in two lists. -/
theorem C126_sorted_by_base (modname : String) (ns : List (String × Member)) (s : String) (hs : s ∈ sorts)
    (c : CurveClass) :
    (c ∈ pick (collectCurves modname ns).1 s ↔ c.base = s ∧ c.module = modname ∧ ∃ k, (k, Member.cls c) ∈ ns) ∧
    (c ∈ (collectCurves modname ns).1.all ↔
      c.base ∈ sorts ∧ c.module = modname ∧ ∃ k, (k, Member.cls c) ∈ ns) := by
  have hm : c ∈ ordered modname ns ↔ c.module = modname ∧ ∃ k, (k, Member.cls c) ∈ ns := by
    unfold ordered
    rw [List.mem_map]
    constructor
    · rintro ⟨⟨k, c'⟩, h, rfl⟩
      have := (mem_getAllClasses _ _ _ _).mp h
      exact ⟨this.2, k, this.1⟩
    · rintro ⟨h, k, hk⟩
      exact ⟨(k, c), (mem_getAllClasses _ _ _ _).mpr ⟨hk, h⟩, rfl⟩
  rw [lists_eq, ← hm]
  constructor
  · simp only [sorts, List.mem_cons, List.not_mem_nil, or_false] at hs
    rcases hs with rfl | rfl | rfl | rfl | rfl <;> simp [pick, and_comm]
  · simp only [CurveLists.all, sorts, List.mem_append, List.mem_filter, List.mem_cons, List.not_mem_nil, or_false,
      decide_eq_true_eq]
    tauto
example (c : CurveClass) := C126_sorted_by_base "curves" curvesNamespace "MontgomeryCurveFp" (by decide) c

/-- C126: each list is in the order of the names of the classes, if every class is bound to its own name. -/
theorem C126_name_order (modname : String) (ns : List (String × Member)) (s : String)
    (hn : ∀ k c, (k, Member.cls c) ∈ ns → c.module = modname → k = c.name) :
    ((pick (collectCurves modname ns).1 s).map (·.name)).Pairwise (· ≤ ·) := by
  have hs : (getAllClasses modname ns).Pairwise fun x y => x.1 ≤ y.1 := by
    unfold getAllClasses
    exact List.pairwise_insertionSort _ _
  have ho : (ordered modname ns).Pairwise fun x y => x.name ≤ y.name := by
    unfold ordered
    rw [List.pairwise_map]
    refine hs.imp_of_mem ?_
    rintro ⟨k, c⟩ ⟨k', c'⟩ h h' hle
    have h1 := (mem_getAllClasses _ _ _ _).mp h
    have h2 := (mem_getAllClasses _ _ _ _).mp h'
    have e1 := hn k c h1.1 h1.2
    have e2 := hn k' c' h2.1 h2.2
    simp only at hle ⊢
    rw [← e1, ← e2]
    exact hle
  rw [List.pairwise_map, lists_eq]
  unfold pick
  split
  all_goals first | exact ho.filter _ | exact List.Pairwise.nil

/-- C126: the lists as shipped. -/
theorem C126_shipped :
    (shippedCurves.1.smallWeierstrass.map (·.name) =
      ["BrainPoolP160r1", "BrainPoolP160t1", "BrainPoolP192r1", "BrainPoolP192t1", "BrainPoolP224r1",
        "BrainPoolP224t1", "BrainPoolP256r1", "BrainPoolP256t1", "BrainPoolP320r1", "BrainPoolP320t1",
        "BrainPoolP384r1", "BrainPoolP384t1", "BrainPoolP512r1", "BrainPoolP512t1", "FRP256v1",
        "GOST2001_CryptoPro_A", "GOST2001_CryptoPro_B", "GOST2001_CryptoPro_C", "GOST2001_test", "GOST2012_tc26_A",
        "GOST2012_tc26_B", "GOST2012_test", "GOSTmsg05975sw", "SECP_192r1", "SECP_224r1", "SECP_256r1",
        "SECP_384r1", "SECP_521r1", "SWP256CCAO01", "SWP256SM2", "WAPI"]) ∧
    shippedCurves.1.koblitz.map (·.name) = ["SECP_256k1"] ∧
    shippedCurves.1.twistedEdwards.map (·.name) = ["GOSTmsg05975te"] ∧
    shippedCurves.1.edwards.map (·.name) = ["Curve3617", "E382", "E521", "Ed25519"] ∧
    shippedCurves.1.montgomery.map (·.name) = ["Curve25519", "M383", "M511"] := by
  refine ⟨?_, ?_, ?_, ?_, ?_⟩ <;> decide +kernel

namespace CurveList

/-- The numbers of a class: field, coefficients, generator, order and cofactor. -/
def values : CurveNumbers → List (Option Int)
  | .weierstrass K => [some K.p, some K.a, some K.b, some K.xG, some K.yG, some K.n, some K.h]
  | .edwards K => [some K.p, some K.a, some K.d, some K.xG, some K.yG, some K.n, some K.h]
  | .montgomery K => [some K.p, K.a, some K.xG, some K.yG, some K.n, some K.h]

end CurveList

/-- C126: a class of the module that is in none of the lists has the numbers of a class that is in `allCurves`. -/
theorem C126_others_are_duplicates :
    ∀ c ∈ curveClasses, c.name ∉ shippedCurves.1.all.map (·.name) →
      ∃ d ∈ shippedCurves.1.all, d.name = c.base ∧ values d.numbers = values c.numbers ∧ d.oid = c.oid ∧
        d.strength = c.strength := by
  decide +kernel

/-- C126: two classes of `allCurves` with the same `curveId` are the same class, or they are `SECP_256r1` and
`SECP_521r1`: the string `secp256r1` does not identify a curve. -/
theorem C126_curve_ids :
    (∀ c ∈ shippedCurves.1.all, ∀ d ∈ shippedCurves.1.all, c.curveId = d.curveId → c.name ≠ d.name →
      c.curveId = "secp256r1" ∧ (c.name = "SECP_256r1" ∧ d.name = "SECP_521r1" ∨
        c.name = "SECP_521r1" ∧ d.name = "SECP_256r1")) ∧
    (∃ c ∈ shippedCurves.1.all, ∃ d ∈ shippedCurves.1.all, c.name = "SECP_256r1" ∧ d.name = "SECP_521r1" ∧
      c.curveId = d.curveId ∧ c.numbers.n ≠ d.numbers.n) := by
  constructor <;> decide +kernel

/-- C126: an object identifier belongs to one class of `allCurves`; `M383` has no attribute `oid`, all others have. -/
theorem C126_oids :
    (∀ c ∈ shippedCurves.1.all, ∀ d ∈ shippedCurves.1.all, ∀ o, c.oid = .ok (some o) → d.oid = .ok (some o) →
      c.name = d.name) ∧
    (∀ c ∈ shippedCurves.1.all, c.oid = .error .attribute ↔ c.name = "M383") := by
  constructor
  · have : ∀ c ∈ shippedCurves.1.all, ∀ d ∈ shippedCurves.1.all, c.oid = d.oid →
        c.oid = .ok none ∨ c.name = d.name := by
      decide +kernel
    intro c hc d hd o h1 h2
    rcases this c hc d hd (by rw [h1, h2]) with h | h
    · rw [h1] at h; cases h
    · exact h
  · decide +kernel

/-- C126: the attribute `strength` is at most half the length of the order in bits, rounded up, for every class of
`allCurves` but `GOST2012_tc26_A` and `GOST2012_tc26_B`, for which it is the whole length. -/
theorem C126_strength :
    ∀ c ∈ shippedCurves.1.all, 0 < c.strength ∧
      (c.name = "GOST2012_tc26_A" ∨ c.name = "GOST2012_tc26_B" →
        (2 : Int) ^ (c.strength.toNat - 1) < c.numbers.n ∧ c.numbers.n < 2 ^ c.strength.toNat) ∧
      (c.name ≠ "GOST2012_tc26_A" → c.name ≠ "GOST2012_tc26_B" →
        (2 : Int) ^ (2 * c.strength.toNat - 2) < c.numbers.n) := by
  decide +kernel

/-- C126: the loop leaves the name `c` bound to the class `WAPI`, so a later call of `get_all_classes` returns that class
twice. -/
theorem C126_called_again :
    (getAllClasses "curves" curvesNamespace).map Prod.fst = (getAllClasses "curves" curvesNamespace).map (·.2.name) ∧
    (getAllClasses "curves" shippedCurves.2).map Prod.fst =
      (getAllClasses "curves" curvesNamespace).map Prod.fst ++ ["c"] ∧
    (getAllClasses "curves" shippedCurves.2).map (·.2.name) =
      (getAllClasses "curves" curvesNamespace).map (·.2.name) ++ ["WAPI"] := by
  refine ⟨?_, ?_, ?_⟩ <;> decide +kernel

-- The hypothesis of `C126_name_order` holds for the module as shipped.
example : ∀ e ∈ getAllClasses "curves" curvesNamespace, e.1 = e.2.name := by decide +kernel
-- A class that is in no list.
example : ∃ c ∈ curveClasses, c.name = "NIST_P192" ∧ c.name ∉ shippedCurves.1.all.map (·.name) := by decide +kernel

end Cryptopy
