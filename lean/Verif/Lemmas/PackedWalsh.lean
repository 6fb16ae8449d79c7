import Verif.Lemmas.FastWalsh

/-!
The fast transform for all masks at once: the values for the masks are packed as the digits of one number
in base `2^16`.
-/

namespace Cryptopy
open Model Spec Props

/-- The number with digits `f c`. -/
def pack (m : Nat) (f : Nat → Nat) : Nat := ∑ c ∈ Finset.range m, f c * (2 ^ 16) ^ c

/-- A digit. -/
def lane (N c : Nat) : Nat := N / (2 ^ 16) ^ c % 2 ^ 16

theorem pack_succ (m : Nat) (f : Nat → Nat) : pack (m + 1) f = f 0 + 2 ^ 16 * pack m (fun c => f (c + 1)) := by
  rw [pack, Finset.sum_range_succ', pack, Finset.mul_sum, add_comm]
  congr 1
  · simp
  · refine Finset.sum_congr rfl fun c _ => ?_
    rw [pow_succ (2 ^ 16) c]; ring

theorem lane_pack (m : Nat) : ∀ (f : Nat → Nat), (∀ c < m, f c < 2 ^ 16) → ∀ c < m, lane (pack m f) c = f c := by
  induction m with
  | zero => intro f _ c hc; omega
  | succ m ih =>
    intro f hf c hc
    rw [pack_succ]
    cases c with
    | zero =>
      rw [lane, pow_zero, Nat.div_one, Nat.add_mul_mod_self_left]
      exact Nat.mod_eq_of_lt (hf 0 hc)
    | succ c =>
      rw [lane, pow_succ (2 ^ 16) c, mul_comm ((2 ^ 16) ^ c), ← Nat.div_div_eq_div_mul,
        Nat.add_mul_div_left _ _ (by norm_num), Nat.div_eq_of_lt (hf 0 (by omega)), Nat.zero_add]
      exact ih (fun c => f (c + 1)) (fun c hc => hf (c + 1) (by omega)) c (by omega)

theorem pack_add (m : Nat) (f g : Nat → Nat) : pack m f + pack m g = pack m (fun c => f c + g c) := by
  rw [pack, pack, pack, ← Finset.sum_add_distrib]
  exact Finset.sum_congr rfl fun c _ => by ring

theorem pack_sub (m : Nat) (f g : Nat → Nat) (h : ∀ c < m, g c ≤ f c) :
    pack m f - pack m g = pack m (fun c => f c - g c) := by
  have : pack m (fun c => f c - g c) + pack m g = pack m f := by
    rw [pack_add, pack, pack]
    refine Finset.sum_congr rfl fun c hc => ?_
    rw [Nat.sub_add_cancel (h c (Finset.mem_range.mp hc))]
  omega

theorem pack_mul (m a : Nat) (f : Nat → Nat) : a * pack m f = pack m (fun c => a * f c) := by
  rw [pack, pack, Finset.mul_sum]
  exact Finset.sum_congr rfl fun c _ => by ring

theorem pack_congr {m : Nat} {f g : Nat → Nat} (h : ∀ c < m, f c = g c) : pack m f = pack m g :=
  Finset.sum_congr rfl fun c hc => by rw [h c (Finset.mem_range.mp hc)]

theorem pack_append (m k : Nat) (f : Nat → Nat) :
    pack (m + k) f = pack m f + (2 ^ 16) ^ m * pack k (fun c => f (m + c)) := by
  rw [pack, Finset.sum_range_add, pack, pack, Finset.mul_sum]
  congr 1
  exact Finset.sum_congr rfl fun c _ => by rw [pow_add]; ring

/-- `2^j` ones. -/
def ones : Nat → Nat
  | 0 => 1
  | j + 1 => let o := ones j; o + (2 ^ 16) ^ 2 ^ j * o

theorem ones_eq (j : Nat) : ones j = pack (2 ^ j) fun _ => 1 := by
  induction j with
  | zero => simp [ones, pack]
  | succ j ih =>
    rw [ones, show 2 ^ (j + 1) = 2 ^ j + 2 ^ j by rw [pow_succ]; ring, pack_append, ← ih]

/-- The inner products of a value with all masks. -/
def row : Nat → Nat → Nat
  | 0, _ => 0
  | j + 1, v =>
    let r := row j v
    r + (2 ^ 16) ^ 2 ^ j * (if v.testBit j then ones j - r else r)

theorem par_and_add {j c : Nat} (hc : c < 2 ^ j) (v : Nat) :
    par ((2 ^ j + c) &&& v) = (if v.testBit j then 1 else 0) ^^^ par (c &&& v) := by
  rw [Nat.and_comm, two_pow_add_xor hc, and_xor_left, par_xor, Nat.and_comm v c, Nat.and_two_pow]
  cases v.testBit j <;> simp [par_zero, par_two_pow]

theorem row_eq (v j : Nat) : row j v = pack (2 ^ j) fun c => par (c &&& v) := by
  induction j with
  | zero => simp [row, pack, par_zero]
  | succ j ih =>
    rw [row, show 2 ^ (j + 1) = 2 ^ j + 2 ^ j by rw [pow_succ]; ring, pack_append]
    simp only [← ih]
    congr 2
    cases hv : v.testBit j
    · rw [if_neg (by simp), ih]
      refine pack_congr fun c hc => ?_
      rw [par_and_add hc, hv]; simp
    · rw [if_pos rfl, ones_eq, ih, pack_sub _ _ _ fun c _ => by have := par_lt (c &&& v); omega]
      refine pack_congr fun c hc => ?_
      have h2 := par_lt (c &&& v)
      rw [par_and_add hc, hv, if_pos rfl]
      generalize par (c &&& v) = b at *
      have : b = 0 ∨ b = 1 := by omega
      rcases this with rfl | rfl <;> rfl

/-- The fast transform on packed values; `o` is the packed list of ones. -/
def dtrV (o : Nat) : Nat → List Nat → List Nat
  | 0, l => l
  | k + 1, l =>
    let a := dtrV o k (l.take (2 ^ k))
    let b := dtrV o k (l.drop (2 ^ k))
    List.zipWith (fun x y => x + y) a b ++ List.zipWith (fun x y => x + (2 ^ k * o - y)) a b

/-- The fast transform on functions. -/
def dtrF : Nat → List (Nat → Nat) → List (Nat → Nat)
  | 0, l => l
  | k + 1, l =>
    let a := dtrF k (l.take (2 ^ k))
    let b := dtrF k (l.drop (2 ^ k))
    List.zipWith (fun x y => fun c => x c + y c) a b ++ List.zipWith (fun x y => fun c => x c + (2 ^ k - y c)) a b

theorem dtrF_map (c k : Nat) : ∀ l : List (Nat → Nat),
    (dtrF k l).map (fun f => f c) = dtr k (l.map fun f => f c) := by
  induction k with
  | zero => intro l; rfl
  | succ k ih =>
    intro l
    rw [dtrF, dtr, List.map_append, List.map_zipWith, List.map_zipWith, ← List.map_take, ← List.map_drop,
      ← ih, ← ih, List.zipWith_map, List.zipWith_map]

theorem dtr_le (k : Nat) (l : List Nat) (hl : l.length = 2 ^ k) (hb : ∀ v ∈ l, v < 2) : ∀ v ∈ dtr k l, v ≤ 2 ^ k := by
  intro v hv
  obtain ⟨h1, h2⟩ := dtr_spec k l hl hb
  obtain ⟨w, hw, rfl⟩ := List.mem_iff_getElem.mp hv
  rw [← List.getD_eq_getElem _ 0 hw, h2 w (by omega)]
  refine le_trans (Finset.sum_le_card_nsmul _ _ 1 fun x _ => ?_) (by simp)
  have := Nat.xor_lt_two_pow (n := 1) (getD_binary hb x) (par_lt (w &&& x))
  omega

theorem zipWith_congr_mem {α β γ : Type} {f g : α → β → γ} {l : List α} {l' : List β}
    (h : ∀ x ∈ l, ∀ y ∈ l', f x y = g x y) : List.zipWith f l l' = List.zipWith g l l' := by
  induction l generalizing l' with
  | nil => rfl
  | cons a l ih =>
    cases l' with
    | nil => rfl
    | cons b l' =>
      rw [List.zipWith_cons_cons, List.zipWith_cons_cons, h a List.mem_cons_self b List.mem_cons_self,
        ih fun x hx y hy => h x (List.mem_cons_of_mem _ hx) y (List.mem_cons_of_mem _ hy)]

theorem dtrV_eq (m k : Nat) : ∀ l : List (Nat → Nat), l.length = 2 ^ k → (∀ f ∈ l, ∀ c, f c < 2) →
    dtrV (pack m fun _ => 1) k (l.map (pack m)) = (dtrF k l).map (pack m) := by
  induction k with
  | zero => intro l _ _; rfl
  | succ k ih =>
    intro l hl hb
    have hp : 2 ^ (k + 1) = 2 ^ k + 2 ^ k := by rw [pow_succ]; ring
    have l1 : (l.take (2 ^ k)).length = 2 ^ k := by rw [List.length_take, hl, hp]; omega
    have l2 : (l.drop (2 ^ k)).length = 2 ^ k := by rw [List.length_drop, hl, hp]; omega
    have b1 : ∀ f ∈ l.take (2 ^ k), ∀ c, f c < 2 := fun f hf => hb f (List.mem_of_mem_take hf)
    have b2 : ∀ f ∈ l.drop (2 ^ k), ∀ c, f c < 2 := fun f hf => hb f (List.mem_of_mem_drop hf)
    rw [dtrF, dtrV, List.map_append, List.map_zipWith, List.map_zipWith, ← List.map_take, ← List.map_drop,
      ih _ l1 b1, ih _ l2 b2, List.zipWith_map, List.zipWith_map]
    congr 1
    · exact zipWith_congr_mem fun x _ y _ => pack_add m x y
    · refine zipWith_congr_mem fun x _ y hy => ?_
      rw [pack_mul, pack_sub, pack_add]
      · simp only [mul_one]
      · intro c _
        rw [mul_one]
        have : y c ∈ (dtrF k (l.drop (2 ^ k))).map (fun f => f c) := List.mem_map.mpr ⟨y, hy, rfl⟩
        rw [dtrF_map] at this
        refine dtr_le k _ (by rw [List.length_map, l2]) ?_ _ this
        intro v hv
        obtain ⟨f, hf, rfl⟩ := List.mem_map.mp hv
        exact b2 f hf c

/-- The packed distances of all component functions of a table. -/
def packed (n : Nat) (sbox : List Nat) : List Nat := dtrV (ones n) n (sbox.map (row n))

theorem packed_spec (n : Nat) (hn : n < 16) (sbox : List Nat) (hl : sbox.length = 2 ^ n) :
    (packed n sbox).length = 2 ^ n ∧ ∀ w < 2 ^ n, ∀ c < 2 ^ n,
      lane ((packed n sbox).getD w 0) c =
        (dtr n (sbox.map (binaryInnerProduct c))).getD w 0 ∧
      (dtr n (sbox.map (binaryInnerProduct c))).length = 2 ^ n := by
  set F := sbox.map (fun v c => par (c &&& v)) with hF
  have hFb : ∀ f ∈ F, ∀ c, f c < 2 := by
    intro f hf c
    obtain ⟨v, -, rfl⟩ := List.mem_map.mp hf
    exact par_lt _
  have hFl : F.length = 2 ^ n := by rw [hF, List.length_map, hl]
  have h1 : packed n sbox = (dtrF n F).map (pack (2 ^ n)) := by
    rw [packed, ones_eq, ← dtrV_eq _ _ _ hFl hFb, hF, List.map_map]
    congr 1
    exact List.map_congr_left fun v _ => row_eq v n
  have hc : ∀ c, (dtrF n F).map (fun f => f c) = dtr n (sbox.map (binaryInnerProduct c)) := by
    intro c
    rw [dtrF_map, hF, List.map_map]
    congr 1
    exact List.map_congr_left fun v _ => (bip_eq c v).symm
  have hsp : ∀ c, (dtr n (sbox.map (binaryInnerProduct c))).length = 2 ^ n := fun c =>
    (dtr_spec n _ (by rw [List.length_map, hl]) (by
      intro v hv
      obtain ⟨u, -, rfl⟩ := List.mem_map.mp hv
      exact bip_lt _ _)).1
  have hlen : (dtrF n F).length = 2 ^ n := by
    have := congrArg List.length (hc 0)
    rw [List.length_map, hsp] at this
    exact this
  refine ⟨by rw [h1, List.length_map, hlen], fun w hw c hcm => ⟨?_, hsp c⟩⟩
  rw [h1, List.getD_eq_getElem _ _ (by rw [List.length_map]; omega), List.getElem_map, lane_pack]
  · rw [← hc c, List.getD_eq_getElem _ _ (by rw [List.length_map]; omega), List.getElem_map]
  · intro d _
    have : (dtrF n F)[w] d ∈ (dtrF n F).map (fun f => f d) := List.mem_map.mpr ⟨_, List.getElem_mem _, rfl⟩
    rw [hc] at this
    have h2 := dtr_le n _ (by rw [List.length_map, hl]) (by
      intro v hv
      obtain ⟨u, -, rfl⟩ := List.mem_map.mp hv
      exact bip_lt _ _) _ this
    have : 2 ^ n < 2 ^ 16 := Nat.pow_lt_pow_right (by omega) hn
    omega
  · exact hcm

/-- All digits from a number on satisfy a test. -/
def allLanes (p : Nat → Bool) : Nat → Nat → Bool
  | 0, _ => true
  | k + 1, N => p (N % 2 ^ 16) && allLanes p k (N / 2 ^ 16)

theorem allLanes_spec (p : Nat → Bool) (k : Nat) : ∀ N, allLanes p k N = true → ∀ c < k, p (lane N c) = true := by
  induction k with
  | zero => intro N _ c hc; omega
  | succ k ih =>
    intro N h c hc
    rw [allLanes, Bool.and_eq_true] at h
    cases c with
    | zero => rw [lane, pow_zero, Nat.div_one]; exact h.1
    | succ c =>
      have := ih _ h.2 c (by omega)
      rw [lane, Nat.div_div_eq_div_mul] at this
      rw [lane, pow_succ (2 ^ 16) c, mul_comm ((2 ^ 16) ^ c)]
      exact this

/-- The certificate check: every component function with a non-zero mask is at distance at least `lo` from
all affine functions; the mask `c0` has distance `lo` by `w0`; every mask has distance at most `hi` by the
witness in `wit`; the mask `c1` has distance at least `hi`. -/
def nlCheck (n : Nat) (sbox : List Nat) (lo hi c0 w0 c1 : Nat) (wit : List Nat) : Bool :=
  let P := packed n sbox
  P.all (fun N => allLanes (fun d => Nat.ble lo d && Nat.ble (d + lo) (2 ^ n)) (2 ^ n - 1) (N / 2 ^ 16)) &&
  (let d := lane (P.getD w0 0) c0; Nat.ble d lo || Nat.ble (2 ^ n) (d + lo)) &&
  (List.range (2 ^ n - 1)).all (fun c =>
    let d := lane (P.getD (wit.getD c 0) 0) (c + 1); Nat.ble d hi || Nat.ble (2 ^ n) (d + hi)) &&
  P.all (fun N => let d := lane N c1; Nat.ble hi d && Nat.ble (d + hi) (2 ^ n))

end Cryptopy
