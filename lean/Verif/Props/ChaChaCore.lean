import Verif.Props.ChaCha

/-!
C183: what the rounds of ChaCha do to states.
-/

namespace Cryptopy
open Model Spec

/-! ### The rounds are a permutation -/

private theorem rotateLeft_injective (r : Nat) (hr : r < 32) :
    Function.Injective fun x : Word => x.rotateLeft r := by
  intro x y h
  have hg : ∀ i (hi : i < 32), (x.rotateLeft r)[i] = (y.rotateLeft r)[i] := by
    intro i hi
    have : x.rotateLeft r = y.rotateLeft r := h
    rw [this]
  apply BitVec.eq_of_getElem_eq
  intro j hj
  by_cases hlt : j + r < 32
  · have := hg (j + r) hlt
    rw [BitVec.getElem_rotateLeft, BitVec.getElem_rotateLeft] at this
    simpa [Nat.mod_eq_of_lt hr] using this
  · have := hg (j + r - 32) (by omega)
    rw [BitVec.getElem_rotateLeft, BitVec.getElem_rotateLeft] at this
    have e1 : j + r - 32 < r := by omega
    have e2 : 32 - r + (j + r - 32) = j := by omega
    simpa [Nat.mod_eq_of_lt hr, e1, e2] using this

private theorem half_inj (r r' : Nat) (hr : r < 32) (hr' : r' < 32) :
    Function.Injective fun p : Word × Word × Word × Word =>
      let a := p.1 + p.2.1; let d := (p.2.2.2 ^^^ a).rotateLeft r
      let c := p.2.2.1 + d; let b := (p.2.1 ^^^ c).rotateLeft r'
      (a, b, c, d) := by
  rintro ⟨a, b, c, d⟩ ⟨a', b', c', d'⟩ h
  simp only [Prod.mk.injEq] at h
  obtain ⟨h1, h2, h3, h4⟩ := h
  have h5 := rotateLeft_injective r hr h4
  rw [h4] at h3
  have hc : c = c' := by simpa using h3
  subst hc
  rw [h4] at h2
  have h6 := rotateLeft_injective r' hr' h2
  have hb : b = b' := by simpa using h6
  subst hb
  have ha : a = a' := by simpa using h1
  subst ha
  have hd : d = d' := by simpa using h5
  subst hd
  rfl

private theorem quarter_inj {a b c d a' b' c' d' : Word} (h : quarter a b c d = quarter a' b' c' d') :
    a = a' ∧ b = b' ∧ c = c' ∧ d = d' := by
  have hi := (half_inj 8 7 (by omega) (by omega)).comp (half_inj 16 12 (by omega) (by omega))
  have := @hi (a, b, c, d) (a', b', c', d') h
  simpa using this

private theorem quarterAt_inj (x y z w : Fin 16) (h : x ≠ y ∧ x ≠ z ∧ x ≠ w ∧ y ≠ z ∧ y ≠ w ∧ z ≠ w) :
    Function.Injective (quarterAt x y z w) := by
  obtain ⟨h1, h2, h3, h4, h5, h6⟩ := h
  intro s t e
  have ex := congrFun e x
  have ey := congrFun e y
  have ez := congrFun e z
  have ew := congrFun e w
  simp only [quarterAt, if_true, h1.symm, h2.symm, h3.symm, h4.symm, h5.symm, h6.symm, if_false] at ex ey ez ew
  have hq := quarter_inj (Prod.ext ex (Prod.ext ey (Prod.ext ez ew)))
  funext i
  by_cases hx : i = x
  · rw [hx]; exact hq.1
  by_cases hy : i = y
  · rw [hy]; exact hq.2.1
  by_cases hz : i = z
  · rw [hz]; exact hq.2.2.1
  by_cases hw : i = w
  · rw [hw]; exact hq.2.2.2
  have := congrFun e i
  simpa only [quarterAt, hx, hy, hz, hw, if_false] using this

theorem doubleRound_inj : Function.Injective doubleRound := by
  have := (quarterAt_inj 3 4 9 14 (by decide)).comp <| (quarterAt_inj 2 7 8 13 (by decide)).comp <|
    (quarterAt_inj 1 6 11 12 (by decide)).comp <| (quarterAt_inj 0 5 10 15 (by decide)).comp <|
    (quarterAt_inj 3 7 11 15 (by decide)).comp <| (quarterAt_inj 2 6 10 14 (by decide)).comp <|
    (quarterAt_inj 1 5 9 13 (by decide)).comp (quarterAt_inj 0 4 8 12 (by decide))
  exact this

private instance : Finite Word := Finite.of_injective BitVec.toFin fun _ _ h => BitVec.eq_of_toFin_eq h

/-- A state: sixteen words of 32 bits. -/
def WordState (s : List Nat) : Prop := s.length = 16 ∧ ∀ w ∈ s, w < 2 ^ 32

theorem wordState_iff (s : List Nat) : WordState s ↔ ∃ t : State, s = natState t := by
  constructor
  · rintro ⟨h, hw⟩
    refine ⟨fun i => BitVec.ofNat 32 (s.getD i 0), ?_⟩
    apply List.ext_getElem
    · rw [h, length_natState]
    · intro i h1 h2
      simp only [natState, List.getElem_ofFn, BitVec.toNat_ofNat]
      rw [List.getD_eq_getElem?_getD, List.getElem?_eq_getElem h1, Option.getD_some,
        Nat.mod_eq_of_lt (hw _ (List.getElem_mem h1))]
  · rintro ⟨t, rfl⟩
    refine ⟨length_natState t, fun w hw => ?_⟩
    obtain ⟨i, rfl⟩ := List.mem_ofFn.mp hw
    exact (t i).isLt

private theorem natState_inj : Function.Injective natState := by
  intro s t h
  funext i
  have := congrArg (fun l => l.getD i 0) h
  simp only [natState_getD] at this
  exact BitVec.eq_of_toNat_eq this

/-- C183: any number of calls of `inner_block` is a permutation of the states. -/
theorem C183_permutation (k : Nat) : Set.BijOn (innerLoop k) {s | WordState s} {s | WordState s} := by
  have hb : Function.Bijective (doubleRound^[k]) :=
    (Finite.injective_iff_bijective.mp doubleRound_inj).iterate k
  refine ⟨fun s hs => ?_, fun s hs s' hs' e => ?_, fun s hs => ?_⟩
  · obtain ⟨t, rfl⟩ := (wordState_iff s).mp hs
    exact (wordState_iff _).mpr ⟨_, innerLoop_eq k t⟩
  · obtain ⟨t, rfl⟩ := (wordState_iff s).mp hs
    obtain ⟨t', rfl⟩ := (wordState_iff s').mp hs'
    rw [innerLoop_eq, innerLoop_eq] at e
    rw [hb.1 (natState_inj e)]
  · obtain ⟨t, rfl⟩ := (wordState_iff s).mp hs
    obtain ⟨u, hu⟩ := hb.2 t
    exact ⟨natState u, (wordState_iff _).mpr ⟨u, rfl⟩, by rw [innerLoop_eq, hu]⟩
example : WordState (List.range 16) ∧ innerLoop 10 (List.range 16) ≠ List.range 16 := by
  refine ⟨⟨rfl, by decide⟩, by decide +kernel⟩

/-! ### Turning the columns -/

/-- The state with its columns turned by one: place `(row, column)` gets the word of `(row, column + 1)`. -/
def turnCols {α : Type} (d : α) (s : List α) : List α := (List.range 16).map fun i => s.getD (4 * (i / 4) + (i + 1) % 4) d

private def qr (f : Nat → Nat → Nat → Nat → Nat × Nat × Nat × Nat) (state : List Nat) (x y z w : Nat) : List Nat :=
  let r := f (state.getD x 0) (state.getD y 0) (state.getD z 0) (state.getD w 0)
  (((state.set x r.1).set y r.2.1).set z r.2.2.1).set w r.2.2.2

private def inner (f : Nat → Nat → Nat → Nat → Nat × Nat × Nat × Nat) (s : List Nat) : List Nat :=
  qr f (qr f (qr f (qr f (qr f (qr f (qr f (qr f s 0 4 8 12) 1 5 9 13) 2 6 10 14) 3 7 11 15) 0 5 10 15) 1 6 11 12) 2 7 8 13) 3 4 9 14

private theorem qr_0_4_8_12 (f : Nat → Nat → Nat → Nat → Nat × Nat × Nat × Nat) (x0 x1 x2 x3 x4 x5 x6 x7 x8 x9 x10 x11 x12 x13 x14 x15 : Nat) :
    qr f [x0, x1, x2, x3, x4, x5, x6, x7, x8, x9, x10, x11, x12, x13, x14, x15] 0 4 8 12 =
      [(f x0 x4 x8 x12).1, x1, x2, x3, (f x0 x4 x8 x12).2.1, x5, x6, x7, (f x0 x4 x8 x12).2.2.1, x9, x10, x11, (f x0 x4 x8 x12).2.2.2, x13, x14, x15] := rfl

private theorem qr_1_5_9_13 (f : Nat → Nat → Nat → Nat → Nat × Nat × Nat × Nat) (x0 x1 x2 x3 x4 x5 x6 x7 x8 x9 x10 x11 x12 x13 x14 x15 : Nat) :
    qr f [x0, x1, x2, x3, x4, x5, x6, x7, x8, x9, x10, x11, x12, x13, x14, x15] 1 5 9 13 =
      [x0, (f x1 x5 x9 x13).1, x2, x3, x4, (f x1 x5 x9 x13).2.1, x6, x7, x8, (f x1 x5 x9 x13).2.2.1, x10, x11, x12, (f x1 x5 x9 x13).2.2.2, x14, x15] := rfl

private theorem qr_2_6_10_14 (f : Nat → Nat → Nat → Nat → Nat × Nat × Nat × Nat) (x0 x1 x2 x3 x4 x5 x6 x7 x8 x9 x10 x11 x12 x13 x14 x15 : Nat) :
    qr f [x0, x1, x2, x3, x4, x5, x6, x7, x8, x9, x10, x11, x12, x13, x14, x15] 2 6 10 14 =
      [x0, x1, (f x2 x6 x10 x14).1, x3, x4, x5, (f x2 x6 x10 x14).2.1, x7, x8, x9, (f x2 x6 x10 x14).2.2.1, x11, x12, x13, (f x2 x6 x10 x14).2.2.2, x15] := rfl

private theorem qr_3_7_11_15 (f : Nat → Nat → Nat → Nat → Nat × Nat × Nat × Nat) (x0 x1 x2 x3 x4 x5 x6 x7 x8 x9 x10 x11 x12 x13 x14 x15 : Nat) :
    qr f [x0, x1, x2, x3, x4, x5, x6, x7, x8, x9, x10, x11, x12, x13, x14, x15] 3 7 11 15 =
      [x0, x1, x2, (f x3 x7 x11 x15).1, x4, x5, x6, (f x3 x7 x11 x15).2.1, x8, x9, x10, (f x3 x7 x11 x15).2.2.1, x12, x13, x14, (f x3 x7 x11 x15).2.2.2] := rfl

private theorem qr_0_5_10_15 (f : Nat → Nat → Nat → Nat → Nat × Nat × Nat × Nat) (x0 x1 x2 x3 x4 x5 x6 x7 x8 x9 x10 x11 x12 x13 x14 x15 : Nat) :
    qr f [x0, x1, x2, x3, x4, x5, x6, x7, x8, x9, x10, x11, x12, x13, x14, x15] 0 5 10 15 =
      [(f x0 x5 x10 x15).1, x1, x2, x3, x4, (f x0 x5 x10 x15).2.1, x6, x7, x8, x9, (f x0 x5 x10 x15).2.2.1, x11, x12, x13, x14, (f x0 x5 x10 x15).2.2.2] := rfl

private theorem qr_1_6_11_12 (f : Nat → Nat → Nat → Nat → Nat × Nat × Nat × Nat) (x0 x1 x2 x3 x4 x5 x6 x7 x8 x9 x10 x11 x12 x13 x14 x15 : Nat) :
    qr f [x0, x1, x2, x3, x4, x5, x6, x7, x8, x9, x10, x11, x12, x13, x14, x15] 1 6 11 12 =
      [x0, (f x1 x6 x11 x12).1, x2, x3, x4, x5, (f x1 x6 x11 x12).2.1, x7, x8, x9, x10, (f x1 x6 x11 x12).2.2.1, (f x1 x6 x11 x12).2.2.2, x13, x14, x15] := rfl

private theorem qr_2_7_8_13 (f : Nat → Nat → Nat → Nat → Nat × Nat × Nat × Nat) (x0 x1 x2 x3 x4 x5 x6 x7 x8 x9 x10 x11 x12 x13 x14 x15 : Nat) :
    qr f [x0, x1, x2, x3, x4, x5, x6, x7, x8, x9, x10, x11, x12, x13, x14, x15] 2 7 8 13 =
      [x0, x1, (f x2 x7 x8 x13).1, x3, x4, x5, x6, (f x2 x7 x8 x13).2.1, (f x2 x7 x8 x13).2.2.1, x9, x10, x11, x12, (f x2 x7 x8 x13).2.2.2, x14, x15] := rfl

private theorem qr_3_4_9_14 (f : Nat → Nat → Nat → Nat → Nat × Nat × Nat × Nat) (x0 x1 x2 x3 x4 x5 x6 x7 x8 x9 x10 x11 x12 x13 x14 x15 : Nat) :
    qr f [x0, x1, x2, x3, x4, x5, x6, x7, x8, x9, x10, x11, x12, x13, x14, x15] 3 4 9 14 =
      [x0, x1, x2, (f x3 x4 x9 x14).1, (f x3 x4 x9 x14).2.1, x5, x6, x7, x8, (f x3 x4 x9 x14).2.2.1, x10, x11, x12, x13, (f x3 x4 x9 x14).2.2.2, x15] := rfl

private theorem turn_list (x0 x1 x2 x3 x4 x5 x6 x7 x8 x9 x10 x11 x12 x13 x14 x15 : Nat) : turnCols 0 [x0, x1, x2, x3, x4, x5, x6, x7, x8, x9, x10, x11, x12, x13, x14, x15] =
    [x1, x2, x3, x0, x5, x6, x7, x4, x9, x10, x11, x8, x13, x14, x15, x12] := rfl

private theorem inner_turn (f : Nat → Nat → Nat → Nat → Nat × Nat × Nat × Nat) (s : List Nat) (h : s.length = 16) :
    inner f (turnCols 0 s) = turnCols 0 (inner f s) := by
  match s, h with
  | [x0, x1, x2, x3, x4, x5, x6, x7, x8, x9, x10, x11, x12, x13, x14, x15], _ =>
    simp only [inner, turn_list, qr_0_4_8_12, qr_1_5_9_13, qr_2_6_10_14, qr_3_7_11_15, qr_0_5_10_15, qr_1_6_11_12, qr_2_7_8_13, qr_3_4_9_14]

private theorem innerBlock_eq_inner (s : List Nat) : innerBlock s = inner chachaQRound s := by
  simp only [innerBlock, inner, quarterRound, qr]

private theorem innerLoop_turn (k : Nat) (s : List Nat) (h : s.length = 16) : innerLoop k (turnCols 0 s) = turnCols 0 (innerLoop k s) := by
  induction k generalizing s with
  | zero => rfl
  | succ k ih =>
    rw [innerLoop, innerLoop]
    have : innerBlock (turnCols 0 s) = turnCols 0 (innerBlock s) := by rw [innerBlock_eq_inner, innerBlock_eq_inner, inner_turn _ s h]
    rw [this, ih _ (by
      have := length_innerLoop 1 s
      rw [innerLoop, innerLoop] at this
      rw [this, h])]

private theorem word_of_flatten (l : List Bytes) (h4 : ∀ b ∈ l, b.length = 4) (i : Nat) :
    (l.flatten.drop (4 * i)).take 4 = l.getD i [] := by
  induction l generalizing i with
  | nil => simp
  | cons b l ih =>
    have hb := h4 b (List.mem_cons_self ..)
    cases i with
    | zero => rw [List.flatten_cons, Nat.mul_zero, List.drop_zero, List.take_left' hb]; rfl
    | succ i =>
      rw [List.flatten_cons, Nat.mul_add, Nat.add_comm (4 * i), ← List.drop_drop, List.drop_left' hb,
        ih fun b hb => h4 b (List.mem_cons_of_mem _ hb)]
      rfl

private theorem getD_zipWith (f : Nat → Nat → Nat) (l m : List Nat) (i : Nat) (h1 : i < l.length) (h2 : i < m.length) :
    (List.zipWith f l m).getD i 0 = f (l.getD i 0) (m.getD i 0) := by
  simp only [List.getD_eq_getElem?_getD]
  rw [List.getElem?_eq_getElem h1, List.getElem?_eq_getElem h2, List.getElem?_eq_getElem (by rw [List.length_zipWith]; omega)]
  simp

private theorem block_turn (s : List Nat) (h : s.length = 16) :
    (ChaCha.mk (turnCols 0 s)).block =
      (List.range 16).flatMap fun i => ((ChaCha.mk s).block.drop (4 * (4 * (i / 4) + (i + 1) % 4))).take 4 := by
  have hl : (innerLoop 10 s).length = 16 := by rw [length_innerLoop, h]
  simp only [ChaCha.block]
  rw [innerLoop_turn 10 s h]
  generalize innerLoop 10 s = w at hl
  have h4 : ∀ b ∈ (List.zipWith (fun s ws => (s + ws) &&& 0xFFFFFFFF) s w).map packLE32, b.length = 4 := by
    intro b hb
    obtain ⟨n, -, rfl⟩ := List.mem_map.mp hb
    rfl
  have hz : List.zipWith (fun s ws => (s + ws) &&& 0xFFFFFFFF) (turnCols 0 s) (turnCols 0 w) =
      turnCols 0 (List.zipWith (fun s ws => (s + ws) &&& 0xFFFFFFFF) s w) := by
    rw [turnCols, turnCols, turnCols, List.zipWith_map_left, List.zipWith_map_right, List.zipWith_self]
    refine List.map_congr_left fun i hi => ?_
    have := List.mem_range.mp hi
    rw [getD_zipWith _ _ _ _ (by omega) (by omega)]
  rw [hz, turnCols, List.flatMap_def, List.map_map]
  refine congrArg List.flatten (List.map_congr_left fun i hi => ?_)
  have := List.mem_range.mp hi
  rw [word_of_flatten _ h4, Function.comp_apply, List.getD_eq_getElem?_getD, List.getD_eq_getElem?_getD, List.getElem?_map,
    List.getElem?_eq_getElem (by rw [List.length_zipWith]; omega)]
  rfl

/-- C183: turning the columns of any state by one turns the result of the rounds, and the key stream block, by one: the words of the
block are the same ones in another order. -/
theorem C183_turn (k : Nat) (s : List Nat) (h : s.length = 16) :
    innerLoop k (turnCols 0 s) = turnCols 0 (innerLoop k s) ∧
    (ChaCha.mk (turnCols 0 s)).block =
      (List.range 16).flatMap fun i => ((ChaCha.mk s).block.drop (4 * (4 * (i / 4) + (i + 1) % 4))).take 4 :=
  ⟨innerLoop_turn k s h, block_turn s h⟩
example := C183_turn 10 (List.range 16) rfl

/-- C183: so a state of four equal columns, which is no secret to anybody who sees the block, gives a block of four equal columns. -/
theorem C183_equal_columns (s : List Nat) (h : s.length = 16) (he : turnCols 0 s = s) (i j j' : Nat) (hi : i < 4) (hj : j < 4)
    (hj' : j' < 4) :
    ((ChaCha.mk s).block.drop (4 * (4 * i + j))).take 4 = ((ChaCha.mk s).block.drop (4 * (4 * i + j'))).take 4 := by
  have hb := block_turn s h
  rw [he] at hb
  have h4 : ∀ i, i < 16 → (((ChaCha.mk s).block.drop (4 * (4 * (i / 4) + (i + 1) % 4))).take 4).length = 4 := by
    intro i hi
    have : (ChaCha.mk s).block.length = 64 := length_block _ h
    rw [List.length_take, List.length_drop]
    omega
  have hw : ∀ i, i < 16 → ((ChaCha.mk s).block.drop (4 * i)).take 4 =
      ((ChaCha.mk s).block.drop (4 * (4 * (i / 4) + (i + 1) % 4))).take 4 := by
    intro i hi
    conv_lhs => rw [hb, List.flatMap_def]
    rw [word_of_flatten _ (by
      intro b hb
      obtain ⟨n, hn, rfl⟩ := List.mem_map.mp hb
      exact h4 n (List.mem_range.mp hn)), List.getD_eq_getElem?_getD, List.getElem?_map, List.getElem?_range hi]
    rfl
  have h0 : ∀ j, j < 4 → ((ChaCha.mk s).block.drop (4 * (4 * i + j))).take 4 =
      ((ChaCha.mk s).block.drop (4 * (4 * i))).take 4 := by
    intro j hj
    induction j with
    | zero => rfl
    | succ j ih =>
      rw [← ih (by omega), hw (4 * i + j) (by omega)]
      congr 3
      omega
  rw [h0 j hj, h0 j' hj']

example := C183_equal_columns [5, 5, 5, 5, 6, 6, 6, 6, 7, 7, 7, 7, 8, 8, 8, 8] rfl (by decide +kernel) 1 0 3 (by omega) (by omega) (by omega)

/-- C183: the constants rule this out: turned by one, two or three columns, the state of a new object is never the state of a new object,
whatever the keys, counters and nonces are. -/
theorem C183_constants (rand rand' key key' nonce nonce' : Bytes) (c c' : Nat) (o o' : ChaCha)
    (h : ChaCha.new rand key c (some nonce) = .ok o) (h' : ChaCha.new rand' key' c' (some nonce') = .ok o') :
    turnCols 0 o.state ≠ o'.state ∧ turnCols 0 (turnCols 0 o.state) ≠ o'.state ∧ turnCols 0 (turnCols 0 (turnCols 0 o.state)) ≠ o'.state := by
  have key : ∀ rand key c nonce o, ChaCha.new rand key c (some nonce) = .ok o →
      ∃ l, o.state = 0x61707865 :: 0x3320646e :: 0x79622d32 :: 0x6b206574 :: l := by
    intro rand key c nonce o h
    have hi : ∀ n, ChaCha.initialize key c n = .ok o →
        ∃ l, o.state = 0x61707865 :: 0x3320646e :: 0x79622d32 :: 0x6b206574 :: l := by
      intro n h
      rw [ChaCha.initialize] at h
      split at h
      · split at h
        · rw [← Except.ok.inj h]
          exact ⟨_, rfl⟩
        · cases h
      · cases h
    rw [ChaCha.new] at h
    split at h
    all_goals exact hi _ h
  obtain ⟨l, hl⟩ := key _ _ _ _ _ h
  obtain ⟨l', hl'⟩ := key _ _ _ _ _ h'
  have h0 : ∀ l : List Nat, (turnCols 0 l).getD 0 0 = l.getD 1 0 := fun l => rfl
  have h1 : ∀ l : List Nat, (turnCols 0 l).getD 1 0 = l.getD 2 0 := fun l => rfl
  have h2 : ∀ l : List Nat, (turnCols 0 l).getD 2 0 = l.getD 3 0 := fun l => rfl
  refine ⟨fun e => ?_, fun e => ?_, fun e => ?_⟩
  · have e : (turnCols 0 o.state).getD 0 0 = o'.state.getD 0 0 := congrArg (fun l => l.getD 0 0) e
    rw [h0, hl, hl'] at e
    simp at e
  · have e : (turnCols 0 (turnCols 0 o.state)).getD 0 0 = o'.state.getD 0 0 := congrArg (fun l => l.getD 0 0) e
    rw [h0, h1, hl, hl'] at e
    simp at e
  · have e : (turnCols 0 (turnCols 0 (turnCols 0 o.state))).getD 0 0 = o'.state.getD 0 0 := congrArg (fun l => l.getD 0 0) e
    rw [h0, h1, h2, hl, hl'] at e
    simp at e
example := C183_constants [] [] (List.replicate 32 7) (List.replicate 32 8) (List.replicate 12 1) (List.replicate 12 2) 0 1 _ _ rfl rfl

end Cryptopy
