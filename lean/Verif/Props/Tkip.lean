import Verif.Lemmas.Tkip

/-!
Properties C49-C53 and C98: the TKIP key mixer.
-/

namespace Cryptopy
open Model Spec

/-! ### C51, C52: the two phases -/

/-- C51: phase 1 is the phase 1 of 802.11i in 16-bit arithmetic, for every S-box table, and depends
only on the four upper octets of the packet number. -/
theorem C51_phase1_value (sbox : Nat → Nat) (tk ta pn : Bytes) :
    phase1KeyMixing (tkipS sbox) tk ta pn = natP1K (phase1 (tkipSW sbox) tk ta (pn.drop 2)) :=
  phase1_eq sbox tk ta pn

/-- C51: with the AES S-box `s`, the 16-bit S-box of the code is that of 802.11i. -/
theorem C51_sbox_value (sbox : Nat → Nat) (s : BitVec 8 → BitVec 8)
    (hs : ∀ i < 256, sbox i = (s (BitVec.ofNat 8 i)).toNat) (w : Nat) :
    tkipS sbox w = (tkipSub s (BitVec.ofNat 16 w)).toNat := by
  have h := tkipSW_eq sbox s hs (BitVec.ofNat 16 w)
  rw [← h, tkipSW, BitVec.toNat_ofNat, BitVec.toNat_ofNat, show 2 ^ 16 = 65536 from rfl, tkipS_mod]
  symm
  apply Nat.mod_eq_of_lt
  have hk2 : ∀ k < 256, tkipK2 k < 256 := by
    intro k hk
    have := tkipK2_eq (BitVec.ofNat 8 k)
    rw [BitVec.toNat_ofNat, Nat.mod_eq_of_lt hk] at this
    rw [this]; exact (xtime (BitVec.ofNat 8 k)).isLt
  have hk3 : ∀ k < 256, tkipK3 k < 256 := fun k hk =>
    Nat.xor_lt_two_pow (n := 8) hk (hk2 k hk)
  have hsb : ∀ i < 256, sbox i < 256 := fun i hi => by rw [hs i hi]; exact BitVec.isLt _
  have hsh : ∀ x < 256, x <<< 8 < 65536 := fun x hx => by rw [Nat.shiftLeft_eq]; omega
  have h256 : ∀ n, n &&& 0xFF < 256 := fun n => by rw [mask8]; omega
  have t0 : ∀ i < 256, tkipT0 sbox i < 65536 := fun i hi =>
    Nat.xor_lt_two_pow (n := 16) (hsh _ (hk2 _ (hsb i hi)))
      (lt_trans (hk3 _ (hsb i hi)) (by norm_num))
  have t1 : ∀ i < 256, tkipT1 sbox i < 65536 := fun i hi =>
    Nat.xor_lt_two_pow (n := 16) (hsh _ (hk3 _ (hsb i hi)))
      (lt_trans (hk2 _ (hsb i hi)) (by norm_num))
  exact Nat.xor_lt_two_pow (n := 16) (t0 _ (h256 _)) (t1 _ (h256 _))
example := C51_sbox_value (fun i => (i + 7) % 256) (· + 7) (by decide +kernel) 0x1234

private theorem mk16_inj (a b c d : UInt8) (h : mk16 [a, b] 0 = mk16 [c, d] 0) : a = c ∧ b = d := by
  have h := congrArg BitVec.toNat h
  rw [mk16_toNat, mk16_toNat] at h
  simp only [at', List.getD_cons_zero, List.getD_cons_succ] at h
  have := a.toNat_lt
  have := b.toNat_lt
  have := c.toNat_lt
  have := d.toNat_lt
  exact ⟨UInt8.toNat_inj.mp (by omega), UInt8.toNat_inj.mp (by omega)⟩

private theorem mk16_surj (h : Half) : ∃ a b : UInt8, mk16 [a, b] 0 = h := by
  refine ⟨UInt8.ofNat (h.toNat % 256), UInt8.ofNat (h.toNat / 256), ?_⟩
  apply BitVec.eq_of_toNat_eq
  rw [mk16_toNat]
  have := h.isLt
  simp only [at', List.getD_cons_zero, List.getD_cons_succ, UInt8.toNat_ofNat']
  omega

theorem mk16_of_getD (v w : Bytes) (i j : Nat) (h0 : v.getD i 0 = w.getD j 0)
    (h1 : v.getD (i + 1) 0 = w.getD (j + 1) 0) : mk16 v i = mk16 w j := by
  apply BitVec.eq_of_toNat_eq
  rw [mk16_toNat, mk16_toNat, at', at', at', at', h0, h1]

theorem list6 (l : Bytes) (h : l.length = 6) : ∃ a b c d e f, l = [a, b, c, d, e, f] := by
  match l, h with
  | [a, b, c, d, e, f], _ => exact ⟨a, b, c, d, e, f, rfl⟩

private theorem list4 (l : Bytes) (h : l.length = 4) : ∃ a b c d, l = [a, b, c, d] := by
  match l, h with
  | [a, b, c, d], _ => exact ⟨a, b, c, d, rfl⟩

/-- C51: for every temporal key and S-box table, phase 1 is a bijection between the pairs of a
6 octet address and the 4 upper counter octets on one side and five 16-bit words on the other.
`lo` are the two low octets of the packet number. -/
theorem C51_phase1_bijective (sbox : Nat → Nat) (tk lo : Bytes) (hlo : lo.length = 2)
    (p0 p1 p2 p3 p4 : Nat) (h0 : p0 < 65536) (h1 : p1 < 65536) (h2 : p2 < 65536) (h3 : p3 < 65536)
    (h4 : p4 < 65536) :
    ∃! x : Bytes × Bytes, x.1.length = 6 ∧ x.2.length = 4 ∧
      phase1KeyMixing (tkipS sbox) tk x.1 (lo ++ x.2) = ⟨p0, p1, p2, p3, p4⟩ := by
  have hdrop : ∀ hi : Bytes, (lo ++ hi).drop 2 = hi := fun hi => List.drop_left' hlo
  have htgt : (⟨p0, p1, p2, p3, p4⟩ : P1K) = natP1K (BitVec.ofNat 16 p0, BitVec.ofNat 16 p1,
      BitVec.ofNat 16 p2, BitVec.ofNat 16 p3, BitVec.ofNat 16 p4) := by
    simp only [natP1K, BitVec.toNat_ofNat, P1K.mk.injEq]
    omega
  obtain ⟨⟨a, b, c, d, e⟩, hs⟩ := (ttakRounds_bijective (tkipSW sbox) (mk16 tk) 8).2
    (BitVec.ofNat 16 p0, BitVec.ofNat 16 p1, BitVec.ofNat 16 p2, BitVec.ofNat 16 p3,
      BitVec.ofNat 16 p4)
  obtain ⟨a0, a1, ha⟩ := mk16_surj a
  obtain ⟨b0, b1, hb⟩ := mk16_surj b
  obtain ⟨c0, c1, hc⟩ := mk16_surj c
  obtain ⟨d0, d1, hd⟩ := mk16_surj d
  obtain ⟨e0, e1, he⟩ := mk16_surj e
  refine ⟨([c0, c1, d0, d1, e0, e1], [a0, a1, b0, b1]), ⟨rfl, rfl, ?_⟩, ?_⟩
  · rw [phase1_eq, hdrop, htgt, ← hs]
    refine congrArg natP1K ?_
    rw [phase1]
    rw [mk16_of_getD [a0, a1, b0, b1] [a0, a1] 0 0 rfl rfl,
      mk16_of_getD [a0, a1, b0, b1] [b0, b1] 2 0 rfl rfl,
      mk16_of_getD [c0, c1, d0, d1, e0, e1] [c0, c1] 0 0 rfl rfl,
      mk16_of_getD [c0, c1, d0, d1, e0, e1] [d0, d1] 2 0 rfl rfl,
      mk16_of_getD [c0, c1, d0, d1, e0, e1] [e0, e1] 4 0 rfl rfl, ha, hb, hc, hd, he]
  · rintro ⟨ta, hi⟩ ⟨hta, hhi, h⟩
    simp only at hta hhi h
    obtain ⟨c0', c1', d0', d1', e0', e1', rfl⟩ := list6 ta hta
    obtain ⟨a0', a1', b0', b1', rfl⟩ := list4 hi hhi
    rw [phase1_eq, hdrop, htgt] at h
    have h := natP1K_injective h
    rw [← hs, phase1] at h
    have h := (ttakRounds_bijective (tkipSW sbox) (mk16 tk) 8).1 h
    rw [mk16_of_getD [a0', a1', b0', b1'] [a0', a1'] 0 0 rfl rfl,
      mk16_of_getD [a0', a1', b0', b1'] [b0', b1'] 2 0 rfl rfl,
      mk16_of_getD [c0', c1', d0', d1', e0', e1'] [c0', c1'] 0 0 rfl rfl,
      mk16_of_getD [c0', c1', d0', d1', e0', e1'] [d0', d1'] 2 0 rfl rfl,
      mk16_of_getD [c0', c1', d0', d1', e0', e1'] [e0', e1'] 4 0 rfl rfl, ← ha, ← hb, ← hc, ← hd,
      ← he] at h
    simp only [Prod.mk.injEq] at h
    obtain ⟨q1, q2, q3, q4, q5⟩ := h
    obtain ⟨rfl, rfl⟩ := mk16_inj _ _ _ _ q1
    obtain ⟨rfl, rfl⟩ := mk16_inj _ _ _ _ q2
    obtain ⟨rfl, rfl⟩ := mk16_inj _ _ _ _ q3
    obtain ⟨rfl, rfl⟩ := mk16_inj _ _ _ _ q4
    obtain ⟨rfl, rfl⟩ := mk16_inj _ _ _ _ q5
    rfl
example (sbox : Nat → Nat) := C51_phase1_bijective sbox (List.replicate 16 1) [1, 2] rfl 65535 2 3 4 5 (by decide) (by decide)
  (by decide) (by decide) (by decide)

private theorem half_bytes (h : Half) :
    [UInt8.ofNat (h.toNat &&& 0xff), UInt8.ofNat ((h.toNat >>> 8) &&& 0xff)] = leBytes 2 h.toNat := by
  simp [leBytes, mask8, Nat.shiftRight_eq_div_pow]

/-- C52: phase 2 is the mixing of 802.11i in 16-bit arithmetic, although the code does not reduce the
sixth integer; every result is 16 octets. -/
theorem C52_phase2_value (sbox : Nat → Nat) (tk : Bytes) (t : TTAK) (pn : Bytes) :
    phase2KeyMixing (tkipS sbox) tk (natP1K t) pn =
      .ok ([pn.getD 0 0, (pn.getD 0 0 ||| 0x20) &&& 0x7f, pn.getD 1 0] ++
        seedTail tk (ppk (tkipSW sbox) tk t (mk16 pn 0))) := by
  obtain ⟨a, b, c, d, e⟩ := t
  have hf : BitVec.ofNat 16 (e.toNat + at' pn 1 * 256 + at' pn 0) = e + mk16 pn 0 := by
    rw [Nat.add_assoc, BitVec.ofNat_add, ← mk16_eq]; simp
  unfold phase2KeyMixing
  simp only [natP1K, ppkMix_eq, hf, ppk]
  obtain ⟨w0, w1, w2, w3, w4, w5⟩ :=
    mix96 (tkipSW sbox) (mk16 tk) (a, b, c, d, e, e + mk16 pn 0)
  simp only [natPPK]
  have h255 : ∀ n, n &&& 0xff < 256 := fun n => by rw [mask8]; omega
  have h255' : ∀ n, 0xff &&& n < 256 := fun n => by rw [Nat.and_comm, mask8]; omega
  have h127 : ∀ n, n &&& 0x7F < 256 := fun n => lt_of_le_of_lt Nat.and_le_right (by norm_num)
  rw [mapM_chr]
  · have hp : ∀ j, UInt8.ofNat (at' pn j) = pn.getD j 0 := by
      intro j; simp [at']
    have hor : UInt8.ofNat ((at' pn 0 ||| 0x20) &&& 0x7F) = (pn.getD 0 0 ||| 0x20) &&& 0x7f := by
      apply UInt8.toNat_inj.mp
      rw [UInt8.toNat_ofNat', UInt8.toNat_and, UInt8.toNat_or, Nat.mod_eq_of_lt (h127 _)]
      rfl
    have h3 : UInt8.ofNat (0xFF &&& ((w5.toNat ^^^ (at' tk 1 * 256 + at' tk 0)) >>> 1)) =
        UInt8.ofNat (((w5 ^^^ mk16 tk 0) >>> 1).toNat % 256) := by
      rw [Nat.and_comm, mask8, BitVec.toNat_ushiftRight, BitVec.toNat_xor, mk16_toNat]
    simp only [List.map_cons, List.map_nil, hp, hor, h3, seedTail, List.flatMap_cons,
      List.flatMap_nil, ← half_bytes, List.cons_append, List.nil_append]
  · intro n hn
    simp only [List.mem_cons, List.not_mem_nil, or_false] at hn
    rcases hn with rfl | rfl | rfl | rfl | rfl | rfl | rfl | rfl | rfl | rfl | rfl | rfl | rfl | rfl |
      rfl | rfl
    all_goals first | exact h255 _ | exact h255' _ | exact h127 _ | exact at'_lt _ _

/-- C52: the mixing of the six words is a bijection for every temporal key and S-box table. -/
theorem C52_mixing_bijective (sbox : Nat → Nat) (tk : Bytes) :
    Function.Bijective fun w : Words6 =>
      let r := ppkMix (tkipS sbox) tk (natPPK w)
      ((BitVec.ofNat 16 r.w0, BitVec.ofNat 16 r.w1, BitVec.ofNat 16 r.w2, BitVec.ofNat 16 r.w3,
        BitVec.ofNat 16 r.w4, BitVec.ofNat 16 r.w5) : Words6) := by
  convert mix96_bijective (tkipSW sbox) (mk16 tk) using 1
  funext ⟨a, b, c, d, e, f⟩
  simp only [natPPK]
  rw [ppkMix_eq]
  simp [natPPK]

private theorem leBytes2_inj (a b : Half) (h : leBytes 2 a.toNat = leBytes 2 b.toNat) : a = b := by
  have h := congrArg leValue h
  rw [leValue_leBytes, leValue_leBytes] at h
  have := a.isLt
  have := b.isLt
  exact BitVec.eq_of_toNat_eq (by omega)

private theorem seedTail_injective (tk : Bytes) : Function.Injective (seedTail tk) := by
  rintro ⟨a, b, c, d, e, f⟩ ⟨a', b', c', d', e', f'⟩ h
  simp only [seedTail, List.cons.injEq] at h
  have h := h.2
  simp only [List.flatMap_cons, List.flatMap_nil, List.append_nil] at h
  obtain ⟨h1, h⟩ := List.append_inj h (by simp)
  obtain ⟨h2, h⟩ := List.append_inj h (by simp)
  obtain ⟨h3, h⟩ := List.append_inj h (by simp)
  obtain ⟨h4, h⟩ := List.append_inj h (by simp)
  obtain ⟨h5, h6⟩ := List.append_inj h (by simp)
  rw [leBytes2_inj _ _ h1, leBytes2_inj _ _ h2, leBytes2_inj _ _ h3, leBytes2_inj _ _ h4,
    leBytes2_inj _ _ h5, leBytes2_inj _ _ h6]

/-- C52: for a fixed temporal key and packet number different phase-1 keys give different seeds. -/
theorem C52_phase2_injective (sbox : Nat → Nat) (tk pn : Bytes) (t t' : TTAK)
    (h : phase2KeyMixing (tkipS sbox) tk (natP1K t) pn =
      phase2KeyMixing (tkipS sbox) tk (natP1K t') pn) : t = t' := by
  rw [C52_phase2_value, C52_phase2_value] at h
  simp only [Except.ok.injEq, List.append_cancel_left_eq] at h
  have h := (mix96_bijective (tkipSW sbox) (mk16 tk)).1 (seedTail_injective tk h)
  obtain ⟨a, b, c, d, e⟩ := t
  obtain ⟨a', b', c', d', e'⟩ := t'
  simp only [Prod.mk.injEq] at h
  obtain ⟨rfl, rfl, rfl, rfl, rfl, -⟩ := h
  rfl
example (sbox : Nat → Nat) (t : TTAK) := C52_phase2_injective sbox (List.replicate 16 1) [1, 2, 3, 4, 5, 6] t t rfl

/-! ### C49, C50, C53: histories -/

/-- The uncached definition of the key for a packet number. -/
def mixUncached (sbox : Nat → Nat) (tk ta pn : Bytes) : Py Bytes :=
  phase2KeyMixing (tkipS sbox) tk (phase1KeyMixing (tkipS sbox) tk ta pn) pn

/-- The specification of a mixer: the current temporal key and address, and no cache. -/
def mixStep (sbox : Nat → Nat) (s : Option Bytes × Option Bytes) :
    MixOp → (Option Bytes × Option Bytes) × Py (Option Bytes)
  | .setKey k => if k.length = 16 then ((some k, s.2), .ok none) else (s, .error .stringRaise)
  | .setTA t => if t.length = 6 then ((s.1, some t), .ok none) else (s, .error .stringRaise)
  | .setPn p => if p.length = 6 then (s, .ok none) else (s, .error .assertion)
  | .newKey p =>
    match s with
    | (some tk, some ta) =>
      if p.length = 6 then (s, (mixUncached sbox tk ta p).map some) else (s, .error .assertion)
    | _ => (s, .error .assertion)

/-- Results of a history according to the specification. -/
def mixRun (sbox : Nat → Nat) : Option Bytes × Option Bytes → List MixOp → List (Py (Option Bytes))
  | _, [] => []
  | s, op :: ops => (mixStep sbox s op).2 :: mixRun sbox (mixStep sbox s op).1 ops

theorem upper_eq (pn : Bytes) (h : pn.length = 6) : Py.sliceFrom pn (-4) = pn.drop 2 := by
  simp [Py.sliceFrom, Py.clampIdx, h]

private theorem phase1_congr (sbox : Nat → Nat) (tk ta pn pn' : Bytes) (h : pn.drop 2 = pn'.drop 2) :
    phase1KeyMixing (tkipS sbox) tk ta pn = phase1KeyMixing (tkipS sbox) tk ta pn' := by
  rw [phase1_eq, phase1_eq, h]

/-- What holds after every history, with or without `setPnBytes`. -/
private structure Inv (sbox : Nat → Nat) (o : Mixer) : Prop where
  pn6 : o.pn.length = 6
  up4 : o.upper4.length = 4
  cache : ∀ tk ta, o.tk = some tk → o.ta = some ta →
    ∃ q : Bytes, q.length = 6 ∧ o.phase1Key = some (phase1KeyMixing (tkipS sbox) tk ta q)

/-- What holds in addition without `setPnBytes`. -/
private structure Fresh (sbox : Nat → Nat) (o : Mixer) : Prop extends Inv sbox o where
  up : o.upper4 = o.pn.drop 2
  fresh : ∀ tk ta, o.tk = some tk → o.ta = some ta →
    o.phase1Key = some (phase1KeyMixing (tkipS sbox) tk ta o.pn)

private theorem fresh_step (sbox : Nat → Nat) (o : Mixer) (op : MixOp) (hop : ∀ p, op ≠ .setPn p)
    (hf : Fresh sbox o) :
    Fresh sbox (o.step (tkipS sbox) op).1 ∧
    ((o.step (tkipS sbox) op).1.tk, (o.step (tkipS sbox) op).1.ta) = (mixStep sbox (o.tk, o.ta) op).1 ∧
    (o.step (tkipS sbox) op).2 = (mixStep sbox (o.tk, o.ta) op).2 := by
  obtain ⟨otk, ota, opn, oup, opk⟩ := o
  have pn6 : opn.length = 6 := hf.pn6
  have hup : oup = opn.drop 2 := hf.up
  have hup4 : oup.length = 4 := hf.up4
  cases op with
  | setPn p => exact absurd rfl (hop p)
  | setKey k =>
    by_cases hk : k.length = 16
    · cases ota with
      | none =>
        simp only [Mixer.step, Mixer.setKey, hk, mixStep, Except.map, ne_eq, not_true_eq_false,
          if_false, if_true, and_self, and_true]
        exact ⟨⟨pn6, hup4, by simp⟩, hup, by simp⟩
      | some ta =>
        simp only [Mixer.step, Mixer.setKey, hk, mixStep, Except.map, ne_eq, not_true_eq_false,
          if_false, if_true, and_self, and_true]
        refine ⟨⟨pn6, hup4, ?_⟩, hup, ?_⟩
        · rintro tk ta' h1 h2
          simp only [Option.some.injEq] at h1 h2
          subst h1; subst h2
          exact ⟨opn, pn6, rfl⟩
        · rintro tk ta' h1 h2
          simp only [Option.some.injEq] at h1 h2
          subst h1; subst h2
          rfl
    · simp only [Mixer.step, Mixer.setKey, hk, mixStep, Except.map, ne_eq, not_false_eq_true,
        if_false, if_true, and_self, and_true]
      exact hf
  | setTA t =>
    by_cases hk : t.length = 6
    · cases otk with
      | none =>
        simp only [Mixer.step, Mixer.setTA, hk, mixStep, Except.map, ne_eq, not_true_eq_false,
          if_false, if_true, and_self, and_true]
        exact ⟨⟨pn6, hup4, by simp⟩, hup, by simp⟩
      | some tk =>
        simp only [Mixer.step, Mixer.setTA, hk, mixStep, Except.map, ne_eq, not_true_eq_false,
          if_false, if_true, and_self, and_true]
        refine ⟨⟨pn6, hup4, ?_⟩, hup, ?_⟩
        · rintro tk' ta' h1 h2
          simp only [Option.some.injEq] at h1 h2
          subst h1; subst h2
          exact ⟨opn, pn6, rfl⟩
        · rintro tk' ta' h1 h2
          simp only [Option.some.injEq] at h1 h2
          subst h1; subst h2
          rfl
    · simp only [Mixer.step, Mixer.setTA, hk, mixStep, Except.map, ne_eq, not_false_eq_true,
        if_false, if_true, and_self, and_true]
      exact hf
  | newKey p =>
    cases ota with
    | none =>
      cases otk <;>
      · simp only [Mixer.step, Mixer.newKey, mixStep, Except.map, and_self, and_true]
        exact hf
    | some ta =>
      cases otk with
      | none =>
        simp only [Mixer.step, Mixer.newKey, mixStep, Except.map, and_self, and_true]
        exact hf
      | some tk =>
        have hfr : opk = some (phase1KeyMixing (tkipS sbox) tk ta opn) := hf.fresh tk ta rfl rfl
        by_cases hp : p.length = 6
        · simp only [Mixer.step, Mixer.newKey, Mixer.setPnBytes, hp, if_true, mixStep]
          by_cases hu : p.drop 2 = oup
          · have hph : phase1KeyMixing (tkipS sbox) tk ta opn = phase1KeyMixing (tkipS sbox) tk ta p :=
              phase1_congr sbox tk ta _ _ (by rw [hu, hup])
            simp only [upper_eq p hp, hu, ne_eq, not_true_eq_false, if_false, hfr, hph]
            refine ⟨⟨⟨hp, hup4, ?_⟩, hu.symm, ?_⟩, trivial, rfl⟩
            · rintro tk' ta' h1 h2
              simp only [Option.some.injEq] at h1 h2
              subst h1; subst h2
              exact ⟨p, hp, rfl⟩
            · rintro tk' ta' h1 h2
              simp only [Option.some.injEq] at h1 h2
              subst h1; subst h2
              rfl
          · simp only [upper_eq p hp, hu, ne_eq, not_false_eq_true, if_true]
            refine ⟨⟨⟨hp, by simp [hp], ?_⟩, rfl, ?_⟩, trivial, rfl⟩
            · rintro tk' ta' h1 h2
              simp only [Option.some.injEq] at h1 h2
              subst h1; subst h2
              exact ⟨p, hp, rfl⟩
            · rintro tk' ta' h1 h2
              simp only [Option.some.injEq] at h1 h2
              subst h1; subst h2
              rfl
        · simp only [Mixer.step, Mixer.newKey, Mixer.setPnBytes, hp, if_false, mixStep, Except.map,
            and_self, and_true]
          exact hf

private theorem fresh_new (sbox : Nat → Nat) (tk ta : Option Bytes) (pn : Bytes) (o : Mixer)
    (h : Mixer.new (tkipS sbox) tk ta pn = .ok o) :
    Fresh sbox o ∧ (o.tk, o.ta) = (tk, ta) := by
  by_cases hp : pn.length = 6
  · have base : Fresh sbox ⟨none, none, pn, pn.drop 2, none⟩ :=
      ⟨⟨hp, by simp [hp], by simp⟩, rfl, by simp⟩
    simp only [Mixer.new, Mixer.setPnBytes, hp, if_true, upper_eq pn hp] at h
    have step1 : ∀ k (o1 : Mixer), Fresh sbox o1 → ∀ o2, o1.setKey (tkipS sbox) k = (o2, .ok ()) →
        Fresh sbox o2 ∧ o2.tk = some k ∧ o2.ta = o1.ta := by
      intro k o1 hf o2 h2
      have := fresh_step sbox o1 (.setKey k) (by simp) hf
      simp only [Mixer.step, h2, mixStep] at this
      split at this
      · simp only [Prod.mk.injEq] at this
        exact ⟨this.1, this.2.1.1, this.2.1.2⟩
      · simp [Except.map] at this
    have step2 : ∀ k (o1 : Mixer), Fresh sbox o1 → ∀ o2, o1.setTA (tkipS sbox) k = (o2, .ok ()) →
        Fresh sbox o2 ∧ o2.ta = some k ∧ o2.tk = o1.tk := by
      intro k o1 hf o2 h2
      have := fresh_step sbox o1 (.setTA k) (by simp) hf
      simp only [Mixer.step, h2, mixStep] at this
      split at this
      · simp only [Prod.mk.injEq] at this
        exact ⟨this.1, this.2.1.2, this.2.1.1⟩
      · simp [Except.map] at this
    generalize hr1 : Mixer.setKeyOpt (tkipS sbox) ⟨none, none, pn, pn.drop 2, none⟩ tk = r1 at h
    obtain ⟨o1, e1⟩ := r1
    cases e1 with
    | error e => simp at h
    | ok u =>
      simp only at h
      have h1 : Fresh sbox o1 ∧ o1.tk = tk ∧ o1.ta = none := by
        cases tk with
        | none =>
          simp only [Mixer.setKeyOpt, Prod.mk.injEq] at hr1
          rw [← hr1.1]
          exact ⟨base, rfl, rfl⟩
        | some k => exact step1 k _ base _ hr1
      generalize hr2 : Mixer.setTAOpt (tkipS sbox) o1 ta = r2 at h
      obtain ⟨o2, e2⟩ := r2
      cases e2 with
      | error e => simp at h
      | ok u =>
        simp only [Except.ok.injEq] at h
        subst h
        cases ta with
        | none =>
          simp only [Mixer.setTAOpt, Prod.mk.injEq] at hr2
          rw [← hr2.1, h1.2.1, h1.2.2]
          exact ⟨h1.1, rfl⟩
        | some t =>
          obtain ⟨q1, q2, q3⟩ := step2 t _ h1.1 _ hr2
          exact ⟨q1, by rw [q2, q3, h1.2.1]⟩
  · simp [Mixer.new, Mixer.setPnBytes, hp] at h

/-- C49: in every history of `setKey`, `setTA` and `newKey` after any construction, every result is
that of the specification without cache. -/
theorem C49_mixer_histories (sbox : Nat → Nat) (tk ta : Option Bytes) (pn : Bytes) (o : Mixer)
    (h : Mixer.new (tkipS sbox) tk ta pn = .ok o) (ops : List MixOp)
    (hops : ∀ p, MixOp.setPn p ∉ ops) :
    Mixer.run (tkipS sbox) o ops = mixRun sbox (tk, ta) ops := by
  obtain ⟨hf, hs⟩ := fresh_new sbox tk ta pn o h
  rw [← hs]
  clear h hs
  induction ops generalizing o with
  | nil => rfl
  | cons op ops ih =>
    have hop : ∀ p, op ≠ .setPn p := fun p hp => hops p (hp ▸ List.mem_cons_self)
    obtain ⟨h1, h2, h3⟩ := fresh_step sbox o op hop hf
    simp only [Mixer.run, mixRun]
    rw [h3, ← h2, ih _ (fun p hp => hops p (List.mem_cons_of_mem _ hp)) h1]
example (sbox : Nat → Nat) := C49_mixer_histories sbox (some (List.replicate 16 1)) (some [1, 2, 3, 4, 5, 6]) [0, 0, 0, 0, 0, 0] _ rfl
  [.newKey [1, 2, 3, 4, 5, 6], .setTA [2, 2, 3, 4, 5, 6], .setKey (List.replicate 16 2), .newKey [1, 2, 3, 4, 5, 7]] (by simp)

private theorem phase1_inj (sbox : Nat → Nat) (tk ta pn pn' : Bytes) (h6 : pn.length = 6)
    (h6' : pn'.length = 6)
    (h : phase1KeyMixing (tkipS sbox) tk ta pn = phase1KeyMixing (tkipS sbox) tk ta pn') :
    pn.drop 2 = pn'.drop 2 := by
  rw [phase1_eq, phase1_eq] at h
  have h := (ttakRounds_bijective (tkipSW sbox) (mk16 tk) 8).1 (natP1K_injective h)
  simp only [Prod.mk.injEq, and_true] at h
  obtain ⟨a, b, c, d, hl⟩ := list4 (pn.drop 2) (by simp [h6])
  obtain ⟨a', b', c', d', hl'⟩ := list4 (pn'.drop 2) (by simp [h6'])
  rw [hl, hl'] at h ⊢
  rw [mk16_of_getD [a, b, c, d] [a, b] 0 0 rfl rfl, mk16_of_getD [a, b, c, d] [c, d] 2 0 rfl rfl,
    mk16_of_getD [a', b', c', d'] [a', b'] 0 0 rfl rfl,
    mk16_of_getD [a', b', c', d'] [c', d'] 2 0 rfl rfl] at h
  obtain ⟨rfl, rfl⟩ := mk16_inj _ _ _ _ h.1
  obtain ⟨rfl, rfl⟩ := mk16_inj _ _ _ _ h.2
  rfl

private theorem phase2_inj (sbox : Nat → Nat) (tk ta pn q q' : Bytes) (h6 : q.length = 6)
    (h6' : q'.length = 6)
    (h : phase2KeyMixing (tkipS sbox) tk (phase1KeyMixing (tkipS sbox) tk ta q) pn =
      phase2KeyMixing (tkipS sbox) tk (phase1KeyMixing (tkipS sbox) tk ta q') pn) :
    q.drop 2 = q'.drop 2 := by
  apply phase1_inj sbox tk ta q q' h6 h6'
  rw [phase1_eq, phase1_eq] at h ⊢
  rw [C52_phase2_injective sbox tk pn _ _ h]

/-- The object after a history. -/
def mixExec (S : Nat → Nat) (o : Mixer) (ops : List MixOp) : Mixer :=
  ops.foldl (fun o op => (o.step S op).1) o

private theorem inv_step (sbox : Nat → Nat) (o : Mixer) (op : MixOp) (hi : Inv sbox o) :
    Inv sbox (o.step (tkipS sbox) op).1 := by
  obtain ⟨otk, ota, opn, oup, opk⟩ := o
  have pn6 : opn.length = 6 := hi.pn6
  have hup4 : oup.length = 4 := hi.up4
  cases op with
  | setPn p =>
    by_cases hp : p.length = 6
    · simp only [Mixer.step, Mixer.setPnBytes, hp, if_true]
      exact ⟨hp, hup4, hi.cache⟩
    · simpa only [Mixer.step, Mixer.setPnBytes, hp, if_false] using hi
  | setKey k =>
    by_cases hk : k.length = 16
    · cases ota with
      | none =>
        simp only [Mixer.step, Mixer.setKey, hk, ne_eq, not_true_eq_false, if_false]
        exact ⟨pn6, hup4, by simp⟩
      | some ta =>
        simp only [Mixer.step, Mixer.setKey, hk, ne_eq, not_true_eq_false, if_false]
        refine ⟨pn6, hup4, ?_⟩
        rintro tk ta' h1 h2
        simp only [Option.some.injEq] at h1 h2
        subst h1; subst h2
        exact ⟨opn, pn6, rfl⟩
    · simpa only [Mixer.step, Mixer.setKey, hk, ne_eq, not_false_eq_true, if_true] using hi
  | setTA t =>
    by_cases hk : t.length = 6
    · cases otk with
      | none =>
        simp only [Mixer.step, Mixer.setTA, hk, ne_eq, not_true_eq_false, if_false]
        exact ⟨pn6, hup4, by simp⟩
      | some tk =>
        simp only [Mixer.step, Mixer.setTA, hk, ne_eq, not_true_eq_false, if_false]
        refine ⟨pn6, hup4, ?_⟩
        rintro tk' ta' h1 h2
        simp only [Option.some.injEq] at h1 h2
        subst h1; subst h2
        exact ⟨opn, pn6, rfl⟩
    · simpa only [Mixer.step, Mixer.setTA, hk, ne_eq, not_false_eq_true, if_true] using hi
  | newKey p =>
    cases ota with
    | none => cases otk <;> simpa only [Mixer.step, Mixer.newKey] using hi
    | some ta =>
      cases otk with
      | none => simpa only [Mixer.step, Mixer.newKey] using hi
      | some tk =>
        obtain ⟨q, hq, hpk⟩ := hi.cache tk ta rfl rfl
        simp only at hpk
        subst hpk
        by_cases hp : p.length = 6
        · simp only [Mixer.step, Mixer.newKey, Mixer.setPnBytes, hp, if_true]
          by_cases hu : p.drop 2 = oup
          · simp only [upper_eq p hp, hu, ne_eq, not_true_eq_false, if_false]
            exact ⟨hp, hup4, hi.cache⟩
          · simp only [upper_eq p hp, hu, ne_eq, not_false_eq_true, if_true]
            refine ⟨hp, by simp [hp], ?_⟩
            rintro tk' ta' h1 h2
            simp only [Option.some.injEq] at h1 h2
            subst h1; subst h2
            exact ⟨p, hp, rfl⟩
        · simpa only [Mixer.step, Mixer.newKey, Mixer.setPnBytes, hp, if_false] using hi

/-- C50: after any history, `setPnBytes` included, the cached phase-1 key is that of some packet
number `q`, and `newKey(pn)` returns the right key exactly if the cached upper octets differ from
those of `pn` (then phase 1 is recomputed) or `q` and `pn` have the same upper octets. -/
theorem C50_stale_characterisation (sbox : Nat → Nat) (tk0 ta0 : Option Bytes) (pn0 : Bytes)
    (o0 : Mixer) (h : Mixer.new (tkipS sbox) tk0 ta0 pn0 = .ok o0) (ops : List MixOp)
    (tk ta : Bytes) (htk : (mixExec (tkipS sbox) o0 ops).tk = some tk)
    (hta : (mixExec (tkipS sbox) o0 ops).ta = some ta) :
    ∃ q : Bytes, q.length = 6 ∧
      (mixExec (tkipS sbox) o0 ops).phase1Key = some (phase1KeyMixing (tkipS sbox) tk ta q) ∧
      ∀ pn : Bytes, pn.length = 6 →
        (((mixExec (tkipS sbox) o0 ops).newKey (tkipS sbox) pn).2 = mixUncached sbox tk ta pn ↔
          (pn.drop 2 ≠ (mixExec (tkipS sbox) o0 ops).upper4 ∨ q.drop 2 = pn.drop 2)) := by
  have hinv : Inv sbox (mixExec (tkipS sbox) o0 ops) := by
    have h0 : Inv sbox o0 := (fresh_new sbox tk0 ta0 pn0 o0 h).1.toInv
    clear h htk hta
    unfold mixExec
    induction ops generalizing o0 with
    | nil => exact h0
    | cons op ops ih => exact ih _ (inv_step sbox o0 op h0)
  generalize mixExec (tkipS sbox) o0 ops = o at *
  obtain ⟨otk, ota, opn, oup, opk⟩ := o
  simp only at htk hta
  subst htk; subst hta
  obtain ⟨q, hq, hpk⟩ := hinv.cache tk ta rfl rfl
  refine ⟨q, hq, hpk, ?_⟩
  simp only at hpk
  subst hpk
  intro pn hpn
  simp only [Mixer.newKey, Mixer.setPnBytes, hpn, if_true, upper_eq pn hpn]
  by_cases hu : pn.drop 2 = oup
  · simp only [hu, ne_eq, not_true_eq_false, if_false, false_or]
    constructor
    · intro hh
      rw [phase2_inj sbox tk ta pn q pn hq hpn hh, hu]
    · intro hh
      unfold mixUncached
      rw [phase1_congr sbox tk ta q pn (by rw [hh, hu])]
  · simp only [hu, ne_eq, not_false_eq_true, if_true, true_or, iff_true]
    rfl
example (sbox : Nat → Nat) := C50_stale_characterisation sbox (some (List.replicate 16 1)) (some [1, 2, 3, 4, 5, 6])
  [0, 0, 0, 0, 0, 0] _ rfl [.setPn [0, 0, 1, 0, 0, 0], .setKey (List.replicate 16 2)] (List.replicate 16 2) [1, 2, 3, 4, 5, 6] rfl rfl

/-- C50: a wrong key arises for every S-box, key and address: build the object for `pn`, call
`setPnBytes(pn')` with other upper octets, set the same key again, and ask for the key of `pn`. -/
theorem C50_stale_exists (sbox : Nat → Nat) (tk ta pn pn' : Bytes) (htk : tk.length = 16)
    (hta : ta.length = 6) (hpn : pn.length = 6) (hpn' : pn'.length = 6)
    (hne : pn.drop 2 ≠ pn'.drop 2) :
    ∃ o r, Mixer.new (tkipS sbox) (some tk) (some ta) pn = .ok o ∧
      Mixer.run (tkipS sbox) o [.setPn pn', .setKey tk, .newKey pn] = [.ok none, .ok none, r] ∧
      r ≠ (mixUncached sbox tk ta pn).map some := by
  refine ⟨⟨some tk, some ta, pn, pn.drop 2, some (phase1KeyMixing (tkipS sbox) tk ta pn)⟩,
    (phase2KeyMixing (tkipS sbox) tk (phase1KeyMixing (tkipS sbox) tk ta pn') pn).map some, ?_, ?_, ?_⟩
  · simp [Mixer.new, Mixer.setPnBytes, hpn, Mixer.setKeyOpt, Mixer.setKey, htk, Mixer.setTAOpt,
      Mixer.setTA, hta, upper_eq pn hpn]
  · simp [Mixer.run, Mixer.step, Mixer.setPnBytes, hpn', hpn, Mixer.setKey, htk, Except.map,
      Mixer.newKey, upper_eq pn hpn]
  · intro hcon
    apply hne
    symm
    apply phase2_inj sbox tk ta pn pn' pn hpn' hpn
    unfold mixUncached at hcon
    generalize phase2KeyMixing (tkipS sbox) tk (phase1KeyMixing (tkipS sbox) tk ta pn') pn = x at *
    generalize phase2KeyMixing (tkipS sbox) tk (phase1KeyMixing (tkipS sbox) tk ta pn) pn = y at *
    cases x <;> cases y <;> simp [Except.map] at hcon ⊢ <;> exact hcon
example (sbox : Nat → Nat) := C50_stale_exists sbox (List.replicate 16 1) [1, 2, 3, 4, 5, 6] [0, 0, 0, 0, 0, 0] [0, 0, 1, 0, 0, 0]
  rfl rfl rfl rfl (by decide)

/-- C53: the key for a packet number: 16 octets; octets 0 and 2 are the low octets of the packet
number and octet 1 is derived from octet 0. -/
theorem C53_seed_shape (sbox : Nat → Nat) (tk ta pn : Bytes) :
    ∃ seed, mixUncached sbox tk ta pn = .ok seed ∧ seed.length = 16 ∧
      seed[0]? = some (pn.getD 0 0) ∧ seed[1]? = some ((pn.getD 0 0 ||| 0x20) &&& 0x7f) ∧
      seed[2]? = some (pn.getD 1 0) := by
  unfold mixUncached
  rw [phase1_eq, C52_phase2_value]
  refine ⟨_, rfl, ?_, rfl, rfl, rfl⟩
  simp [seedTail]

/-- C53: packet numbers that differ in their low octets give different keys, for one or several
temporal keys and addresses. -/
theorem C53_seed_low_counter (sbox : Nat → Nat) (tk ta pn tk' ta' pn' : Bytes)
    (h : mixUncached sbox tk ta pn = mixUncached sbox tk' ta' pn') :
    pn.getD 0 0 = pn'.getD 0 0 ∧ pn.getD 1 0 = pn'.getD 1 0 := by
  obtain ⟨s, h1, -, h2, -, h3⟩ := C53_seed_shape sbox tk ta pn
  obtain ⟨s', h1', -, h2', -, h3'⟩ := C53_seed_shape sbox tk' ta' pn'
  rw [h1, h1'] at h
  simp only [Except.ok.injEq] at h
  subst h
  rw [h2] at h2'
  rw [h3] at h3'
  exact ⟨Option.some.inj h2', Option.some.inj h3'⟩
example (sbox : Nat → Nat) (tk ta : Bytes) := C53_seed_low_counter sbox tk ta [1, 2, 3, 4, 5, 6] tk ta [1, 2, 3, 4, 5, 6] rfl

/-- C53: under one temporal key and address, different packet numbers give different keys. -/
theorem C53_seed_injective (sbox : Nat → Nat) (tk ta pn pn' : Bytes) (h6 : pn.length = 6)
    (h6' : pn'.length = 6) (h : mixUncached sbox tk ta pn = mixUncached sbox tk ta pn') :
    pn = pn' := by
  obtain ⟨h0, h1⟩ := C53_seed_low_counter sbox tk ta pn tk ta pn' h
  obtain ⟨a, b, c, d, e, f, rfl⟩ := list6 pn h6
  obtain ⟨a', b', c', d', e', f', rfl⟩ := list6 pn' h6'
  simp only [List.getD_cons_zero, List.getD_cons_succ] at h0 h1
  subst h0; subst h1
  have hcong : ∀ q : Bytes, phase2KeyMixing (tkipS sbox) tk (phase1KeyMixing (tkipS sbox) tk ta q)
      [a, b, c', d', e', f'] = phase2KeyMixing (tkipS sbox) tk (phase1KeyMixing (tkipS sbox) tk ta q)
      [a, b, c, d, e, f] := by
    intro q
    rw [phase1_eq, C52_phase2_value, C52_phase2_value]
    rfl
  unfold mixUncached at h
  rw [hcong] at h
  have := phase2_inj sbox tk ta _ _ _ h6 h6' h
  simpa using this
example (sbox : Nat → Nat) (tk ta pn' : Bytes) := C53_seed_injective sbox tk ta [1, 2, 3, 4, 5, 6] pn' rfl

/-- C53: with a temporal key and an address set, no history of arguments of the right sizes
raises. -/
theorem C53_no_raise (sbox : Nat → Nat) (tk ta pn : Bytes) (htk : tk.length = 16)
    (hta : ta.length = 6) (hpn : pn.length = 6) (ops : List MixOp)
    (hops : ∀ op ∈ ops, (∃ k, op = .setKey k ∧ k.length = 16) ∨ (∃ t, op = .setTA t ∧ t.length = 6) ∨
      (∃ p, op = .newKey p ∧ p.length = 6)) :
    ∃ o, Mixer.new (tkipS sbox) (some tk) (some ta) pn = .ok o ∧
      ∀ r ∈ Mixer.run (tkipS sbox) o ops, ∃ v, r = .ok v := by
  have hnew : Mixer.new (tkipS sbox) (some tk) (some ta) pn =
      .ok ⟨some tk, some ta, pn, pn.drop 2, some (phase1KeyMixing (tkipS sbox) tk ta pn)⟩ := by
    simp [Mixer.new, Mixer.setPnBytes, hpn, Mixer.setKeyOpt, Mixer.setKey, htk, Mixer.setTAOpt,
      Mixer.setTA, hta, upper_eq pn hpn]
  refine ⟨_, hnew, ?_⟩
  rw [C49_mixer_histories sbox _ _ _ _ hnew ops (by
    intro p hp
    rcases hops _ hp with ⟨k, h, -⟩ | ⟨k, h, -⟩ | ⟨k, h, -⟩ <;> cases h)]
  clear hnew htk hta
  induction ops generalizing tk ta with
  | nil => simp [mixRun]
  | cons op ops ih =>
    have ih' := fun tk ta => ih tk ta fun op hop => hops op (List.mem_cons_of_mem _ hop)
    intro r hr
    simp only [mixRun, List.mem_cons] at hr
    rcases hops op List.mem_cons_self with ⟨k, rfl, hk⟩ | ⟨k, rfl, hk⟩ | ⟨k, rfl, hk⟩
    · simp only [mixStep, hk, if_true] at hr
      rcases hr with rfl | hr
      · exact ⟨_, rfl⟩
      · exact ih' _ _ r hr
    · simp only [mixStep, hk, if_true] at hr
      rcases hr with rfl | hr
      · exact ⟨_, rfl⟩
      · exact ih' _ _ r hr
    · simp only [mixStep, hk, if_true] at hr
      rcases hr with hr | hr
      · obtain ⟨seed, hs, -⟩ := C53_seed_shape sbox tk ta k
        rw [hs] at hr
        exact ⟨some seed, hr⟩
      · exact ih' _ _ r hr
example (sbox : Nat → Nat) := C53_no_raise sbox (List.replicate 16 1) [1, 2, 3, 4, 5, 6] [0, 0, 0, 0, 0, 0] rfl rfl rfl
  [.newKey [1, 2, 3, 4, 5, 6], .setTA [2, 2, 3, 4, 5, 6]] (by simp)

/-- C98: with `pn[i]` the counter octet TSCi, the key equals the WEP seed of IEEE 802.11i exactly if
the two low octets are equal: the standard puts TSC1 in octets 0 and 1 and TSC0 in octet 2, the code
the other way round.  All other octets agree. -/
theorem C98_seed_octet_order (sbox : Nat → Nat) (s : BitVec 8 → BitVec 8)
    (hs : ∀ i < 256, sbox i = (s (BitVec.ofNat 8 i)).toNat) (tk ta pn : Bytes) :
    (∃ seed, mixUncached sbox tk ta pn = .ok seed ∧
      seed.drop 3 = (wepSeed (tkipSub s) tk ta pn).drop 3) ∧
    (mixUncached sbox tk ta pn = .ok (wepSeed (tkipSub s) tk ta pn) ↔ pn.getD 0 0 = pn.getD 1 0) := by
  have hS : tkipSW sbox = tkipSub s := funext (tkipSW_eq sbox s hs)
  unfold mixUncached
  rw [phase1_eq, C52_phase2_value, hS]
  refine ⟨⟨_, rfl, rfl⟩, ?_⟩
  constructor
  · intro h
    simp only [wepSeed, Except.ok.injEq, List.cons_append, List.cons.injEq] at h
    exact h.1
  · intro h
    simp only [wepSeed, h]

example : ((mixUncached (fun i => i) (List.replicate 16 1) [1, 2, 3, 4, 5, 6]
    [1, 2, 3, 4, 5, 6]).toOption.getD []).take 3 = [1, 0x21, 2] := by decide +kernel

end Cryptopy
