import Verif.Props.Tkip

/-!
C121: when two packets get the same RC4 key.
-/

namespace Cryptopy
open Model Spec

private theorem phase2_low (sbox : Nat → Nat) (tk : Bytes) (t : TTAK) (pn pn' : Bytes)
    (h0 : pn.getD 0 0 = pn'.getD 0 0) (h1 : pn.getD 1 0 = pn'.getD 1 0) :
    phase2KeyMixing (tkipS sbox) tk (natP1K t) pn = phase2KeyMixing (tkipS sbox) tk (natP1K t) pn' := by
  rw [C52_phase2_value, C52_phase2_value, h0, h1]
  have : mk16 pn 0 = mk16 pn' 0 := mk16_of_getD pn pn' 0 0 h0 h1
  rw [this]

private theorem take_two (pn pn' : Bytes) (hp : pn.length = 6) (hp' : pn'.length = 6)
    (h0 : pn.getD 0 0 = pn'.getD 0 0) (h1 : pn.getD 1 0 = pn'.getD 1 0) : pn.take 2 = pn'.take 2 := by
  obtain ⟨a, b, c, d, e, f, rfl⟩ := list6 pn hp
  obtain ⟨a', b', c', d', e', f', rfl⟩ := list6 pn' hp'
  simp only [List.getD_cons_zero, List.getD_cons_succ] at h0 h1
  rw [h0, h1]; rfl

/-- C121: under one temporal key two packets have the same 16 octet RC4 key only if the transmitter addresses
and the packet numbers are the same. -/
theorem C121_senders (sbox : Nat → Nat) (tk ta pn ta' pn' : Bytes) (ht : ta.length = 6) (ht' : ta'.length = 6)
    (hp : pn.length = 6) (hp' : pn'.length = 6) (h : mixUncached sbox tk ta pn = mixUncached sbox tk ta' pn') :
    ta = ta' ∧ pn = pn' := by
  obtain ⟨h0, h1⟩ := C53_seed_low_counter sbox tk ta pn tk ta' pn' h
  unfold mixUncached at h
  rw [C51_phase1_value, C51_phase1_value, phase2_low sbox tk _ pn pn' h0 h1] at h
  have hin := C52_phase2_injective sbox tk pn' _ _ h
  have e : phase1KeyMixing (tkipS sbox) tk ta pn = phase1KeyMixing (tkipS sbox) tk ta' pn' := by
    rw [C51_phase1_value, C51_phase1_value, hin]
  have htake := take_two pn pn' hp hp' h0 h1
  have hq : ∃ p0 p1 p2 p3 p4 : Nat, p0 < 65536 ∧ p1 < 65536 ∧ p2 < 65536 ∧ p3 < 65536 ∧ p4 < 65536 ∧
      phase1KeyMixing (tkipS sbox) tk ta pn = ⟨p0, p1, p2, p3, p4⟩ := by
    rw [C51_phase1_value]
    obtain ⟨a, b, c, d, e⟩ := phase1 (tkipSW sbox) tk ta (pn.drop 2)
    exact ⟨a.toNat, b.toNat, c.toNat, d.toNat, e.toNat, a.isLt, b.isLt, c.isLt, d.isLt, e.isLt, rfl⟩
  obtain ⟨p0, p1, p2, p3, p4, q0, q1, q2, q3, q4, hq⟩ := hq
  obtain ⟨x, -, hx⟩ := C51_phase1_bijective sbox tk (pn.take 2) (by rw [List.length_take]; omega) p0 p1 p2 p3 p4
    q0 q1 q2 q3 q4
  have a1 := hx (ta, pn.drop 2) ⟨ht, by simp [hp], by simp only [List.take_append_drop]; exact hq⟩
  have a2 := hx (ta', pn'.drop 2) ⟨ht', by simp [hp'], by
    simp only [htake, List.take_append_drop]; rw [← e]; exact hq⟩
  have a3 := a1.trans a2.symm
  simp only [Prod.mk.injEq] at a3
  refine ⟨a3.1, ?_⟩
  rw [← List.take_append_drop 2 pn, ← List.take_append_drop 2 pn', htake, a3.2]
example (sbox : Nat → Nat) (tk ta' pn' : Bytes) := C121_senders sbox tk [1, 2, 3, 4, 5, 6] [1, 2, 3, 4, 5, 6] ta' pn' rfl

/-- C121: the results of `newKey` on an object repeat exactly if the packet numbers repeat. -/
theorem C121_histories (sbox : Nat → Nat) (tk ta pn : Bytes) (o : Mixer)
    (h : Mixer.new (tkipS sbox) (some tk) (some ta) pn = .ok o) (pns : List Bytes) (hp : ∀ p ∈ pns, p.length = 6) :
    (Mixer.run (tkipS sbox) o (pns.map MixOp.newKey)).Nodup ↔ pns.Nodup := by
  rw [C49_mixer_histories sbox _ _ pn o h _ (by simp)]
  have hrun : ∀ l : List Bytes, (∀ p ∈ l, p.length = 6) → mixRun sbox (some tk, some ta) (l.map MixOp.newKey) =
      l.map fun p => (mixUncached sbox tk ta p).map some := by
    intro l hl
    induction l with
    | nil => rfl
    | cons a l ih =>
      have ha := hl a List.mem_cons_self
      rw [List.map_cons, mixRun, List.map_cons, mixStep]
      simp only [ha, if_true]
      rw [ih fun p hp => hl p (List.mem_cons_of_mem _ hp)]
  rw [hrun pns hp]
  constructor
  · exact fun h => h.of_map
  · intro hn
    refine List.Nodup.map_on ?_ hn
    intro x hx y hy he
    refine C53_seed_injective sbox tk ta x y (hp x hx) (hp y hy) ?_
    obtain ⟨s, h1, -⟩ := C53_seed_shape sbox tk ta x
    obtain ⟨s', h1', -⟩ := C53_seed_shape sbox tk ta y
    rw [h1, h1'] at he ⊢
    simp only [Except.map, Except.ok.injEq, Option.some.injEq] at he
    rw [he]
example (sbox : Nat → Nat) := C121_histories sbox (List.replicate 16 1) [1, 2, 3, 4, 5, 6] [0, 0, 0, 0, 0, 0] _ rfl
  [[1, 2, 3, 4, 5, 6], [2, 2, 3, 4, 5, 6]] (by decide)

/-- C121: after `setPnBytes` and a repeated `setKey` the same RC4 key is returned for two packet numbers. -/
theorem C121_reuse (sbox : Nat → Nat) (tk ta pn pn' : Bytes) (htk : tk.length = 16) (hta : ta.length = 6)
    (hpn : pn.length = 6) (hpn' : pn'.length = 6) (hne : pn.drop 2 ≠ pn'.drop 2) :
    ∃ o r, Mixer.new (tkipS sbox) (some tk) (some ta) pn = .ok o ∧
      Mixer.run (tkipS sbox) o [.setPn pn', .setKey tk, .newKey pn, .newKey (pn.take 2 ++ pn'.drop 2)] =
        [.ok none, .ok none, .ok (some r), .ok (some r)] ∧ pn ≠ pn.take 2 ++ pn'.drop 2 := by
  have hlen : (pn.take 2 ++ pn'.drop 2).length = 6 := by simp [hpn, hpn']
  have hd2 : (pn.take 2 ++ pn'.drop 2).drop 2 = pn'.drop 2 := List.drop_left' (by simp [hpn])
  have hph : phase1KeyMixing (tkipS sbox) tk ta (pn.take 2 ++ pn'.drop 2) = phase1KeyMixing (tkipS sbox) tk ta pn' := by
    rw [C51_phase1_value, C51_phase1_value, hd2]
  have hlow : ∀ t, phase2KeyMixing (tkipS sbox) tk (natP1K t) (pn.take 2 ++ pn'.drop 2) =
      phase2KeyMixing (tkipS sbox) tk (natP1K t) pn := by
    intro t
    obtain ⟨a, b, c, d, e, f, rfl⟩ := list6 pn hpn
    exact phase2_low sbox tk t _ _ rfl rfl
  obtain ⟨r, hr⟩ : ∃ r, phase2KeyMixing (tkipS sbox) tk (phase1KeyMixing (tkipS sbox) tk ta pn') pn = .ok r := by
    rw [C51_phase1_value, C52_phase2_value]; exact ⟨_, rfl⟩
  have hr' : phase2KeyMixing (tkipS sbox) tk (phase1KeyMixing (tkipS sbox) tk ta pn') (pn.take 2 ++ pn'.drop 2) =
      .ok r := by
    rw [C51_phase1_value, hlow, ← C51_phase1_value]; exact hr
  refine ⟨⟨some tk, some ta, pn, pn.drop 2, some (phase1KeyMixing (tkipS sbox) tk ta pn)⟩, r, ?_, ?_, ?_⟩
  · simp [Mixer.new, Mixer.setPnBytes, hpn, Mixer.setKeyOpt, Mixer.setKey, htk, Mixer.setTAOpt,
      Mixer.setTA, hta, upper_eq pn hpn]
  · generalize pn.take 2 ++ pn'.drop 2 = q at *
    simp [Mixer.run, Mixer.step, Mixer.setPnBytes, hpn', hpn, Mixer.setKey, htk, Except.map,
      Mixer.newKey, upper_eq pn hpn, upper_eq q hlen, hlen, hd2, hne.symm, hr, hr', hph]
  · intro he
    apply hne
    rw [← hd2, ← he]

example : ∃ o r, Mixer.new (tkipS id) (some (List.replicate 16 1)) (some [1, 2, 3, 4, 5, 6]) [0, 0, 0, 0, 0, 0] = .ok o ∧
    Mixer.run (tkipS id) o [.setPn [0, 0, 1, 0, 0, 0], .setKey (List.replicate 16 1), .newKey [0, 0, 0, 0, 0, 0],
      .newKey [0, 0, 1, 0, 0, 0]] = [.ok none, .ok none, .ok (some r), .ok (some r)] := by
  obtain ⟨o, r, h1, h2, -⟩ := C121_reuse id (List.replicate 16 1) [1, 2, 3, 4, 5, 6] [0, 0, 0, 0, 0, 0] [0, 0, 1, 0, 0, 0]
    rfl rfl rfl rfl (by decide)
  exact ⟨o, r, h1, h2⟩

example : ∃ o, Mixer.new (tkipS id) (some (List.replicate 16 1)) (some [1, 2, 3, 4, 5, 6]) [0, 0, 0, 0, 0, 0] = .ok o :=
  ⟨_, rfl⟩

end Cryptopy
