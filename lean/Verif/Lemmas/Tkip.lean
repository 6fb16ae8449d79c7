import Verif.Lemmas.Michael

namespace Cryptopy
open Model Spec

theorem mask16 (n : Nat) : n &&& 0xFFFF = (BitVec.ofNat 16 n).toNat := by
  have := Nat.and_two_pow_sub_one_eq_mod n 16
  simpa using this

/-- The S-box of the code as a function on 16-bit words. -/
def tkipSW (sbox : Nat → Nat) (v : Half) : Half := BitVec.ofNat 16 (tkipS sbox v.toNat)

theorem mask8 (n : Nat) : n &&& 0xFF = n % 256 := Nat.and_two_pow_sub_one_eq_mod n 8

theorem tkipS_mod (sbox : Nat → Nat) (w : Nat) : tkipS sbox (w % 65536) = tkipS sbox w := by
  unfold tkipS
  simp only [mask8, Nat.shiftRight_eq_div_pow]
  have h1 : w % 65536 % 256 = w % 256 := by omega
  have h2 : w % 65536 / 2 ^ 8 % 256 = w / 2 ^ 8 % 256 := by omega
  rw [h1, h2]

theorem tkipS_word (sbox : Nat → Nat) (w : Nat) :
    BitVec.ofNat 16 (tkipS sbox w) = tkipSW sbox (BitVec.ofNat 16 w) := by
  unfold tkipSW
  rw [BitVec.toNat_ofNat, show 2 ^ 16 = 65536 from rfl, tkipS_mod]

theorem ofNat_xor16 (a b : Nat) :
    BitVec.ofNat 16 (a ^^^ b) = BitVec.ofNat 16 a ^^^ BitVec.ofNat 16 b := by
  apply BitVec.eq_of_toNat_eq
  rw [BitVec.toNat_xor, BitVec.toNat_ofNat, BitVec.toNat_ofNat, BitVec.toNat_ofNat]
  exact Nat.xor_mod_two_pow

theorem leValue_two (v : Bytes) (j : Nat) :
    leValue ((v.drop j).take 2) = at' v (j + 1) * 256 + at' v j := by
  have h0 : at' v j = ((v.drop j).getD 0 0).toNat := by simp [at', List.getD_eq_getElem?_getD]
  have h1 : at' v (j + 1) = ((v.drop j).getD 1 0).toNat := by simp [at', List.getD_eq_getElem?_getD]
  rw [h0, h1]
  match v.drop j with
  | [] => simp [leValue]
  | [a] => simp [leValue]
  | a :: b :: t => simp [leValue]; omega

theorem mk16_eq (v : Bytes) (j : Nat) :
    BitVec.ofNat 16 (at' v (j + 1) * 256 + at' v j) = mk16 v j := by
  rw [mk16, leValue_two]

theorem at'_lt (v : Bytes) (j : Nat) : at' v j < 256 := (v.getD j 0).toNat_lt

theorem mk16_toNat (v : Bytes) (j : Nat) : (mk16 v j).toNat = at' v (j + 1) * 256 + at' v j := by
  rw [← mk16_eq, BitVec.toNat_ofNat]
  have := at'_lt v j
  have := at'_lt v (j + 1)
  omega

/-- The integers that represent five 16-bit words. -/
def natP1K (t : TTAK) : P1K :=
  ⟨t.1.toNat, t.2.1.toNat, t.2.2.1.toNat, t.2.2.2.1.toNat, t.2.2.2.2.toNat⟩

theorem natP1K_injective : Function.Injective natP1K := by
  rintro ⟨a, b, c, d, e⟩ ⟨a', b', c', d', e'⟩ h
  simp only [natP1K, P1K.mk.injEq, BitVec.toNat_inj] at h
  obtain ⟨rfl, rfl, rfl, rfl, rfl⟩ := h
  rfl

theorem mix_step (sbox : Nat → Nat) (a e : Half) (k : Nat) :
    (a.toNat + tkipS sbox (e.toNat ^^^ k)) &&& 0xFFFF =
      (a + tkipSW sbox (e ^^^ BitVec.ofNat 16 k)).toNat := by
  rw [mask16, BitVec.ofNat_add, tkipS_word, ofNat_xor16]
  simp

theorem mix_step' (sbox : Nat → Nat) (a e : Half) (k i : Nat) :
    (a.toNat + tkipS sbox (e.toNat ^^^ k) + i) &&& 0xFFFF =
      (a + tkipSW sbox (e ^^^ BitVec.ofNat 16 k) + BitVec.ofNat 16 i).toNat := by
  rw [mask16, BitVec.ofNat_add, BitVec.ofNat_add, tkipS_word, ofNat_xor16]
  simp

theorem phase1Round_eq (sbox : Nat → Nat) (tk : Bytes) (i : Nat) (t : TTAK) :
    phase1Round (tkipS sbox) tk i (natP1K t) =
      natP1K (ttakRound (tkipSW sbox) (mk16 tk) i t) := by
  obtain ⟨a, b, c, d, e⟩ := t
  simp only [phase1Round, natP1K, mix_step, mix_step', ttakRound, Nat.and_one_is_mod, Nat.add_zero,
    mk16_eq]

theorem phase1_eq (sbox : Nat → Nat) (tk ta pn : Bytes) :
    phase1KeyMixing (tkipS sbox) tk ta pn =
      natP1K (phase1 (tkipSW sbox) tk ta (pn.drop 2)) := by
  have h0 : ∀ (l : List Nat) (t : TTAK),
      l.foldl (fun p i => phase1Round (tkipS sbox) tk i p) (natP1K t) =
        natP1K (l.foldl (fun s i => ttakRound (tkipSW sbox) (mk16 tk) i s) t) := by
    intro l
    induction l with
    | nil => intro t; rfl
    | cons i l ih => intro t; rw [List.foldl_cons, List.foldl_cons, phase1Round_eq, ih]
  have hd : ∀ j, mk16 (pn.drop 2) j = mk16 pn (j + 2) := by
    intro j; simp only [mk16, List.drop_drop]; rw [Nat.add_comm]
  unfold phase1KeyMixing phase1 ttakRounds
  rw [← h0]
  congr 1
  simp only [natP1K, mk16_toNat, hd]

/-! ### Bijectivity -/

theorem ttakRound_injective (S : Half → Half) (k : Nat → Half) (i : Nat) :
    Function.Injective (ttakRound S k i) := by
  rintro ⟨a, b, c, d, e⟩ ⟨a', b', c', d', e'⟩ h
  simp only [ttakRound, Prod.mk.injEq] at h
  obtain ⟨h1, h2, h3, h4, h5⟩ := h
  rw [h4] at h5
  have he : e = e' := by simpa using h5
  subst he
  have ha : a = a' := by simpa using h1
  subst ha
  have hb : b = b' := by simpa using h2
  subst hb
  have hc : c = c' := by simpa using h3
  subst hc
  have hd : d = d' := by simpa using h4
  rw [hd]

theorem ttakRounds_bijective (S : Half → Half) (k : Nat → Half) (n : Nat) :
    Function.Bijective (ttakRounds S k n) := by
  induction n with
  | zero => exact Function.bijective_id
  | succ n ih =>
    have : ttakRounds S k (n + 1) = ttakRound S k n ∘ ttakRounds S k n := by
      funext s; simp [ttakRounds, List.range_succ]
    rw [this]
    exact (Finite.injective_iff_bijective.mp (ttakRound_injective S k n)).comp ih

theorem mix96_bijective (S : Half → Half) (k : Nat → Half) : Function.Bijective (mix96 S k) := by
  rw [← Finite.injective_iff_bijective]
  have h1 : ∀ (S : Half → Half) (k0 k1 k2 k3 k4 k5 : Half),
      Function.Injective fun p : Words6 =>
        let a := p.1 + S (p.2.2.2.2.2 ^^^ k0)
        let b := p.2.1 + S (a ^^^ k1)
        let c := p.2.2.1 + S (b ^^^ k2)
        let d := p.2.2.2.1 + S (c ^^^ k3)
        let e := p.2.2.2.2.1 + S (d ^^^ k4)
        let f := p.2.2.2.2.2 + S (e ^^^ k5)
        ((a, b, c, d, e, f) : Words6) := by
    rintro S k0 k1 k2 k3 k4 k5 ⟨a, b, c, d, e, f⟩ ⟨a', b', c', d', e', f'⟩ h
    simp only [Prod.mk.injEq] at h
    obtain ⟨h1, h2, h3, h4, h5, h6⟩ := h
    rw [h5] at h6
    have hf : f = f' := by simpa using h6
    subst hf
    have ha : a = a' := by simpa using h1
    subst ha
    have hb : b = b' := by simpa using h2
    subst hb
    have hc : c = c' := by simpa using h3
    subst hc
    have hd : d = d' := by simpa using h4
    subst hd
    have he : e = e' := by simpa using h5
    rw [he]
  have := (h1 (fun v => v.rotateRight 1) (k 12) (k 14) 0 0 0 0).comp
    (h1 S (k 0) (k 2) (k 4) (k 6) (k 8) (k 10))
  convert this using 1
  funext ⟨a, b, c, d, e, f⟩
  simp [mix96]

/-! ### Phase 2 -/

theorem rotR1_eq (v : Half) : rotR1 v.toNat = (v.rotateRight 1).toNat := by
  have h : (v.rotateRight 1) = ((v >>> 1) &&& 0x7FFF#16) ^^^ ((v &&& 1#16) <<< 15) := by
    apply BitVec.eq_of_getElem_eq
    intro i hi
    have : ∀ i < 16, (v.rotateRight 1).getLsbD i =
        (((v >>> 1) &&& 0x7FFF#16) ^^^ ((v &&& 1#16) <<< 15)).getLsbD i := by
      intro i hi
      interval_cases i <;> simp [BitVec.getElem_rotateRight]
    simpa only [BitVec.getLsbD_eq_getElem hi] using this i hi
  rw [h, BitVec.toNat_xor, BitVec.toNat_and, BitVec.toNat_ushiftRight, BitVec.toNat_shiftLeft,
    BitVec.toNat_and]
  have h1 : v.toNat &&& 1 ≤ 1 := Nat.and_le_right
  have : (v.toNat &&& (1#16).toNat) <<< 15 < 2 ^ 16 := by
    simp only [BitVec.toNat_ofNat, Nat.shiftLeft_eq]
    norm_num
    omega
  rw [Nat.mod_eq_of_lt this]
  rfl

theorem sweep_step (a b : Half) :
    (a.toNat + rotR1 b.toNat) &&& 0xFFFF = (a + b.rotateRight 1).toNat := by
  rw [rotR1_eq, mask16, BitVec.ofNat_add]
  simp only [BitVec.ofNat_toNat, BitVec.setWidth_eq]

theorem sweep_step' (a b : Half) (k : Nat) (hk : k < 65536) :
    (a.toNat + rotR1 (b.toNat ^^^ k)) &&& 0xFFFF =
      (a + (b ^^^ BitVec.ofNat 16 k).rotateRight 1).toNat := by
  have : b.toNat ^^^ k = (b ^^^ BitVec.ofNat 16 k).toNat := by
    rw [BitVec.toNat_xor, BitVec.toNat_ofNat, Nat.mod_eq_of_lt (by omega)]
  rw [this, sweep_step]

theorem mix_step_nat (sbox : Nat → Nat) (a : Half) (f k : Nat) :
    (a.toNat + tkipS sbox (f ^^^ k)) &&& 0xFFFF =
      (a + tkipSW sbox (BitVec.ofNat 16 f ^^^ BitVec.ofNat 16 k)).toNat := by
  rw [mask16, BitVec.ofNat_add, tkipS_word, ofNat_xor16]
  simp

theorem mix_step_nat' (sbox : Nat → Nat) (f : Nat) (e : Half) (k : Nat) :
    (f + tkipS sbox (e.toNat ^^^ k)) &&& 0xFFFF =
      (BitVec.ofNat 16 f + tkipSW sbox (e ^^^ BitVec.ofNat 16 k)).toNat := by
  rw [mask16, BitVec.ofNat_add, tkipS_word, ofNat_xor16]
  simp

/-- The integers that represent six 16-bit words. -/
def natPPK (t : Words6) : PPK :=
  ⟨t.1.toNat, t.2.1.toNat, t.2.2.1.toNat, t.2.2.2.1.toNat, t.2.2.2.2.1.toNat, t.2.2.2.2.2.toNat⟩

/-- The integer mixing is the mixing of 16-bit words, also if the last integer exceeds 16 bits. -/
theorem ppkMix_eq (sbox : Nat → Nat) (tk : Bytes) (a b c d e : Half) (f : Nat) :
    ppkMix (tkipS sbox) tk ⟨a.toNat, b.toNat, c.toNat, d.toNat, e.toNat, f⟩ =
      natPPK (mix96 (tkipSW sbox) (mk16 tk) (a, b, c, d, e, BitVec.ofNat 16 f)) := by
  have hw : ∀ j, at' tk (j + 1) * 256 + at' tk j < 65536 := by
    intro j
    have := at'_lt tk j
    have := at'_lt tk (j + 1)
    omega
  have k0 : BitVec.ofNat 16 (at' tk 1 * 256 + at' tk 0) = mk16 tk 0 := mk16_eq tk 0
  have k2 : BitVec.ofNat 16 (at' tk 3 * 256 + at' tk 2) = mk16 tk 2 := mk16_eq tk 2
  have k4 : BitVec.ofNat 16 (at' tk 5 * 256 + at' tk 4) = mk16 tk 4 := mk16_eq tk 4
  have k6 : BitVec.ofNat 16 (at' tk 7 * 256 + at' tk 6) = mk16 tk 6 := mk16_eq tk 6
  have k8 : BitVec.ofNat 16 (at' tk 9 * 256 + at' tk 8) = mk16 tk 8 := mk16_eq tk 8
  have k10 : BitVec.ofNat 16 (at' tk 11 * 256 + at' tk 10) = mk16 tk 10 := mk16_eq tk 10
  have k12 : BitVec.ofNat 16 (at' tk 13 * 256 + at' tk 12) = mk16 tk 12 := mk16_eq tk 12
  have k14 : BitVec.ofNat 16 (at' tk 15 * 256 + at' tk 14) = mk16 tk 14 := mk16_eq tk 14
  have s12 : ∀ a b : Half, (a.toNat + rotR1 (b.toNat ^^^ (at' tk 13 * 256 + at' tk 12))) &&& 0xFFFF =
      (a + (b ^^^ mk16 tk 12).rotateRight 1).toNat := by
    intro a b; rw [sweep_step' a b _ (hw 12), k12]
  have s14 : ∀ a b : Half, (a.toNat + rotR1 (b.toNat ^^^ (at' tk 15 * 256 + at' tk 14))) &&& 0xFFFF =
      (a + (b ^^^ mk16 tk 14).rotateRight 1).toNat := by
    intro a b; rw [sweep_step' a b _ (hw 14), k14]
  simp only [ppkMix, mix_step_nat, mix_step_nat', k0, k2, k4, k6, k8, k10, s12, s14, sweep_step,
    natPPK, mix96, BitVec.ofNat_toNat, BitVec.setWidth_eq]

theorem chr_ok (n : Nat) (h : n < 256) : Py.chr (n : Int) = .ok (UInt8.ofNat n) := by
  unfold Py.chr
  rw [if_pos (by omega)]
  simp

theorem mapM_chr (l : List Nat) (h : ∀ n ∈ l, n < 256) :
    l.mapM (fun n : Nat => Py.chr (n : Int)) = .ok (l.map UInt8.ofNat) := by
  induction l with
  | nil => rfl
  | cons a l ih =>
    rw [List.mapM_cons, chr_ok a (h a List.mem_cons_self),
      ih (fun n hn => h n (List.mem_cons_of_mem _ hn))]
    rfl

/-! ### The S-box -/

theorem shift_xor_eq (x y : Nat) (hy : y < 256) : (x <<< 8) ^^^ y = (x <<< 8) ||| y := by
  apply Nat.eq_of_testBit_eq
  intro i
  rw [Nat.testBit_xor, Nat.testBit_or, Nat.testBit_shiftLeft]
  by_cases hi : 8 ≤ i
  · have : y.testBit i = false :=
      Nat.testBit_lt_two_pow (lt_of_lt_of_le hy (Nat.pow_le_pow_right (n := 2) (by omega) hi))
    simp [this]
  · simp [hi]

theorem tkipK2_eq (b : BitVec 8) : tkipK2 b.toNat = (xtime b).toNat := by
  have h : ∀ n : Fin 256, tkipK2 n = (xtime (BitVec.ofNat 8 n)).toNat := by decide +kernel
  have := h ⟨b.toNat, b.isLt⟩
  simpa using this

theorem tkipSW_eq (sbox : Nat → Nat) (s : BitVec 8 → BitVec 8)
    (hs : ∀ i < 256, sbox i = (s (BitVec.ofNat 8 i)).toNat) (v : Half) :
    tkipSW sbox v = tkipSub s v := by
  apply BitVec.eq_of_toNat_eq
  have hlo : v.toNat &&& 0xFF = (v.extractLsb' 0 8).toNat := by
    rw [mask8, BitVec.extractLsb'_toNat]; simp
  have hhi : (v.toNat >>> 8) &&& 0xFF = (v.extractLsb' 8 8).toNat := by
    rw [mask8, BitVec.extractLsb'_toNat]
  have hsx : ∀ b : BitVec 8, sbox b.toNat = (s b).toNat := by
    intro b; rw [hs _ b.isLt]; simp
  have h0 : ∀ b : BitVec 8, tkipT0 sbox b.toNat = (xtime (s b) ++ (xtime (s b) ^^^ s b)).toNat := by
    intro b
    rw [tkipT0, tkipK3, hsx, tkipK2_eq, ← BitVec.toNat_xor, shift_xor_eq _ _ (BitVec.isLt _),
      BitVec.toNat_append, BitVec.xor_comm]
  have h1 : ∀ b : BitVec 8, tkipT1 sbox b.toNat = ((xtime (s b) ^^^ s b) ++ xtime (s b)).toNat := by
    intro b
    rw [tkipT1, tkipK3, hsx, tkipK2_eq, ← BitVec.toNat_xor, shift_xor_eq _ _ (BitVec.isLt _),
      BitVec.toNat_append, BitVec.xor_comm]
  have h : tkipS sbox v.toNat = (tkipSub s v).toNat := by
    rw [tkipS, hlo, hhi, h0, h1]
    exact (BitVec.toNat_xor _ _).symm
  rw [tkipSW, h]
  simp

end Cryptopy
