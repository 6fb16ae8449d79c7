import Verif.Props.ChaChaRounds
import Verif.Props.AeadSecurity
import Verif.Lemmas.Phases
import Mathlib.Data.List.GetD

/-!
What the AEAD of `chacha_poly.py` uses of the block function, for somebody who asks for blocks and for the rounds: used for
C186.
-/

namespace Cryptopy.Core
open Model (ChaCha Aead poly1305Mac macData innerLoop unpackLE32)
open Spec (Str State Word Asker serialize AeadAsk AeadAnswer AeadAsker Forges)
open Prf (cnt cnt_congr cnt_equiv)
open Cpoly (Table Place look place nonceBits cipher otk blocks keystream)

/-- A table of blocks and a permutation. -/
abbrev World : Type := Table × Equiv.Perm State

/-- The answers for a table and a permutation. -/
def ans (w : World) : CoreAsk → State ⊕ Py Bytes := coreAnswers [] (List.replicate 32 0) w.2 (look w.1)

/-- What is computed, provided that the table and the permutation have some property, with at most `p` questions for the
rounds and `b` questions for blocks. -/
def Needs {X : Type} (P : World → Prop) (p b : ℕ) (E : World → X) : Prop :=
  ∃ T : Asker CoreAsk (State ⊕ Py Bytes) X, T.CostLe CoreAsk.isRounds (fun _ => 0) p ∧
    T.CostLe CoreAsk.isBlock (fun _ => 0) b ∧ ∀ w, P w → T.run (ans w) = E w

section
variable {X Y : Type} {P : World → Prop} {p p' b b' : ℕ}

theorem Needs.weaken {P' : World → Prop} {E : World → X} (h : Needs P p b E) (hP : ∀ w, P' w → P w) : Needs P' p b E := by
  obtain ⟨T, h1, h2, h3⟩ := h
  exact ⟨T, h1, h2, fun w hw => h3 w (hP w hw)⟩

theorem Needs.congr {E E' : World → X} (h : Needs P p b E) (h' : ∀ w, P w → E w = E' w) : Needs P p b E' := by
  obtain ⟨T, h1, h2, h3⟩ := h
  exact ⟨T, h1, h2, fun w hw => (h3 w hw).trans (h' w hw)⟩

theorem Needs.const (x : X) : Needs P p b fun _ => x := ⟨.done x, Nat.zero_le _, Nat.zero_le _, fun _ _ => rfl⟩

theorem Needs.bind {E : World → X} {E' : X → World → Y} (h : Needs P p b E)
    (h' : ∀ x, Needs (fun w => P w ∧ E w = x) p' b' (E' x)) : Needs P (p + p') (b + b') fun w => E' (E w) w := by
  obtain ⟨T, h1, h2, h3⟩ := h
  choose k hk1 hk2 hk3 using h'
  refine ⟨andThen T k, andThen_cost _ T k h1 hk1, andThen_cost _ T k h2 hk2, fun w hw => ?_⟩
  rw [andThen_run, h3 w hw]
  exact hk3 _ w ⟨hw, rfl⟩

theorem Needs.map {E : World → X} (h : Needs P p b E) (φ : X → Y) : Needs P p b fun w => φ (E w) :=
  Needs.bind (p' := 0) (b' := 0) (E' := fun x _ => φ x) h fun x => Needs.const (φ x)

theorem Needs.rounds (s : State) : Needs P 1 0 fun w => w.2 s :=
  ⟨.ask (.rounds s) fun a => .done (a.elim id fun _ => s), ⟨le_refl 1, fun _ => Nat.zero_le _⟩,
    ⟨Nat.zero_le _, fun _ => Nat.zero_le _⟩, fun _ _ => rfl⟩

theorem Needs.back (s : State) : Needs P 1 0 fun w => w.2.symm s :=
  ⟨.ask (.back s) fun a => .done (a.elim id fun _ => s), ⟨le_refl 1, fun _ => Nat.zero_le _⟩,
    ⟨Nat.zero_le _, fun _ => Nat.zero_le _⟩, fun _ _ => rfl⟩

theorem Needs.block (x : Place) : Needs P 0 1 fun w => (w.1 x).1 := by
  refine ⟨.ask (.block ⟨nonceOf x.2, length_nonceOf _⟩ x.1) fun a => .done (match a with
      | .inr (.ok s) => s
      | _ => []), ⟨Nat.zero_le _, fun _ => Nat.zero_le _⟩, ⟨le_refl 1, fun _ => Nat.zero_le _⟩, fun w _ => ?_⟩
  have e : ans w (.block ⟨nonceOf x.2, length_nonceOf _⟩ x.1) = .inr (.ok (w.1 x).1) := by
    rw [ans, coreAnswers, Cpoly.new_eq _ _ _ _ (by simp) (length_nonceOf _)]
    dsimp only
    rw [look, Cpoly.place_init _ _ _ (by simp) (length_nonceOf _), BitVec.ofNat_toNat, BitVec.setWidth_eq, bits_nonceOf]
  rw [Asker.run, e]
  rfl

theorem Needs.values (l : List Place) : Needs P 0 l.length fun w => l.map fun x => (w.1 x).1 := by
  induction l generalizing P with
  | nil => exact Needs.const []
  | cons x l ih =>
    have := Needs.bind (P := P) (E' := fun s w => s :: l.map fun x => (w.1 x).1) (Needs.block x) fun s => ih.map (s :: ·)
    rwa [Nat.zero_add, Nat.add_comm] at this

/-- What depends on some entries of the table only. -/
theorem Needs.entries [Nonempty X] (l : List Place) (E : Table → X)
    (h : ∀ f g : Table, (∀ x ∈ l, f x = g x) → E f = E g) : Needs P 0 l.length fun w => E w.1 := by
  classical
  have hφ : ∃ φ : List Bytes → X, ∀ f : Table, φ (l.map fun x => (f x).1) = E f := by
    refine ⟨fun v => if hv : ∃ f : Table, (l.map fun x => (f x).1) = v then E hv.choose else Classical.arbitrary X, fun f => ?_⟩
    have hv : ∃ g : Table, (l.map fun x => (g x).1) = l.map fun x => (f x).1 := ⟨f, rfl⟩
    dsimp only
    rw [dif_pos hv]
    exact h _ _ fun x hx => Subtype.ext (List.map_inj_left.mp hv.choose_spec x hx)
  obtain ⟨φ, hφ⟩ := hφ
  exact (Needs.map (Needs.values l) φ).congr fun w _ => hφ w.1

end

/-- The entries that an encryption uses. -/
def used (o : Aead) (iv : Bytes) (n : ℕ) : List Place :=
  (0, nonceBits (o.constant ++ iv)) :: (List.range n).map fun j => (BitVec.ofNat 32 (1 + j), nonceBits (o.constant ++ iv))

theorem length_used (o : Aead) (iv : Bytes) (n : ℕ) : (used o iv n).length = 1 + n := by
  rw [used, List.length_cons, List.length_map, List.length_range, Nat.add_comm]

section
variable {o : Aead} {r1 r2 : Bytes} (hk : o.key.length = 32)
include hk

theorem encrypt_uses (aad iv pt : Bytes) (hn : (o.constant ++ iv).length = 12) (f g : Table)
    (h : ∀ x ∈ used o iv (blocks pt), f x = g x) :
    o.encryptWith (look f) r1 r2 aad iv pt = o.encryptWith (look g) r1 r2 aad iv pt := by
  have e1 : otk f (nonceBits (o.constant ++ iv)) = otk g (nonceBits (o.constant ++ iv)) := by
    rw [otk, otk, h _ List.mem_cons_self]
  have e2 : cipher f (nonceBits (o.constant ++ iv)) pt = cipher g (nonceBits (o.constant ++ iv)) pt := by
    rw [cipher, cipher, keystream, keystream, List.flatMap, List.flatMap,
      List.map_congr_left fun j hj => by rw [h _ (List.mem_cons_of_mem _ (List.mem_map_of_mem hj))]]
  rw [Cpoly.encryptWith_eq f r1 r2 o aad iv pt hk hn, Cpoly.encryptWith_eq g r1 r2 o aad iv pt hk hn, e1, e2]

theorem open_uses (aad iv ct tag : Bytes) (hn : (o.constant ++ iv).length = 12) (f g : Table)
    (h : ∀ x ∈ used o iv (blocks ct), f x = g x) :
    o.openWith (look f) r1 r2 aad iv ct tag = o.openWith (look g) r1 r2 aad iv ct tag := by
  have e := encrypt_uses (r1 := r1) (r2 := r2) hk aad iv ct hn f g h
  rw [Aead.openWith, Aead.openWith, Aead.decryptWith, Aead.decryptWith, ← e]
  obtain ⟨t, -, ht⟩ := Cpoly.mac_ok (macData aad (cipher f (nonceBits (o.constant ++ iv)) ct))
    (otk f (nonceBits (o.constant ++ iv))) (Cpoly.length_otk _ _)
  have e1 := Cpoly.encryptWith_eq f r1 r2 o aad iv ct hk hn
  rw [ht] at e1
  rw [e1]
  dsimp only
  rw [encrypt_uses (r1 := r1) (r2 := r2) hk aad iv (cipher f (nonceBits (o.constant ++ iv)) ct) hn f g]
  rw [blocks, Cpoly.length_cipher]
  exact h

end

/-- The number of blocks that a question uses. -/
def cost : AeadAsk → ℕ
  | .inl m => 1 + (m.pt.length + 63) / 64
  | .inr x => 1 + (x.ct.length + 63) / 64

instance : Nonempty AeadAnswer := ⟨.inr (.ok none)⟩

theorem Needs.aead {P : World → Prop} (o : Aead) (r1 r2 : Bytes) (hk : o.key.length = 32) (q : ℕ) (m : AeadAsk)
    (hm : AeadAskFits o q m) : Needs P 0 (cost m) fun w => aeadAnswers o r1 r2 (look w.1) m := by
  cases m with
  | inl m =>
    have := Needs.entries (P := P) (used o m.iv (blocks m.pt)) (fun f => aeadAnswers o r1 r2 (look f) (.inl m))
      fun f g h => congrArg Sum.inl (encrypt_uses hk m.aad m.iv m.pt hm.1 f g h)
    rwa [length_used] at this
  | inr x =>
    have := Needs.entries (P := P) (used o x.iv (blocks x.ct)) (fun f => aeadAnswers o r1 r2 (look f) (.inr x))
      fun f g h => congrArg Sum.inr (open_uses hk x.aad x.iv x.ct x.tag hm.1 f g h)
    rwa [length_used] at this

/-- The table of the blocks for a key. -/
noncomputable def tableOf (k : Str 32) (π : Equiv.Perm State) : Table := fun x => octets (start k x + π (start k x))

theorem blockWith_list (π : Equiv.Perm State) (l : List ℕ) (hl : l.length = 16) :
    (ChaCha.mk l).blockWith (asRounds π) =
      serialize ((fun i : Fin 16 => BitVec.ofNat 32 (l.getD i 0)) + π fun i => BitVec.ofNat 32 (l.getD i 0)) := by
  simp only [ChaCha.blockWith, serialize, asRounds]
  congr 1
  apply List.ext_getElem
  · simp [hl]
  · intro i h1 h2
    have hi : i < l.length := by simpa [hl] using h1
    simp only [List.getElem_map, List.getElem_zipWith, natState, List.getElem_ofFn, packLE32_eq]
    rw [mask32, Pi.add_apply, BitVec.toNat_add, BitVec.toNat_ofNat, Nat.mod_add_mod, List.getD_eq_getElem _ _ hi]

theorem blockWith_init (k : Str 32) (π : Equiv.Perm State) (c : ℕ) (n : Bytes) (hn : n.length = 12) :
    (initNat k.1 c n).blockWith (asRounds π) = look (tableOf k π) (initNat k.1 c n) := by
  have hl := length_initNat k.1 n c k.2 hn
  have e : (fun i : Fin 16 => BitVec.ofNat 32 ((initNat k.1 c n).state.getD i 0)) =
      start k (BitVec.ofNat 32 c, nonceBits n) := by
    funext i
    have h1 := initNat_state k.1 n (c % 2 ^ 32) k.2 hn (Nat.mod_lt _ (by norm_num))
    have h2 : (initNat k.1 c n).state.getD i 0 % 2 ^ 32 = (initNat k.1 (c % 2 ^ 32) n).state.getD i 0 % 2 ^ 32 := by
      have h8 := length_unpackLE32 k.1 8 k.2
      by_cases hi : (i : ℕ) < 12
      · have g (d : ℕ) : (initNat k.1 d n).state.getD i 0 =
            ([0x61707865, 0x3320646e, 0x79622d32, 0x6b206574] ++ unpackLE32 k.1).getD i 0 := by
          simp only [initNat]
          rw [List.append_assoc, List.getD_append _ _ _ _ (by rw [List.length_append, h8]; exact hi)]
        rw [g, g]
      · by_cases hi' : (i : ℕ) = 12
        · rw [hi', initNat_getD _ _ _ k.2, initNat_getD _ _ _ k.2, Nat.mod_mod]
        · simp only [initNat]
          rw [List.getD_append_right _ _ _ _ (by simp [h8]; omega), List.getD_append_right _ _ _ _ (by simp [h8]; omega)]
          simp
    have h3 : BitVec.ofNat 32 ((initNat k.1 c n).state.getD i 0) = BitVec.ofNat 32 ((initNat k.1 (c % 2 ^ 32) n).state.getD i 0) :=
      BitVec.eq_of_toNat_eq (by rw [BitVec.toNat_ofNat, BitVec.toNat_ofNat, h2])
    rw [h3, h1, natState_getD, BitVec.ofNat_toNat, BitVec.setWidth_eq, start, nonceOf_bits n hn]
    congr 1
    exact BitVec.eq_of_toNat_eq (by rw [BitVec.toNat_ofNat, BitVec.toNat_ofNat, Nat.mod_mod])
  rw [look, Cpoly.place_init _ _ _ k.2 hn]
  exact (blockWith_list π _ hl).trans (by rw [e]; rfl)

theorem loop_real (k : Str 32) (π : Equiv.Perm State) (n pt : Bytes) (hn : n.length = 12) (m j c : ℕ) (out : Bytes) :
    ChaCha.encryptLoopWith (ChaCha.blockWith (asRounds π)) pt j m (initNat k.1 c n) out =
      ChaCha.encryptLoopWith (look (tableOf k π)) pt j m (initNat k.1 c n) out := by
  induction m generalizing j c out with
  | zero => rfl
  | succ m ih =>
    rw [ChaCha.encryptLoopWith, ChaCha.encryptLoopWith, initNat_bump _ _ _ k.2, ih, blockWith_init k π c n hn]

theorem encrypt_real (k : Str 32) (π : Equiv.Perm State) (o : Aead) (hk : o.key.length = 32) (r1 r2 aad iv pt : Bytes)
    (hn : (o.constant ++ iv).length = 12) :
    Aead.encryptWith (ChaCha.blockWith (asRounds π)) r1 r2 ⟨k.1, o.constant⟩ aad iv pt =
      o.encryptWith (look (tableOf k π)) r1 r2 aad iv pt := by
  have e1 : Aead.encryptWith (ChaCha.blockWith (asRounds π)) r1 r2 ⟨k.1, o.constant⟩ aad iv pt =
      Aead.encryptWith (look (tableOf k π)) r1 r2 ⟨k.1, o.constant⟩ aad iv pt := by
    rw [Aead.encryptWith, Aead.encryptWith, Model.poly1305KeyGenWith, Model.poly1305KeyGenWith,
      Cpoly.new_eq _ _ _ _ k.2 hn, Cpoly.new_eq _ _ _ _ k.2 hn]
    dsimp only
    rw [blockWith_init k π 0 _ hn, ChaCha.encryptWith, ChaCha.encryptWith, loop_real k π _ _ hn]
  rw [e1, Cpoly.encryptWith_eq _ r1 r2 ⟨k.1, o.constant⟩ aad iv pt k.2 hn, Cpoly.encryptWith_eq _ r1 r2 o aad iv pt hk hn]

theorem answers_aead (k : Str 32) (π : Equiv.Perm State) (o : Aead) (hk : o.key.length = 32) (r1 r2 : Bytes) (q : ℕ)
    (m : AeadAsk) (hm : AeadAskFits o q m) :
    aeadAnswers ⟨k.1, o.constant⟩ r1 r2 (ChaCha.blockWith (asRounds π)) m = aeadAnswers o r1 r2 (look (tableOf k π)) m := by
  cases m with
  | inl m => exact congrArg Sum.inl (encrypt_real k π o hk r1 r2 _ _ _ hm.1)
  | inr x =>
    refine congrArg Sum.inr ?_
    have e (pt : Bytes) := encrypt_real k π o hk r1 r2 x.aad x.iv pt hm.1
    rw [Aead.openWith, Aead.openWith, Aead.decryptWith, Aead.decryptWith, e]
    simp only [e]

/-- C185 for what is computed. -/
theorem Needs.game {E : World → Prop} {p b : ℕ} (h : Needs (fun _ => True) p b E) :
    |(Nat.card {w : Str 32 × Equiv.Perm State // E (tableOf w.1 w.2, w.2)} : ℚ) / Nat.card (Str 32 × Equiv.Perm State) -
      (Nat.card {w : World // E w} : ℚ) / Nat.card World| ≤ 2 * p * b / 2 ^ 256 + b * (b - 1) / 2 ^ 513 := by
  obtain ⟨T, h1, h2, h3⟩ := h
  have h := C185_random_function [] (List.replicate 32 0) (by simp) (fun r => r) T p b h1 h2
  have e1 (w : Str 32 × Equiv.Perm State) : coreAnswers [] w.1.1 w.2 (ChaCha.blockWith (asRounds w.2)) =
      ans (tableOf w.1 w.2, w.2) := by
    rw [answers_real, ans, answers_ideal _ _ (by simp)]
    funext m
    congr 1
    cases m with
    | rounds s => rfl
    | back s => rfl
    | block n c => simp only [toQuery, PermGame.real, PermGame.ideal, tableOf, Equiv.symm_apply_apply]
  have e2 : (Nat.card {w : World // T.run (coreAnswers [] (List.replicate 32 0) w.2 (look w.1))} : ℚ) =
      Nat.card {w : World // E w} := by
    congr 1
    exact cnt_congr fun w => by rw [← h3 w trivial]; rfl
  have e3 : Nat.card {w : Str 32 × Equiv.Perm State // T.run (coreAnswers [] w.1.1 w.2 (ChaCha.blockWith (asRounds w.2)))} =
      Nat.card {w : Str 32 × Equiv.Perm State // E (tableOf w.1 w.2, w.2)} :=
    cnt_congr fun w => by rw [e1, h3 _ trivial]
  rw [e2, e3] at h
  exact h

end Cryptopy.Core
