import Verif.Lemmas.PermGame
import Verif.Lemmas.AeadForge
import Verif.Lemmas.Michael
import Verif.Props.ChaChaCore
import Mathlib.Data.BitVec

/-!
C185: the block function of ChaCha20 with a random permutation in place of the rounds.
-/

namespace Cryptopy
open Model (ChaCha innerLoop unpackLE32)
open Spec (Str State Word Asker initState serialize leBytes leValue leWord)
open Prf (cnt cnt_congr cnt_equiv)
open Cpoly (Table Place look place nonceBits)

/-- A permutation of the states of sixteen words in place of the rounds. -/
def asRounds (π : Equiv.Perm State) (s : List Nat) : List Nat := natState (π fun i => BitVec.ofNat 32 (s.getD i 0))

/-- The questions of somebody who looks for the key: the rounds of a state, the state before the rounds, and the block for
a nonce and a counter. -/
inductive CoreAsk where
  | rounds (s : State)
  | back (s : State)
  | block (nonce : Str 12) (counter : Word)

/-- Questions for the rounds. -/
def CoreAsk.isRounds : CoreAsk → Nat
  | .block _ _ => 0
  | _ => 1

/-- Questions for blocks. -/
def CoreAsk.isBlock : CoreAsk → Nat
  | .block _ _ => 1
  | _ => 0

/-- The answers, with `block` in place of the block function. -/
def coreAnswers (rand key : Bytes) (π : Equiv.Perm State) (block : ChaCha → Bytes) : CoreAsk → State ⊕ Py Bytes
  | .rounds s => .inl (π s)
  | .back s => .inl (π.symm s)
  | .block nonce counter => .inr (
      match ChaCha.new rand key counter.toNat (some nonce.1) with
      | .error e => .error e
      | .ok o => .ok (block o))

namespace Core
open PermGame

noncomputable instance : Fintype Word := Fintype.ofFinite _
noncomputable instance : Fintype Place := Fintype.ofFinite _

theorem card_word (n : ℕ) : Nat.card (BitVec n) = 2 ^ n := by
  rw [← Nat.card_fin (2 ^ n)]
  exact Nat.card_congr ⟨BitVec.toFin, BitVec.ofFin, fun _ => rfl, fun _ => rfl⟩

theorem card_state : Fintype.card State = 2 ^ 512 := by
  rw [Fintype.card_fun, Fintype.card_fin, ← Nat.card_eq_fintype_card, card_word, ← pow_mul]

theorem unpack_inj : ∀ (n : Nat) (s t : Bytes), s.length = 4 * n → t.length = 4 * n → unpackLE32 s = unpackLE32 t → s = t
  | 0, s, t, hs, ht, _ => by rw [List.length_eq_zero_iff.mp hs, List.length_eq_zero_iff.mp ht]
  | n + 1, s, t, hs, ht, h => by
    match s, t, hs, ht with
    | a :: b :: c :: d :: s, a' :: b' :: c' :: d' :: t, hs, ht =>
      simp only [unpackLE32, List.cons.injEq] at h
      have hr := unpack_inj n s t (by simp at hs; omega) (by simp at ht; omega) h.2
      have h1 := h.1
      have := a.toNat_lt; have := b.toNat_lt; have := c.toNat_lt; have := d.toNat_lt
      have := a'.toNat_lt; have := b'.toNat_lt; have := c'.toNat_lt; have := d'.toNat_lt
      rw [show a = a' from UInt8.toNat_inj.mp (by omega), show b = b' from UInt8.toNat_inj.mp (by omega),
        show c = c' from UInt8.toNat_inj.mp (by omega), show d = d' from UInt8.toNat_inj.mp (by omega), hr]

/-- The nonce with a number. -/
def nonceOf (ν : BitVec 96) : Bytes := leBytes 12 ν.toNat

theorem length_nonceOf (ν : BitVec 96) : (nonceOf ν).length = 12 := length_leBytes _ _

theorem nonceOf_bits (n : Bytes) (h : n.length = 12) : nonceOf (nonceBits n) = n := by
  have l := leValue_lt n
  rw [h, show 256 ^ 12 = 2 ^ 96 by norm_num] at l
  rw [nonceOf, nonceBits, BitVec.toNat_ofNat, Nat.mod_eq_of_lt l, ← h, leBytes_leValue]

theorem bits_nonceOf (ν : BitVec 96) : nonceBits (nonceOf ν) = ν := by
  have hinj : Function.Injective fun n : Str 12 => nonceBits n.1 := fun a b h =>
    Subtype.ext (Cpoly.nonceBits_inj a.1 b.1 a.2 b.2 h)
  have : Fintype (BitVec 96) := Fintype.ofFinite _
  have hb := (Fintype.bijective_iff_injective_and_card _).mpr ⟨hinj, by
    rw [Cpoly.card_str, ← Nat.card_eq_fintype_card, card_word]
    norm_num⟩
  obtain ⟨n, rfl⟩ := hb.2 ν
  exact congrArg nonceBits (nonceOf_bits n.1 n.2)

/-- The starting state. -/
def start (k : Str 32) (x : Place) : State := initState k.1 x.1 (nonceOf x.2)

theorem start_nat (k : Str 32) (x : Place) : ChaCha.mk (natState (start k x)) = initNat k.1 x.1.toNat (nonceOf x.2) := by
  rw [initNat_state k.1 (nonceOf x.2) x.1.toNat k.2 (length_nonceOf _) x.1.isLt, BitVec.ofNat_toNat, BitVec.setWidth_eq]
  rfl

theorem start_inj (k k' : Str 32) (x x' : Place) (h : start k x = start k' x') : k = k' ∧ x = x' := by
  have e : initNat k.1 x.1.toNat (nonceOf x.2) = initNat k'.1 x'.1.toNat (nonceOf x'.2) := by
    rw [← start_nat, ← start_nat, h]
  have hx : x = x' := by
    have := congrArg place e
    rw [Cpoly.place_init _ _ _ k.2 (length_nonceOf _), Cpoly.place_init _ _ _ k'.2 (length_nonceOf _), bits_nonceOf,
      bits_nonceOf, BitVec.ofNat_toNat, BitVec.setWidth_eq, BitVec.ofNat_toNat, BitVec.setWidth_eq] at this
    exact this
  refine ⟨Subtype.ext (unpack_inj 8 _ _ k.2 k'.2 ?_), hx⟩
  have h2 := congrArg (fun o : ChaCha => (o.state.drop 4).take 8) e
  have h8 := length_unpackLE32 k.1 8 k.2
  have h8' := length_unpackLE32 k'.1 8 k'.2
  simp only [initNat, List.cons_append, List.nil_append, List.drop_succ_cons, List.drop_zero, List.append_assoc] at h2
  rwa [List.take_left' h8, List.take_left' h8'] at h2

theorem serialize_length (s : State) : (serialize s).length = 64 := by
  rw [serialize, List.length_flatten]
  simp

theorem serialize_inj : Function.Injective serialize := by
  have key : ∀ (n : ℕ) (f g : Fin n → Word), (List.ofFn fun i => leBytes 4 (f i).toNat).flatten =
      (List.ofFn fun i => leBytes 4 (g i).toNat).flatten → f = g := by
    intro n
    induction n with
    | zero => exact fun f g _ => funext fun i => i.elim0
    | succ n ih =>
      intro f g h
      rw [List.ofFn_succ, List.ofFn_succ, List.flatten_cons, List.flatten_cons] at h
      obtain ⟨h1, h2⟩ := List.append_inj h (by simp)
      have h0 : f 0 = g 0 := by rw [← leWord_leBytes4 (f 0), h1, leWord_leBytes4]
      have := ih _ _ h2
      funext i
      refine Fin.cases h0 (fun i => congrFun this i) i
  exact fun s t h => key 16 s t h

/-- States and blocks. -/
noncomputable def octets : State ≃ Str 64 :=
  Equiv.ofBijective (fun s => ⟨serialize s, serialize_length s⟩) ((Fintype.bijective_iff_injective_and_card _).mpr
    ⟨fun _ _ h => serialize_inj (Subtype.mk.inj h), by rw [card_state, Cpoly.card_str, show 256 = 2 ^ 8 from rfl, ← pow_mul]⟩)

theorem blockWith_nat (π : Equiv.Perm State) (s : State) :
    (ChaCha.mk (natState s)).blockWith (asRounds π) = serialize (s + π s) := by
  have e : asRounds π (natState s) = natState (π s) := by
    rw [asRounds]
    congr 2
    funext i
    rw [natState_getD, BitVec.ofNat_toNat, BitVec.setWidth_eq]
  simp only [ChaCha.blockWith, serialize, e]
  congr 1
  apply List.ext_getElem
  · simp
  · intro i h1 h2
    simp only [List.getElem_map, List.getElem_zipWith, natState, List.getElem_ofFn, packLE32_eq]
    rw [add_eq]
    rfl

/-- The question in terms of states. -/
def toQuery : CoreAsk → Query State Place
  | .rounds s => .fwd s
  | .back s => .bwd s
  | .block n c => .blk (c, nonceBits n.1)

/-- The answer in terms of states. -/
noncomputable def toAnswer : CoreAsk → State → State ⊕ Py Bytes
  | .rounds _, s => .inl s
  | .back _, s => .inl s
  | .block _ _, s => .inr (.ok (octets s).1)

/-- The strategy in terms of states. -/
noncomputable def translate {R : Type} : Asker CoreAsk (State ⊕ Py Bytes) R → Asker (Query State Place) State R
  | .done r => .done r
  | .ask m next => .ask (toQuery m) fun s => translate (next (toAnswer m s))

theorem translate_run {R : Type} (D : Asker CoreAsk (State ⊕ Py Bytes) R) (g : Query State Place → State) :
    (translate D).run g = D.run fun m => toAnswer m (g (toQuery m)) := by
  induction D with
  | done r => rfl
  | ask m next ih => exact ih _

theorem translate_perm {R : Type} (D : Asker CoreAsk (State ⊕ Py Bytes) R) (p : ℕ)
    (h : D.CostLe CoreAsk.isRounds (fun _ => 0) p) : (translate D).CostLe Query.perm (fun _ => 0) p := by
  induction D generalizing p with
  | done r => exact h
  | ask m next ih =>
    have e : Query.perm (toQuery m) = m.isRounds := by cases m <;> rfl
    exact ⟨e ▸ h.1, fun t => e ▸ ih _ _ (h.2 _)⟩

theorem translate_fun {R : Type} (D : Asker CoreAsk (State ⊕ Py Bytes) R) (b : ℕ)
    (h : D.CostLe CoreAsk.isBlock (fun _ => 0) b) : (translate D).CostLe Query.fun (fun _ => 0) b := by
  induction D generalizing b with
  | done r => exact h
  | ask m next ih =>
    have e : Query.fun (toQuery m) = m.isBlock := by cases m <;> rfl
    exact ⟨e ▸ h.1, fun t => e ▸ ih _ _ (h.2 _)⟩

theorem answers_real (rand : Bytes) (k : Str 32) (π : Equiv.Perm State) :
    coreAnswers rand k.1 π (ChaCha.blockWith (asRounds π)) = fun m => toAnswer m (real start k π (toQuery m)) := by
  funext m
  cases m with
  | rounds s => rfl
  | back s => rfl
  | block n c =>
    rw [coreAnswers, Cpoly.new_eq _ _ _ _ k.2 n.2]
    have := start_nat k (c, nonceBits n.1)
    rw [nonceOf_bits n.1 n.2] at this
    dsimp only at this ⊢
    rw [← this, blockWith_nat]
    rfl

theorem answers_ideal (rand key : Bytes) (hk : key.length = 32) (f : Table) (π : Equiv.Perm State) :
    coreAnswers rand key π (look f) = fun m => toAnswer m (ideal (fun x => octets.symm (f x), π) (toQuery m)) := by
  funext m
  cases m with
  | rounds s => rfl
  | back s => rfl
  | block n c =>
    rw [coreAnswers, Cpoly.new_eq _ _ _ _ hk n.2]
    dsimp only
    rw [look, Cpoly.place_init _ _ _ hk n.2, BitVec.ofNat_toNat, BitVec.setWidth_eq]
    simp only [toAnswer, toQuery, ideal, Equiv.apply_symm_apply]

theorem cnt_table {Y : Type} (P : Y × (Place → State) × Equiv.Perm State → Prop) :
    cnt (fun w : Y × Table × Equiv.Perm State => P (w.1, fun x => octets.symm (w.2.1 x), w.2.2)) = cnt P :=
  cnt_equiv ((Equiv.refl Y).prodCongr ((Equiv.piCongrRight fun _ => octets.symm).prodCongr (Equiv.refl _))) P

end Core

/-- C185: somebody asks `p` times for the rounds of a state or for the state before the rounds, and for `b` blocks under an
unknown random key, and is told the key when the questions are over.  With a random permutation in place of the rounds, the
chance of anything differs by at most `2 p b / 2^256 + b (b - 1) / 2^513` from the chance when the blocks come from a random
function that has nothing to do with the permutation or with the key. -/
theorem C185_key_hidden (rand key : Bytes) (hk : key.length = 32) {R : Type} (accept : Str 32 → R → Prop)
    (D : Asker CoreAsk (State ⊕ Py Bytes) R) (p b : ℕ) (hp : D.CostLe CoreAsk.isRounds (fun _ => 0) p)
    (hb : D.CostLe CoreAsk.isBlock (fun _ => 0) b) :
    |(Nat.card {w : Str 32 × Equiv.Perm State //
          accept w.1 (D.run (coreAnswers rand w.1.1 w.2 (ChaCha.blockWith (asRounds w.2))))} : ℚ) /
        Nat.card (Str 32 × Equiv.Perm State) -
      (Nat.card {w : Str 32 × Table × Equiv.Perm State // accept w.1 (D.run (coreAnswers rand key w.2.2 (look w.2.1)))} : ℚ) /
        Nat.card (Str 32 × Table × Equiv.Perm State)| ≤
      2 * p * b / 2 ^ 256 + b * (b - 1) / 2 ^ 513 := by
  classical
  have : Nonempty (Str 32) := ⟨⟨List.replicate 32 0, by simp⟩⟩
  have h := PermGame.main Core.start Core.start_inj accept (Core.translate D) p b (Core.translate_perm D p hp)
    (Core.translate_fun D b hb)
  have e1 : cnt (fun w : Str 32 × Equiv.Perm State => accept w.1 ((Core.translate D).run (PermGame.real Core.start w.1 w.2))) =
      Nat.card {w : Str 32 × Equiv.Perm State //
        accept w.1 (D.run (coreAnswers rand w.1.1 w.2 (ChaCha.blockWith (asRounds w.2))))} :=
    cnt_congr fun w => by rw [Core.translate_run, Core.answers_real]
  have e2 : cnt (fun w : Str 32 × (Place → State) × Equiv.Perm State =>
      accept w.1 ((Core.translate D).run (PermGame.ideal w.2))) =
      Nat.card {w : Str 32 × Table × Equiv.Perm State //
        accept w.1 (D.run (coreAnswers rand key w.2.2 (look w.2.1)))} := by
    rw [← Core.cnt_table]
    exact cnt_congr fun w => by rw [Core.translate_run, Core.answers_ideal rand key hk]
  have e3 : Fintype.card (Str 32 × (Place → State) × Equiv.Perm State) = Nat.card (Str 32 × Table × Equiv.Perm State) := by
    rw [← Prf.cnt_true, ← Core.cnt_table, cnt, Nat.card_congr (Equiv.subtypeUnivEquiv fun _ => trivial)]
  rw [e1, e2, e3, ← Nat.card_eq_fintype_card, Core.card_state, Cpoly.card_str] at h
  refine h.trans_eq ?_
  rw [show (256 ^ 32 : ℕ) = 2 ^ 256 by norm_num, Nat.cast_pow, Nat.cast_pow,
    Nat.cast_ofNat, ← pow_succ']

/-- Somebody who asks for a block, and for the rounds of a state. -/
def twoQuestions : Asker CoreAsk (State ⊕ Py Bytes) (Str 32) :=
  .ask (.block ⟨List.replicate 12 7, rfl⟩ 1) fun a => .ask (.rounds fun _ => 5) fun b =>
    .done (match a, b with
      | .inr (.ok s), .inl t => ⟨(s.take 32 ++ List.replicate 32 (UInt8.ofNat (t 3).toNat)).take 32, by simp⟩
      | _, _ => ⟨List.replicate 32 1, rfl⟩)

private theorem two_rounds : twoQuestions.CostLe CoreAsk.isRounds (fun _ => 0) 1 :=
  ⟨Nat.zero_le _, fun _ => ⟨le_refl 1, fun _ => Nat.zero_le _⟩⟩

private theorem two_blocks : twoQuestions.CostLe CoreAsk.isBlock (fun _ => 0) 1 :=
  ⟨le_refl 1, fun _ => ⟨Nat.zero_le _, fun _ => Nat.zero_le _⟩⟩

/-- This strategy meets the hypotheses. -/
example := C185_key_hidden [] (List.replicate 32 0) rfl (fun k r => k.1.take 1 = r.1.take 1) twoQuestions 1 1 two_rounds two_blocks

/-- C185: without being told the key, nobody can tell the blocks from a random function that has nothing to do with the
permutation, but with that chance. -/
theorem C185_random_function (rand key : Bytes) (hk : key.length = 32) {R : Type} (accept : R → Prop)
    (D : Asker CoreAsk (State ⊕ Py Bytes) R) (p b : ℕ) (hp : D.CostLe CoreAsk.isRounds (fun _ => 0) p)
    (hb : D.CostLe CoreAsk.isBlock (fun _ => 0) b) :
    |(Nat.card {w : Str 32 × Equiv.Perm State //
          accept (D.run (coreAnswers rand w.1.1 w.2 (ChaCha.blockWith (asRounds w.2))))} : ℚ) /
        Nat.card (Str 32 × Equiv.Perm State) -
      (Nat.card {w : Table × Equiv.Perm State // accept (D.run (coreAnswers rand key w.2 (look w.1)))} : ℚ) /
        Nat.card (Table × Equiv.Perm State)| ≤
      2 * p * b / 2 ^ 256 + b * (b - 1) / 2 ^ 513 := by
  have h := C185_key_hidden rand key hk (fun _ => accept) D p b hp hb
  have e : Nat.card {w : Str 32 × Table × Equiv.Perm State // accept (D.run (coreAnswers rand key w.2.2 (look w.2.1)))} =
      Nat.card (Str 32) * Nat.card {w : Table × Equiv.Perm State // accept (D.run (coreAnswers rand key w.2 (look w.1)))} := by
    rw [← Nat.card_prod]
    exact Nat.card_congr ⟨fun w => (w.1.1, ⟨w.1.2, w.2⟩), fun w => ⟨(w.1, w.2.1), w.2.2⟩, fun _ => rfl, fun _ => rfl⟩
  have hpos : (Nat.card (Str 32) : ℚ) ≠ 0 := by
    rw [Nat.card_eq_fintype_card, Cpoly.card_str]
    positivity
  rwa [e, Nat.card_prod (Str 32) (Table × Equiv.Perm State), Nat.cast_mul, Nat.cast_mul, mul_div_mul_left _ _ hpos] at h

example := C185_random_function [] (List.replicate 32 0) rfl (fun r => r.1.take 1 = [0]) twoQuestions 1 1 two_rounds two_blocks

/-- C185: the chance to find the key is at most that of a guess, `1 / 2^256`, and that difference. -/
theorem C185_key_guess (rand : Bytes) (D : Asker CoreAsk (State ⊕ Py Bytes) (Str 32)) (p b : ℕ)
    (hp : D.CostLe CoreAsk.isRounds (fun _ => 0) p) (hb : D.CostLe CoreAsk.isBlock (fun _ => 0) b) :
    (Nat.card {w : Str 32 × Equiv.Perm State //
          D.run (coreAnswers rand w.1.1 w.2 (ChaCha.blockWith (asRounds w.2))) = w.1} : ℚ) /
        Nat.card (Str 32 × Equiv.Perm State) ≤
      (2 * p * b + 1) / 2 ^ 256 + b * (b - 1) / 2 ^ 513 := by
  have h := C185_key_hidden rand (List.replicate 32 0) rfl (fun k r => r = k) D p b hp hb
  have e : Nat.card {w : Str 32 × Table × Equiv.Perm State //
      D.run (coreAnswers rand (List.replicate 32 0) w.2.2 (look w.2.1)) = w.1} = Nat.card (Table × Equiv.Perm State) :=
    Nat.card_congr ⟨fun w => w.1.2, fun w => ⟨(D.run (coreAnswers rand (List.replicate 32 0) w.2 (look w.1)), w), rfl⟩,
      fun w => Subtype.ext (Prod.ext w.2 rfl), fun _ => rfl⟩
  have hpos : (Nat.card (Table × Equiv.Perm State) : ℚ) ≠ 0 := by
    have : Nonempty (Table × Equiv.Perm State) := ⟨(fun _ => ⟨List.replicate 64 0, by simp⟩, 1)⟩
    exact Nat.cast_ne_zero.mpr Nat.card_pos.ne'
  rw [e, Nat.card_prod (Str 32) (Table × Equiv.Perm State), Nat.cast_mul, Nat.card_eq_fintype_card (α := Str 32),
    Cpoly.card_str, show (256 ^ 32 : ℕ) = 2 ^ 256 by norm_num, Nat.cast_pow,
    Nat.cast_ofNat, div_mul_cancel_right₀ hpos] at h
  have := (abs_le.mp h).2
  rw [← one_div] at this
  rw [add_div, add_right_comm]
  exact sub_le_iff_le_add.mp this

example := C185_key_guess [] twoQuestions 1 1 two_rounds two_blocks

/-- C185: with the rounds of the code in place of the permutation this is the block function of the code, and the rounds of
the code are one of the permutations. -/
theorem C185_rounds : (∀ o : ChaCha, o.blockWith (innerLoop 10) = o.block) ∧
    ∃ π : Equiv.Perm State, ∀ s, WordState s → asRounds π s = innerLoop 10 s := by
  refine ⟨fun o => rfl, ?_⟩
  have hinj : Function.Injective (Spec.doubleRound^[10]) := doubleRound_inj.iterate 10
  refine ⟨Equiv.ofBijective _ (Finite.injective_iff_bijective.mp hinj), fun s hs => ?_⟩
  obtain ⟨t, rfl⟩ := (wordState_iff s).mp hs
  rw [innerLoop_eq, asRounds, Equiv.ofBijective_apply]
  congr 2
  funext i
  rw [natState_getD, BitVec.ofNat_toNat, BitVec.setWidth_eq]

end Cryptopy
