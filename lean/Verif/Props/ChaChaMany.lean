import Verif.Props.ChaChaRounds
import Verif.Lemmas.Generic
import Mathlib.Data.Nat.Choose.Cast
import Mathlib.Data.Nat.Cast.Order.Field

/-!
C187: the block function of ChaCha20 under many keys, with a random permutation in place of the rounds.
-/

namespace Cryptopy
open Model (ChaCha)
open Spec (Str State Word Asker)
open Prf (cnt cnt_congr cnt_equiv)
open Cpoly (Table Place look nonceBits)

/-- The questions of somebody who looks for one of `u` keys: the rounds of a state, the state before the rounds, and the
block for an owner of a key, a nonce and a counter. -/
inductive ManyAsk (u : ℕ) where
  | rounds (s : State)
  | back (s : State)
  | block (owner : Fin u) (nonce : Str 12) (counter : Word)

/-- Questions for the rounds. -/
def ManyAsk.isRounds {u : ℕ} : ManyAsk u → Nat
  | .block _ _ _ => 0
  | _ => 1

/-- Questions for blocks. -/
def ManyAsk.isBlock {u : ℕ} : ManyAsk u → Nat
  | .block _ _ _ => 1
  | _ => 0

/-- The answers, with `block i` in place of the block function of the owner `i`. -/
def manyAnswers {u : ℕ} (rand : Bytes) (keys : Fin u → Bytes) (π : Equiv.Perm State) (block : Fin u → ChaCha → Bytes) :
    ManyAsk u → State ⊕ Py Bytes
  | .rounds s => .inl (π s)
  | .back s => .inl (π.symm s)
  | .block i nonce counter => .inr (
      match ChaCha.new rand (keys i) counter.toNat (some nonce.1) with
      | .error e => .error e
      | .ok o => .ok (block i o))

namespace Core
open PermGame

/-- What happens for one value of a part happens for a share of one by the number of values. -/
theorem share {Ω A : Type} [Fintype Ω] [Fintype A] (P : Ω → Prop) (put : Ω → A → Ω) (get : Ω → A)
    (h1 : ∀ ω a, get (put ω a) = a) (h2 : ∀ ω ω' a, P ω → P ω' → put ω a = put ω' a → ω = ω') :
    cnt P * Fintype.card A ≤ Fintype.card Ω := by
  rw [cnt, ← Nat.card_eq_fintype_card, ← Nat.card_eq_fintype_card, ← Nat.card_prod]
  refine Nat.card_le_card_of_injective (fun w : {x // P x} × A => put w.1.1 w.2) ?_
  rintro ⟨⟨ω, h⟩, a⟩ ⟨⟨ω', h'⟩, a'⟩ e
  have ha : a = a' := by rw [← h1 ω a, ← h1 ω' a']; exact congrArg get e
  subst ha
  have := h2 ω ω' a h h' e
  subst this
  rfl

theorem update_eq {u : ℕ} {A : Type} {f g : Fin u → A} {i : Fin u} {a : A} (h : Function.update f i a = Function.update g i a)
    (hi : f i = g i) : f = g := by
  funext j
  by_cases hj : j = i
  · rw [hj, hi]
  · have := congrFun h j
    rwa [Function.update_of_ne hj, Function.update_of_ne hj] at this

/-- The starting state of a block of an owner. -/
def startMany {u : ℕ} (k : Fin u → Str 32) (x : Fin u × Place) : State := start (k x.1) x.2

theorem card_keys (u : ℕ) : Fintype.card (Fin u → Str 32) = (2 ^ 256) ^ u := by
  rw [Fintype.card_fun, Fintype.card_fin, Cpoly.card_str, show (256 ^ 32 : ℕ) = 2 ^ 256 by norm_num]

theorem le_share {u a : ℕ} (h : a * Fintype.card (Str 32) ≤ Fintype.card (Fin u → Str 32)) : a ≤ (2 ^ 256) ^ u / 2 ^ 256 := by
  rw [card_keys, Cpoly.card_str, show (256 ^ 32 : ℕ) = 2 ^ 256 by norm_num] at h
  exact (Nat.le_div_iff_mul_le (by positivity)).mpr h

/-- The state of a block is that of few lists of keys. -/
theorem few_keys {u : ℕ} (x : Fin u × Place) (y : State) :
    (Finset.univ.filter fun k : Fin u → Str 32 => startMany k x = y).card ≤ (2 ^ 256) ^ u / 2 ^ 256 := by
  refine le_share ?_
  have h := share (fun k : Fin u → Str 32 => startMany k x = y) (fun k a => Function.update k x.1 a) (fun k => k x.1)
    (fun k a => Function.update_self ..) fun k k' a h h' e => update_eq e (start_inj _ _ _ _ (h.trans h'.symm)).1
  rw [Prf.cnt_eq] at h
  convert h

theorem few_equal {u : ℕ} (i j : Fin u) (h : i ≠ j) :
    {k : Fin u → Str 32 | k i = k j}.ncard ≤ (2 ^ 256) ^ u / 2 ^ 256 := by
  refine le_share (le_of_eq_of_le ?_ (share (fun k : Fin u → Str 32 => k i = k j) (fun k a => Function.update k i a)
    (fun k => k i) (fun k a => Function.update_self ..) ?_))
  · rfl
  · intro k k' a hk hk' e
    refine update_eq e ?_
    have := congrFun e j
    rw [Function.update_of_ne h.symm, Function.update_of_ne h.symm] at this
    rw [hk, hk', this]

open Classical in
/-- Different owners rarely have the same key. -/
theorem few_repeats (u : ℕ) : (Finset.univ.filter fun k : Fin u → Str 32 => Function.Injective k)ᶜ.card ≤
    u.choose 2 * ((2 ^ 256) ^ u / 2 ^ 256) := by
  have h := Model.collisions (Finset.univ : Finset (Fin u)) (fun (k : Fin u → Str 32) i => k i) _ few_equal
  rw [Finset.card_univ, Fintype.card_fin] at h
  refine le_of_eq_of_le ?_ h
  rw [← Set.ncard_coe_finset]
  congr 1
  ext k
  rw [Finset.mem_coe, Finset.mem_compl, Finset.mem_filter, Set.mem_ofPred_eq]
  exact not_congr ⟨fun h f _ g _ e => h.2 e, fun h => ⟨Finset.mem_univ _, fun f g e => h f (Finset.mem_univ _) g (Finset.mem_univ _) e⟩⟩

/-- The question in terms of states. -/
def toQueryMany {u : ℕ} : ManyAsk u → Query State (Fin u × Place)
  | .rounds s => .fwd s
  | .back s => .bwd s
  | .block i n c => .blk (i, c, nonceBits n.1)

/-- The answer in terms of states. -/
noncomputable def toAnswerMany {u : ℕ} : ManyAsk u → State → State ⊕ Py Bytes
  | .rounds _, s => .inl s
  | .back _, s => .inl s
  | .block _ _ _, s => .inr (.ok (octets s).1)

/-- The strategy in terms of states. -/
noncomputable def translateMany {u : ℕ} {R : Type} :
    Asker (ManyAsk u) (State ⊕ Py Bytes) R → Asker (Query State (Fin u × Place)) State R
  | .done r => .done r
  | .ask m next => .ask (toQueryMany m) fun s => translateMany (next (toAnswerMany m s))

variable {u : ℕ} {R : Type} (D : Asker (ManyAsk u) (State ⊕ Py Bytes) R)

theorem translateMany_run (g : Query State (Fin u × Place) → State) :
    (translateMany D).run g = D.run fun m => toAnswerMany m (g (toQueryMany m)) := by
  induction D with
  | done r => rfl
  | ask m next ih => exact ih _

theorem translateMany_perm (p : ℕ) (h : D.CostLe ManyAsk.isRounds (fun _ => 0) p) :
    (translateMany D).CostLe Query.perm (fun _ => 0) p := by
  induction D generalizing p with
  | done r => exact h
  | ask m next ih =>
    have e : Query.perm (toQueryMany m) = m.isRounds := by cases m <;> rfl
    exact ⟨e ▸ h.1, fun t => e ▸ ih _ _ (h.2 _)⟩

theorem translateMany_fun (b : ℕ) (h : D.CostLe ManyAsk.isBlock (fun _ => 0) b) :
    (translateMany D).CostLe Query.fun (fun _ => 0) b := by
  induction D generalizing b with
  | done r => exact h
  | ask m next ih =>
    have e : Query.fun (toQueryMany m) = m.isBlock := by cases m <;> rfl
    exact ⟨e ▸ h.1, fun t => e ▸ ih _ _ (h.2 _)⟩

theorem many_real (rand : Bytes) (k : Fin u → Str 32) (π : Equiv.Perm State) :
    manyAnswers rand (fun i => (k i).1) π (fun _ => ChaCha.blockWith (asRounds π)) =
      fun m => toAnswerMany m (real startMany k π (toQueryMany m)) := by
  funext m
  cases m with
  | rounds s => rfl
  | back s => rfl
  | block i n c => exact congrFun (answers_real rand (k i) π) (.block n c)

theorem many_ideal (rand : Bytes) (keys : Fin u → Str 32) (f : Fin u → Table) (π : Equiv.Perm State) :
    manyAnswers rand (fun i => (keys i).1) π (fun i => look (f i)) =
      fun m => toAnswerMany m (ideal (fun x : Fin u × Place => octets.symm (f x.1 x.2), π) (toQueryMany m)) := by
  funext m
  cases m with
  | rounds s => rfl
  | back s => rfl
  | block i n c => exact congrFun (answers_ideal rand (keys i).1 (keys i).2 (f i) π) (.block n c)

theorem cnt_tables {Y : Type} (P : Y × (Fin u × Place → State) × Equiv.Perm State → Prop) :
    cnt (fun w : Y × (Fin u → Table) × Equiv.Perm State => P (w.1, fun x => octets.symm (w.2.1 x.1 x.2), w.2.2)) = cnt P :=
  cnt_equiv ((Equiv.refl Y).prodCongr (((Equiv.piCongrRight fun _ => Equiv.piCongrRight fun _ => octets.symm).trans
    (Equiv.curry (Fin u) Place State).symm).prodCongr (Equiv.refl _))) P

theorem share_le (u : ℕ) : (((2 ^ 256) ^ u / 2 ^ 256 : ℕ) : ℚ) / ((2 ^ 256) ^ u : ℕ) ≤ 1 / 2 ^ 256 := by
  have h : (((2 ^ 256) ^ u / 2 ^ 256 : ℕ) : ℚ) ≤ ((2 ^ 256) ^ u : ℕ) / (2 ^ 256 : ℕ) := Nat.cast_div_le
  have hp : (0 : ℚ) < ((2 ^ 256) ^ u : ℕ) := Nat.cast_pos.mpr (by positivity)
  rw [div_le_iff₀ hp, one_div, inv_mul_eq_div]
  refine h.trans_eq ?_
  rw [Nat.cast_pow 2 256, Nat.cast_ofNat]

end Core

/-- C187: `u` owners have independent random keys.  Somebody asks `p` times for the rounds of a state or for the state before
the rounds, asks for `b` blocks in all, each under the key of an owner of their choice, and is told all keys when the
questions are over.  With a random permutation in place of the rounds, the chance of anything differs by at most
`2 p b / 2^256 + b (b - 1) / 2^513 + u (u - 1) / 2^257` from the chance when the blocks of each owner come from a random
function of the owner's own that has nothing to do with the permutation, with the keys or with the other owners. -/
theorem C187_keys_hidden {u : ℕ} (rand : Bytes) (keys : Fin u → Str 32) {R : Type} (accept : (Fin u → Str 32) → R → Prop)
    (D : Asker (ManyAsk u) (State ⊕ Py Bytes) R) (p b : ℕ) (hp : D.CostLe ManyAsk.isRounds (fun _ => 0) p)
    (hb : D.CostLe ManyAsk.isBlock (fun _ => 0) b) :
    |(Nat.card {w : (Fin u → Str 32) × Equiv.Perm State //
          accept w.1 (D.run (manyAnswers rand (fun i => (w.1 i).1) w.2 fun _ => ChaCha.blockWith (asRounds w.2)))} : ℚ) /
        Nat.card ((Fin u → Str 32) × Equiv.Perm State) -
      (Nat.card {w : (Fin u → Str 32) × (Fin u → Table) × Equiv.Perm State //
          accept w.1 (D.run (manyAnswers rand (fun i => (keys i).1) w.2.2 fun i => look (w.2.1 i)))} : ℚ) /
        Nat.card ((Fin u → Str 32) × (Fin u → Table) × Equiv.Perm State)| ≤
      2 * p * b / 2 ^ 256 + b * (b - 1) / 2 ^ 513 + u * (u - 1) / 2 ^ 257 := by
  classical
  have : Nonempty (Str 32) := ⟨⟨List.replicate 32 0, by simp⟩⟩
  have h := PermGame.main_many Core.startMany (Finset.univ.filter fun k : Fin u → Str 32 => Function.Injective k) _
    Core.few_keys (fun k hk x x' e => by
      have := Core.start_inj _ _ _ _ e
      exact Prod.ext ((Finset.mem_filter.mp hk).2 this.1) this.2)
    accept (Core.translateMany D) p b (Core.translateMany_perm D p hp) (Core.translateMany_fun D b hb)
  have e1 : cnt (fun w : (Fin u → Str 32) × Equiv.Perm State =>
      accept w.1 ((Core.translateMany D).run (PermGame.real Core.startMany w.1 w.2))) =
      Nat.card {w : (Fin u → Str 32) × Equiv.Perm State //
        accept w.1 (D.run (manyAnswers rand (fun i => (w.1 i).1) w.2 fun _ => ChaCha.blockWith (asRounds w.2)))} :=
    cnt_congr fun w => by rw [Core.translateMany_run, Core.many_real]
  have e2 : cnt (fun w : (Fin u → Str 32) × (Fin u × Place → State) × Equiv.Perm State =>
      accept w.1 ((Core.translateMany D).run (PermGame.ideal w.2))) =
      Nat.card {w : (Fin u → Str 32) × (Fin u → Table) × Equiv.Perm State //
        accept w.1 (D.run (manyAnswers rand (fun i => (keys i).1) w.2.2 fun i => look (w.2.1 i)))} := by
    rw [← Core.cnt_tables]
    exact cnt_congr fun w => by rw [Core.translateMany_run, Core.many_ideal rand keys]
  have e3 : Fintype.card ((Fin u → Str 32) × (Fin u × Place → State) × Equiv.Perm State) =
      Nat.card ((Fin u → Str 32) × (Fin u → Table) × Equiv.Perm State) := by
    rw [← Prf.cnt_true, ← Core.cnt_tables, cnt, Nat.card_congr (Equiv.subtypeUnivEquiv fun _ => trivial)]
  rw [e1, e2, e3, ← Nat.card_eq_fintype_card, Core.card_state, Core.card_keys] at h
  refine h.trans ?_
  have hpos : (0 : ℚ) < ((2 ^ 256) ^ u : ℕ) := Nat.cast_pos.mpr (by positivity)
  have h1 : (2 * p * b * ((2 ^ 256) ^ u / 2 ^ 256 : ℕ) : ℚ) / ((2 ^ 256) ^ u : ℕ) ≤ 2 * p * b / 2 ^ 256 := by
    rw [mul_div_assoc, ← mul_one_div (2 * p * b : ℚ) (2 ^ 256)]
    exact mul_le_mul_of_nonneg_left (Core.share_le u) (by positivity)
  have h2 : ((Finset.univ.filter fun k : Fin u → Str 32 => Function.Injective k)ᶜ.card : ℚ) / ((2 ^ 256) ^ u : ℕ) ≤
      u * (u - 1) / 2 ^ 257 := by
    have hr : ((Finset.univ.filter fun k : Fin u → Str 32 => Function.Injective k)ᶜ.card : ℚ) ≤
        (u.choose 2 : ℕ) * ((2 ^ 256) ^ u / 2 ^ 256 : ℕ) := by
      rw [← Nat.cast_mul]
      exact Nat.cast_le.mpr (Core.few_repeats u)
    refine (div_le_div_of_nonneg_right hr hpos.le).trans ?_
    rw [mul_div_assoc]
    refine (mul_le_mul_of_nonneg_left (Core.share_le u) (Nat.cast_nonneg _)).trans_eq ?_
    rw [Nat.cast_choose_two, mul_one_div, div_div, ← pow_succ']
  have h3 : (b * (b - 1) / (2 * (2 ^ 512 : ℕ)) : ℚ) = b * (b - 1) / 2 ^ 513 := by
    rw [Nat.cast_pow, Nat.cast_ofNat, ← pow_succ']
  rw [h3]
  exact add_le_add (add_le_add h1 le_rfl) h2

/-- Somebody who asks for a block of each of two owners, and for the rounds of a state. -/
def threeQuestions : Asker (ManyAsk 2) (State ⊕ Py Bytes) (Str 32) :=
  .ask (.block 0 ⟨List.replicate 12 7, rfl⟩ 1) fun a => .ask (.block 1 ⟨List.replicate 12 7, rfl⟩ 1) fun b =>
    .ask (.rounds fun _ => 5) fun c =>
      .done (match a, b, c with
        | .inr (.ok s), .inr (.ok s'), .inl t =>
          ⟨(s.take 16 ++ s'.take 16 ++ List.replicate 32 (UInt8.ofNat (t 3).toNat)).take 32, by simp; omega⟩
        | _, _, _ => ⟨List.replicate 32 1, rfl⟩)

private theorem three_rounds : threeQuestions.CostLe ManyAsk.isRounds (fun _ => 0) 1 :=
  ⟨Nat.zero_le _, fun _ => ⟨Nat.zero_le _, fun _ => ⟨le_refl 1, fun _ => Nat.zero_le _⟩⟩⟩

private theorem three_blocks : threeQuestions.CostLe ManyAsk.isBlock (fun _ => 0) 2 :=
  ⟨by decide, fun _ => ⟨le_refl 1, fun _ => ⟨Nat.zero_le _, fun _ => Nat.zero_le _⟩⟩⟩

/-- This strategy meets the hypotheses. -/
example := C187_keys_hidden [] (fun _ => ⟨List.replicate 32 0, rfl⟩) (fun k r => (k 0).1.take 1 = r.1.take 1) threeQuestions 1 2
  three_rounds three_blocks

/-- C187: without being told the keys, nobody can tell the blocks of the owners from random functions that have nothing to
do with each other or with the permutation, but with that chance. -/
theorem C187_random_functions {u : ℕ} (rand : Bytes) (keys : Fin u → Str 32) {R : Type} (accept : R → Prop)
    (D : Asker (ManyAsk u) (State ⊕ Py Bytes) R) (p b : ℕ) (hp : D.CostLe ManyAsk.isRounds (fun _ => 0) p)
    (hb : D.CostLe ManyAsk.isBlock (fun _ => 0) b) :
    |(Nat.card {w : (Fin u → Str 32) × Equiv.Perm State //
          accept (D.run (manyAnswers rand (fun i => (w.1 i).1) w.2 fun _ => ChaCha.blockWith (asRounds w.2)))} : ℚ) /
        Nat.card ((Fin u → Str 32) × Equiv.Perm State) -
      (Nat.card {w : (Fin u → Table) × Equiv.Perm State //
          accept (D.run (manyAnswers rand (fun i => (keys i).1) w.2 fun i => look (w.1 i)))} : ℚ) /
        Nat.card ((Fin u → Table) × Equiv.Perm State)| ≤
      2 * p * b / 2 ^ 256 + b * (b - 1) / 2 ^ 513 + u * (u - 1) / 2 ^ 257 := by
  have h := C187_keys_hidden rand keys (fun _ => accept) D p b hp hb
  have e : Nat.card {w : (Fin u → Str 32) × (Fin u → Table) × Equiv.Perm State //
      accept (D.run (manyAnswers rand (fun i => (keys i).1) w.2.2 fun i => look (w.2.1 i)))} =
      Nat.card (Fin u → Str 32) * Nat.card {w : (Fin u → Table) × Equiv.Perm State //
        accept (D.run (manyAnswers rand (fun i => (keys i).1) w.2 fun i => look (w.1 i)))} := by
    rw [← Nat.card_prod]
    exact Nat.card_congr ⟨fun w => (w.1.1, ⟨w.1.2, w.2⟩), fun w => ⟨(w.1, w.2.1), w.2.2⟩, fun _ => rfl, fun _ => rfl⟩
  have hpos : (Nat.card (Fin u → Str 32) : ℚ) ≠ 0 := by
    rw [Nat.card_eq_fintype_card, Core.card_keys]
    exact Nat.cast_ne_zero.mpr (by positivity)
  rwa [e, Nat.card_prod (Fin u → Str 32) ((Fin u → Table) × Equiv.Perm State), Nat.cast_mul, Nat.cast_mul,
    mul_div_mul_left _ _ hpos] at h

example := C187_random_functions [] (fun _ => ⟨List.replicate 32 0, rfl⟩) (fun r => r.1.take 1 = [0]) threeQuestions 1 2
  three_rounds three_blocks

/-- C187: the chance to name a string that is the key of any owner is at most that of a guess, `u / 2^256`, and that
difference. -/
theorem C187_key_guess {u : ℕ} (rand : Bytes) (D : Asker (ManyAsk u) (State ⊕ Py Bytes) (Str 32)) (p b : ℕ)
    (hp : D.CostLe ManyAsk.isRounds (fun _ => 0) p) (hb : D.CostLe ManyAsk.isBlock (fun _ => 0) b) :
    (Nat.card {w : (Fin u → Str 32) × Equiv.Perm State // ∃ i,
          D.run (manyAnswers rand (fun i => (w.1 i).1) w.2 fun _ => ChaCha.blockWith (asRounds w.2)) = w.1 i} : ℚ) /
        Nat.card ((Fin u → Str 32) × Equiv.Perm State) ≤
      (2 * p * b + u) / 2 ^ 256 + b * (b - 1) / 2 ^ 513 + u * (u - 1) / 2 ^ 257 := by
  classical
  have h := C187_keys_hidden rand (fun _ => ⟨List.replicate 32 0, rfl⟩) (fun k r => ∃ i : Fin u, r = k i) D p b hp hb
  have : Finite Table := inferInstance
  have := Fintype.ofFinite Table
  have : Nonempty Table := ⟨fun _ => ⟨List.replicate 64 0, by simp⟩⟩
  have : Nonempty (Str 32) := ⟨⟨List.replicate 32 0, by simp⟩⟩
  let Ω := (Fin u → Str 32) × (Fin u → Table) × Equiv.Perm State
  let r (z : (Fin u → Table) × Equiv.Perm State) : Str 32 :=
    D.run (manyAnswers rand (fun _ => List.replicate 32 0) z.2 fun i => look (z.1 i))
  have one (i : Fin u) : cnt (fun w : Ω => r w.2 = w.1 i) * 2 ^ 256 ≤ Nat.card Ω := by
    have := Core.share (fun w : Ω => r w.2 = w.1 i) (fun w a => (Function.update w.1 i a, w.2)) (fun w => w.1 i)
      (fun w a => Function.update_self ..) (by
        rintro ⟨k, z⟩ ⟨k', z'⟩ a hk hk' e
        obtain ⟨e1, e2⟩ := Prod.mk.inj e
        dsimp only at e1 e2 hk hk'
        subst e2
        rw [Core.update_eq e1 (hk.symm.trans hk')])
    rwa [Cpoly.card_str, show (256 ^ 32 : ℕ) = 2 ^ 256 by norm_num, ← Nat.card_eq_fintype_card] at this
  have all : cnt (fun w : Ω => ∃ i, r w.2 = w.1 i) * 2 ^ 256 ≤ u * Nat.card Ω := by
    have hx := Prf.cnt_exists (Finset.univ : Finset (Fin u)) fun i (w : Ω) => r w.2 = w.1 i
    simp only [Finset.mem_univ, true_and] at hx
    refine (Nat.mul_le_mul_right _ hx).trans ?_
    rw [Finset.sum_mul]
    refine (Finset.sum_le_card_nsmul _ _ _ fun i _ => one i).trans_eq ?_
    rw [smul_eq_mul, Finset.card_univ, Fintype.card_fin]
  have hpos : (0 : ℚ) < Nat.card Ω := Nat.cast_pos.mpr Nat.card_pos
  have g : (cnt (fun w : Ω => ∃ i, r w.2 = w.1 i) : ℚ) / Nat.card Ω ≤ u / 2 ^ 256 := by
    rw [div_le_div_iff₀ hpos (by positivity)]
    exact_mod_cast all
  have h' := (abs_le.mp h).2
  rw [sub_le_iff_le_add] at h'
  refine h'.trans ((add_le_add le_rfl g).trans_eq ?_)
  have sort (x y z t : ℚ) : x + y + z + t = x + t + y + z := by ring
  rw [add_div (2 * p * b : ℚ), sort]

example := C187_key_guess [] threeQuestions 1 2 three_rounds three_blocks

end Cryptopy
