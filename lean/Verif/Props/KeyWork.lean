import Verif.Lemmas.ChainWork
import Verif.Props.Hmac

/-!
C169: the iterations of `pbkdf2` can not be skipped.
-/

namespace Cryptopy
open Model (PrfLib dot11PassPhraseToPSK)
open Spec (Str Asker pbT pbU beBytes xorBytes)
open Chain (Table ask)

/-- A class of pseudorandom functions with the function `F` under one password. -/
def tablePrf (d : ℕ) (password : Bytes) (F : Bytes → Bytes) (other : Bytes → Bytes → Bytes) : PrfLib where
  digestSize := d
  prf p := if p = password then F else other p

private theorem first_block (d : ℕ) (hd : 0 < d) (password : Bytes) (F : Bytes → Bytes) (hF : ∀ x, (F x).length = d)
    (other : Bytes → Bytes → Bytes) (salt : Bytes) (c : ℕ) (hc : 1 ≤ c) (keySize : ℕ) (hp : password.length ≤ 63)
    (hk : d ≤ keySize) (hk' : keySize ≤ 10000) :
    ∃ key, Model.pbkdf2 true (tablePrf d password F other) password salt c keySize = .ok key ∧
      key.take d = pbT F salt 1 (c - 1) := by
  have hF' : (tablePrf d password F other).prf password = F := if_pos rfl
  refine ⟨_, C40_pbkdf2_rfc2898 (tablePrf d password F other) password salt c keySize hd (by rw [hF']; exact hF) hp
    (by omega) (by omega), ?_⟩
  rw [hF']
  change (Spec.pbkdf2 F d _ _ _).take d = _
  rw [Spec.pbkdf2, Int.toNat_natCast, List.take_take, Nat.min_eq_left hk]
  have e : (keySize + d - 1) / d = (keySize - 1) / d + 1 := by
    rw [show keySize + d - 1 = keySize - 1 + d by omega, Nat.add_div_right _ hd]
  have e2 : (max (c : ℤ) 1).toNat = c := by omega
  rw [e, e2, List.range_succ_eq_map, List.flatMap_cons, List.take_append_of_le_length (by rw [length_pbT F d hF]),
    List.take_of_length_le (by rw [length_pbT F d hF])]

/-- C169: put a random table in place of the pseudorandom function under the password.  Somebody who asks for less than `c`
of its values, each chosen depending on those before, and then names a key, names what `pbkdf2` returns for `c` iterations
with at most the given chance. -/
theorem C169_iterations_needed (n d : ℕ) (hd : 0 < d) (hn : d ≤ n) (password salt : Bytes) (hp : password.length ≤ 63)
    (hs : salt.length + 4 ≤ n) (other : Bytes → Bytes → Bytes) (c q keySize : ℕ) (hk : d ≤ keySize)
    (hk' : keySize ≤ 10000) (D : Asker Bytes Bytes Bytes) (hq : q < c) (hD : D.CostLe (fun _ => 1) (fun _ => 0) q) :
    256 ^ d * Nat.card {f : Table n d //
        Model.pbkdf2 true (tablePrf d password (ask f) other) password salt c keySize = .ok (D.run (ask f))} ≤
      (c * (c - 1) / 2 + (c - 1) * q + 1) * Nat.card (Table n d) := by
  obtain ⟨m, rfl⟩ : ∃ m, c = m + 1 := ⟨c - 1, by omega⟩
  rw [Nat.add_sub_cancel, Nat.mul_comm (m + 1) m]
  let E : Asker Bytes Bytes Bytes → Asker Bytes Bytes Bytes := fun D =>
    Asker.rec (motive := fun _ => Asker Bytes Bytes Bytes) (fun r => .done (r.take d)) (fun m _ ih => .ask m ih) D
  have hrun : ∀ (D : Asker Bytes Bytes Bytes) g, (E D).run g = (D.run g).take d := by
    intro D g
    induction D with
    | done r => rfl
    | ask v next ih => exact ih (g v)
  have hcost : ∀ (D : Asker Bytes Bytes Bytes) q, D.CostLe (fun _ => 1) (fun _ => 0) q →
      (E D).CostLe (fun _ => 1) (fun _ => 0) q := by
    intro D
    induction D with
    | done r => exact fun q h => h
    | ask v next ih => exact fun q h => ⟨h.1, fun t => ih t _ (h.2 t)⟩
  have hl : (salt ++ beBytes 4 1).length ≤ n := by
    rw [List.length_append, length_beBytes]
    exact hs
  have h := Chain.work hn salt 1 hl (E D) m q (by omega) (hcost D q hD)
  rw [Cpoly.card_str, ← Nat.card_eq_fintype_card] at h
  refine le_trans (Nat.mul_le_mul_left _ ?_) h
  refine Prf.cnt_mono (P := fun f : Table n d =>
    Model.pbkdf2 true (tablePrf d password (ask f) other) password salt (m + 1 : ℕ) keySize = .ok (D.run (ask f))) fun f hf => ?_
  obtain ⟨key, h1, h2⟩ := first_block d hd password (ask f) (Chain.length_ask f) other salt (m + 1) (by omega) keySize hp hk hk'
  rw [hrun, ← Except.ok.inj (h1.symm.trans hf), h2, Nat.add_sub_cancel]

/-- Somebody who asks for two values and names their sum twice, against three iterations. -/
example := C169_iterations_needed 30 20 (by norm_num) (by norm_num) [1, 2] [3] (by decide) (by decide) (fun _ _ => []) 3 2 32
  (by norm_num) (by norm_num)
  (.ask [3, 0, 0, 0, 1] fun u => .ask u fun w => .done (xorBytes u w ++ xorBytes u w)) (by norm_num)
  ⟨by norm_num, fun _ => ⟨le_refl 1, fun _ => Nat.zero_le _⟩⟩

/-- C169: for a pass phrase of the length that is asked for, with less than 4096 values of a random table with 20 octets
the pre-shared key of 802.11 is named with a chance of at most one in `2^135`. -/
theorem C169_psk (n : ℕ) (hn : 20 ≤ n) (passPhrase ssid : Bytes) (hp : 8 ≤ passPhrase.length ∧ passPhrase.length ≤ 63)
    (hs : ssid.length + 4 ≤ n) (other : Bytes → Bytes → Bytes) (D : Asker Bytes Bytes Bytes)
    (hD : D.CostLe (fun _ => 1) (fun _ => 0) 4095) :
    2 ^ 135 * Nat.card {f : Table n 20 //
        dot11PassPhraseToPSK true (tablePrf 20 passPhrase (ask f) other) passPhrase ssid = .ok (D.run (ask f))} ≤
      Nat.card (Table n 20) := by
  have h := C169_iterations_needed n 20 (by norm_num) hn passPhrase ssid hp.2 hs other 4096 4095 32 (by norm_num)
    (by norm_num) D (by norm_num) hD
  have e : ∀ f : Table n 20, dot11PassPhraseToPSK true (tablePrf 20 passPhrase (ask f) other) passPhrase ssid =
      Model.pbkdf2 true (tablePrf 20 passPhrase (ask f) other) passPhrase ssid (4096 : ℕ) (32 : ℕ) := fun f => by
    rw [dot11PassPhraseToPSK, if_pos ⟨by omega, by omega⟩]
    rfl
  simp only [e]
  have key : ∀ a b : ℕ, 256 ^ 20 * a ≤ (4096 * (4096 - 1) / 2 + (4096 - 1) * 4095 + 1) * b → 2 ^ 135 * a ≤ b := by
    intro a b h
    norm_num at h ⊢
    omega
  exact key _ _ h

/-- Somebody who names a fixed key. -/
example := C169_psk 40 (by norm_num) (List.replicate 8 97) [3] (by simp) (by decide) (fun _ _ => [])
  (.done (List.replicate 32 0)) (Nat.zero_le _)

/-- `k` more iterations from the value `u`, with the sum so far. -/
def climb : ℕ → Bytes → Bytes → Asker Bytes Bytes Bytes
  | 0, _, acc => .done acc
  | k + 1, u, acc => .ask u fun w => climb k w (xorBytes acc w)

/-- C169: with `c` values of the pseudorandom function the first block of the key is known, whatever the function is. -/
theorem C169_iterations_suffice (salt : Bytes) (c : ℕ) (hc : 1 ≤ c) :
    ∃ D : Asker Bytes Bytes Bytes, D.CostLe (fun _ => 1) (fun _ => 0) c ∧
      ∀ (d : ℕ) (_ : 0 < d) (password : Bytes) (_ : password.length ≤ 63) (F : Bytes → Bytes) (_ : ∀ x, (F x).length = d)
        (other : Bytes → Bytes → Bytes) (keySize : ℕ) (_ : d ≤ keySize) (_ : keySize ≤ 10000),
        ∃ key, Model.pbkdf2 true (tablePrf d password F other) password salt c keySize = .ok key ∧ key.take d = D.run F := by
  obtain ⟨m, rfl⟩ : ∃ m, c = m + 1 := ⟨c - 1, by omega⟩
  refine ⟨.ask (salt ++ beBytes 4 1) fun u => climb m u u, ⟨by omega, fun u => ?_⟩, ?_⟩
  · have h : ∀ (k : ℕ) (u acc : Bytes), (climb k u acc).CostLe (fun _ => 1) (fun _ => 0) k := by
      intro k
      induction k with
      | zero => exact fun _ _ => Nat.zero_le _
      | succ k ih => exact fun u acc => ⟨Nat.le_add_left 1 k, fun w => ih w _⟩
    exact h m u u
  · intro d hd password hp F hF other keySize hk hk'
    obtain ⟨key, h1, h2⟩ := first_block d hd password F hF other salt (m + 1) (by omega) keySize hp hk hk'
    refine ⟨key, h1, h2.trans ?_⟩
    have h : ∀ k j, (climb k (pbU F salt 1 j) (pbT F salt 1 j)).run F = pbT F salt 1 (j + k) := by
      intro k
      induction k with
      | zero => exact fun j => rfl
      | succ k ih =>
        intro j
        have := ih (j + 1)
        rw [show j + 1 + k = j + (k + 1) by omega] at this
        exact this
    have := h m 0
    rw [Nat.zero_add] at this
    rw [Nat.add_sub_cancel, ← this]
    rfl

/-- Three iterations. -/
example := C169_iterations_suffice [3] 3 (by norm_num)

end Cryptopy
