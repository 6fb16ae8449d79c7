import Verif.Model.Calls
import Verif.Props.SivFailures
import Verif.Props.Hmac

/-!
C178: which calls of the block cipher and of the keyed hash the functions make, and how many.
-/

namespace Cryptopy
open Model
open Spec

private theorem bind_error {ι α β : Type} {m : Calls ι α} {e : PyErr} (f : α → Calls ι β) (h : m.result = .error e) :
    m >>= f = ⟨m.calls, .error e⟩ := by
  show (match m.result with
    | .error e => (⟨m.calls, .error e⟩ : Calls ι β)
    | .ok a => ⟨m.calls ++ (f a).calls, (f a).result⟩) = _
  rw [h]

private theorem bind_ok {ι α β : Type} {m : Calls ι α} {a : α} (f : α → Calls ι β) (h : m.result = .ok a) :
    m >>= f = ⟨m.calls ++ (f a).calls, (f a).result⟩ := by
  show (match m.result with
    | .error e => (⟨m.calls, .error e⟩ : Calls ι β)
    | .ok a => ⟨m.calls ++ (f a).calls, (f a).result⟩) = _
  rw [h]

private theorem none_ok {ι α β : Type} {r : Py α} {a : α} (f : α → Calls ι β) (h : r = .ok a) :
    Calls.none r >>= f = f a := by
  subst h; rfl

private theorem none_error {ι α β : Type} {r : Py α} {e : PyErr} (f : α → Calls ι β) (h : r = .error e) :
    Calls.none r >>= f = ⟨[], .error e⟩ := by
  subst h; rfl

private theorem call_bind {ι α β : Type} (i : ι) (v : α) (f : α → Calls ι β) :
    Calls.call i v >>= f = ⟨i :: (f v).calls, (f v).result⟩ := rfl

/-! ### The results -/

private theorem subkeyCalls_spec (C : CipherLib) (key : Bytes) : (subkeyCalls C key).result = subkey C key ∧
    (∀ r, subkey C key = .ok r → (subkeyCalls C key).calls = [(key, List.replicate 16 0)]) := by
  rw [subkeyCalls, subkey]
  by_cases h1 : C.keyOk key = true
  swap
  · rw [if_neg h1, if_neg h1, none_error _ rfl]
    exact ⟨rfl, fun r h => nomatch h⟩
  rw [if_pos h1, if_pos h1, none_ok _ rfl]
  by_cases h2 : C.blockSize = 16
  swap
  · rw [if_neg h2, if_neg h2, none_error _ rfl]
    exact ⟨rfl, fun r h => nomatch h⟩
  rw [if_pos h2, if_pos h2, none_ok _ rfl, call_bind]
  dsimp only
  rw [h2]
  cases intToString (dblInt (stringToInt (C.enc key (List.replicate 16 0)))) none with
  | error e => exact ⟨rfl, fun r h => nomatch h⟩
  | ok s1 =>
    rw [none_ok _ rfl]
    cases intToString (dblInt (dblInt (stringToInt (C.enc key (List.replicate 16 0))))) none with
    | error e => exact ⟨rfl, fun r h => nomatch h⟩
    | ok s2 => exact ⟨rfl, fun r h => rfl⟩

private theorem cmacLoopCalls_spec (C : CipherLib) (key Mp : Bytes) (k : Nat) : ∀ (i : Nat) (x : Bytes),
    (cmacLoopCalls C key Mp i k x).result = cmacLoop C key Mp i k x ∧
    (∀ c ∈ (cmacLoopCalls C key Mp i k x).calls, c.1 = key) ∧
    (∀ r, cmacLoop C key Mp i k x = .ok r → (cmacLoopCalls C key Mp i k x).calls.length = k) := by
  induction k with
  | zero => intro i x; exact ⟨rfl, by simp [cmacLoopCalls, pure], fun _ _ => rfl⟩
  | succ k ih =>
    intro i x
    rw [cmacLoopCalls, cmacLoop]
    cases hx : Model.xor x ((Mp.drop (i * 16)).take 16) with
    | error e =>
      rw [none_error _ rfl]
      exact ⟨rfl, by simp, fun r h => nomatch h⟩
    | ok y =>
      rw [none_ok _ rfl, call_bind]
      dsimp only
      obtain ⟨i1, i2, i3⟩ := ih (i + 1) (C.enc key y)
      refine ⟨i1, ?_, fun r h => by rw [List.length_cons, i3 r h]⟩
      intro c hc
      rcases List.mem_cons.mp hc with h | h
      · rw [h]
      · exact i2 c h

/-- How often `aes_cmac` calls the cipher for a message of `n` octets: once for the subkeys and once for each block, an empty
message having one block. -/
def cmacCalls (n : Nat) : Nat := 1 + max 1 ((n + 15) / 16)

private theorem aesCmacCalls_spec (aes : CipherLib) (h : LawfulCipher aes) (key : Bytes) (hk : aes.keyOk key = true) (M : Bytes) :
    (aesCmacCalls aes key M).result = aesCmac aes aes key M ∧
    (∀ c ∈ (aesCmacCalls aes key M).calls, c.1 = key) ∧
    (∀ r, aesCmac aes aes key M = .ok r → (aesCmacCalls aes key M).calls.length = cmacCalls M.length) := by
  obtain ⟨s1, s2⟩ := subkeyCalls_spec aes key
  obtain ⟨k1, k2, hs, -⟩ := subkey_eq aes h key hk
  rw [aesCmacCalls, aesCmac]
  rw [if_pos hk, if_pos hk, none_ok _ rfl, if_pos h.blockSize, if_pos h.blockSize, none_ok _ rfl]
  rw [hs] at s1
  rw [bind_ok _ s1, s2 _ hs, hs]
  dsimp only
  have fin : ∀ mp : Py Bytes, (∀ Mp, mp = .ok Mp → Mp.length / 16 = max 1 ((M.length + 15) / 16)) →
      (Calls.none mp >>= fun Mp => cmacLoopCalls aes key Mp 0 (Mp.length / 16) (List.replicate 16 0)).result =
        (match mp with
          | .error e => .error e
          | .ok Mp => cmacLoop aes key Mp 0 (Mp.length / 16) (List.replicate 16 0) : Py Bytes) ∧
      (∀ c ∈ [(key, List.replicate 16 (0 : UInt8))] ++
        (Calls.none mp >>= fun Mp => cmacLoopCalls aes key Mp 0 (Mp.length / 16) (List.replicate 16 0)).calls, c.1 = key) ∧
      (∀ r, (match mp with
          | .error e => .error e
          | .ok Mp => cmacLoop aes key Mp 0 (Mp.length / 16) (List.replicate 16 0) : Py Bytes) = .ok r →
        ([(key, List.replicate 16 (0 : UInt8))] ++ (Calls.none mp >>= fun Mp =>
          cmacLoopCalls aes key Mp 0 (Mp.length / 16) (List.replicate 16 0)).calls).length = cmacCalls M.length) := by
    intro mp hl
    cases mp with
    | error e =>
      rw [none_error _ rfl]
      exact ⟨rfl, by simp, fun r h => nomatch h⟩
    | ok Mp =>
      rw [none_ok _ rfl]
      obtain ⟨c1, c2, c3⟩ := cmacLoopCalls_spec aes key Mp (Mp.length / 16) 0 (List.replicate 16 0)
      refine ⟨c1, ?_, ?_⟩
      · intro c hc
        rcases List.mem_append.mp hc with h | h
        · rw [List.mem_singleton.mp h]
        · exact c2 c h
      · intro r hr
        rw [List.length_append, c3 r hr, hl Mp rfl]
        rfl
  refine fin _ fun Mp hmp => ?_
  split at hmp
  · next hw =>
    rw [xor_eq] at hmp
    split at hmp
    · cases hmp
    · next y hy =>
      split at hy
      · next hl =>
        injection hy with hy
        injection hmp with hmp
        rw [← hmp, ← hy, List.length_append, length_xorBytes, ← hl, List.length_take, List.length_drop]
        omega
      · cases hy
  · next hw =>
    rw [xor_eq] at hmp
    split at hmp
    · cases hmp
    · next y hy =>
      split at hy
      · next hl =>
        injection hy with hy
        injection hmp with hmp
        rw [← hmp, ← hy, List.length_append, length_xorBytes, ← hl, List.length_take, pad_eq, length_pad10 _ (by
          rw [List.length_drop]; omega)]
        omega
      · cases hy

/-- C178: `aes_cmac(key, M)` calls the cipher with this key only; if it returns, it has called it once for the subkeys and once
for each block of `M`. -/
theorem C178_cmac (aes : CipherLib) (h : LawfulCipher aes) (key : Bytes) (hk : aes.keyOk key = true) (M : Bytes) :
    (aesCmacCalls aes key M).result = aesCmac aes aes key M ∧
    (∀ c ∈ (aesCmacCalls aes key M).calls, c.1 = key) ∧
    (∀ r, aesCmac aes aes key M = .ok r →
      (aesCmacCalls aes key M).calls.length = 1 + max 1 ((M.length + 15) / 16)) :=
  aesCmacCalls_spec aes h key hk M
example := C178_cmac (toyCipher 0x11) (toyCipher_lawful _) (List.replicate 16 1) (by decide +kernel) (List.replicate 20 7)
example : (aesCmacCalls (toyCipher 0x11) (List.replicate 16 1) []).calls.length = 2 := by decide +kernel

/-! ### S2V and SIV -/

private theorem s2vLoopCalls_spec (aes : CipherLib) (h : LawfulCipher aes) (key : Bytes) (hk : aes.keyOk key = true)
    (ads : List Bytes) : ∀ d : Bytes,
    (s2vLoopCalls aes key ads d).result = s2vLoop aes key ads d ∧
    (∀ c ∈ (s2vLoopCalls aes key ads d).calls, c.1 = key) ∧
    (∀ r, s2vLoop aes key ads d = .ok r →
      (s2vLoopCalls aes key ads d).calls.length = (ads.map fun s => cmacCalls s.length).sum) := by
  induction ads with
  | nil => intro d; exact ⟨rfl, by simp [s2vLoopCalls, pure], fun _ _ => rfl⟩
  | cons s rest ih =>
    intro d
    rw [s2vLoopCalls, s2vLoop]
    cases dbl d with
    | error e =>
      rw [none_error _ rfl]
      exact ⟨rfl, by simp, fun r h => nomatch h⟩
    | ok dd =>
      rw [none_ok _ rfl]
      obtain ⟨c1, c2, c3⟩ := aesCmacCalls_spec aes h key hk s
      cases hm : aesCmac aes aes key s with
      | error e =>
        rw [hm] at c1
        rw [bind_error _ c1]
        exact ⟨rfl, c2, fun r h => nomatch h⟩
      | ok m =>
        rw [hm] at c1
        rw [bind_ok _ c1]
        dsimp only
        cases Model.xor dd m with
        | error e =>
          rw [none_error _ rfl]
          exact ⟨rfl, by simpa using c2, fun r h => nomatch h⟩
        | ok d' =>
          rw [none_ok _ rfl]
          obtain ⟨i1, i2, i3⟩ := ih d'
          refine ⟨i1, ?_, ?_⟩
          · intro c hc
            rcases List.mem_append.mp hc with h | h
            · exact c2 c h
            · exact i2 c h
          · intro r hr
            rw [List.length_append, i3 r hr, c3 m hm, List.map_cons, List.sum_cons]

private theorem s2vCalls_spec (aes : CipherLib) (h : LawfulCipher aes) (key : Bytes) (hk : aes.keyOk key = true)
    (ads : List Bytes) (pt : Bytes) :
    (s2vCalls aes key (ads ++ [pt])).result = Model.s2v aes key (ads ++ [pt]) ∧
    (∀ c ∈ (s2vCalls aes key (ads ++ [pt])).calls, c.1 = key) ∧
    (∀ r, Model.s2v aes key (ads ++ [pt]) = .ok r → (s2vCalls aes key (ads ++ [pt])).calls.length =
      2 + (ads.map fun s => cmacCalls s.length).sum + cmacCalls pt.length) := by
  rw [s2vCalls, Model.s2v, List.getLast?_concat, List.dropLast_concat]
  dsimp only
  obtain ⟨c1, c2, c3⟩ := aesCmacCalls_spec aes h key hk (List.replicate 16 0)
  cases hd : aesCmac aes aes key (List.replicate 16 0) with
  | error e =>
    rw [hd] at c1
    rw [bind_error _ c1]
    exact ⟨rfl, c2, fun r h => nomatch h⟩
  | ok d0 =>
    rw [hd] at c1
    have c3 := c3 _ hd
    rw [bind_ok _ c1]
    dsimp only
    obtain ⟨l1, l2, l3⟩ := s2vLoopCalls_spec aes h key hk ads d0
    cases hl : s2vLoop aes key ads d0 with
    | error e =>
      rw [hl] at l1
      rw [bind_error _ l1]
      refine ⟨rfl, ?_, fun r h => nomatch h⟩
      intro c hc
      rcases List.mem_append.mp hc with h | h
      · exact c2 c h
      · exact l2 c h
    | ok d =>
      rw [hl] at l1
      have l3 := l3 _ hl
      rw [bind_ok _ l1]
      dsimp only
      have fin : ∀ t : Py Bytes, (∀ r, t = .ok r → cmacCalls r.length = cmacCalls pt.length) →
          (Calls.none t >>= fun t => aesCmacCalls aes key t).result =
            (match t with
              | .error e => .error e
              | .ok t => aesCmac aes aes key t : Py Bytes) ∧
          (∀ c ∈ (aesCmacCalls aes key (List.replicate 16 0)).calls ++ ((s2vLoopCalls aes key ads d0).calls ++
            (Calls.none t >>= fun t => aesCmacCalls aes key t).calls), c.1 = key) ∧
          (∀ r, (match t with
              | .error e => .error e
              | .ok t => aesCmac aes aes key t : Py Bytes) = .ok r →
            ((aesCmacCalls aes key (List.replicate 16 0)).calls ++ ((s2vLoopCalls aes key ads d0).calls ++
              (Calls.none t >>= fun t => aesCmacCalls aes key t).calls)).length =
                2 + (ads.map fun s => cmacCalls s.length).sum + cmacCalls pt.length) := by
        intro t ht
        cases t with
        | error e =>
          rw [none_error _ rfl]
          refine ⟨rfl, ?_, fun r h => nomatch h⟩
          intro c hc
          rcases List.mem_append.mp hc with h | h
          · exact c2 c h
          · exact l2 c (by simpa using h)
        | ok t =>
          rw [none_ok _ rfl]
          obtain ⟨t1, t2, t3⟩ := aesCmacCalls_spec aes h key hk t
          refine ⟨t1, ?_, ?_⟩
          · intro c hc
            rcases List.mem_append.mp hc with h | h
            · exact c2 c h
            rcases List.mem_append.mp h with h | h
            · exact l2 c h
            · exact t2 c h
          · intro r hr
            rw [List.length_append, List.length_append, t3 r hr, ht t rfl, l3, c3,
              show cmacCalls (List.replicate 16 (0 : UInt8)).length = 2 from rfl]
            omega
      refine fin _ fun t ht => ?_
      split at ht
      · next hw =>
        rw [xor_eq] at ht
        split at ht
        · cases ht
        · next y hy =>
          split at hy
          · next hl =>
            injection hy with hy
            injection ht with ht
            have e1 : (Py.sliceFrom pt (-16)).length = 16 := by
              simp only [Py.sliceFrom, Py.clampIdx, List.length_drop]
              rw [if_pos (by omega)]
              omega
            have e2 : (Py.sliceTo pt (-16)).length = pt.length - 16 := by
              simp only [Py.sliceTo, Py.clampIdx, List.length_take]
              rw [if_pos (by omega)]
              omega
            rw [← ht, ← hy, List.length_append, length_xorBytes, ← hl, e1, e2, min_self, Nat.sub_add_cancel hw]
          · cases hy
      · next hw =>
        split at ht
        · cases ht
        · next dd hdd =>
          rw [xor_eq] at ht
          split at ht
          · next hl =>
            injection ht with ht
            rw [← ht, length_xorBytes, hl, pad_eq, length_pad10 _ (by omega), cmacCalls, cmacCalls]
            omega
          · cases ht

private theorem sivStreamCalls_spec (aes : CipherLib) (key2 iv : Bytes) (k : Nat) : ∀ (i : Nat) (x : Bytes),
    (sivStreamCalls aes key2 iv i k x).result = sivStream aes key2 iv i k x ∧
    (∀ c ∈ (sivStreamCalls aes key2 iv i k x).calls, c.1 = key2) ∧
    (∀ r, sivStream aes key2 iv i k x = .ok r → (sivStreamCalls aes key2 iv i k x).calls.length = k) := by
  induction k with
  | zero => intro i x; exact ⟨rfl, by simp [sivStreamCalls, pure], fun _ _ => rfl⟩
  | succ k ih =>
    intro i x
    rw [sivStreamCalls, sivStream]
    cases sivCounterBlock iv i with
    | error e =>
      rw [none_error _ rfl]
      exact ⟨rfl, by simp, fun r h => nomatch h⟩
    | ok b =>
      rw [none_ok _ rfl, call_bind]
      dsimp only
      obtain ⟨i1, i2, i3⟩ := ih (i + 1) (x ++ aes.enc key2 b)
      refine ⟨i1, ?_, fun r h => by rw [List.length_cons, i3 r h]⟩
      intro c hc
      rcases List.mem_cons.mp hc with h | h
      · rw [h]
      · exact i2 c h

private theorem halves (k1 k2 : Bytes) (hl : k1.length = k2.length) :
    (k1 ++ k2).take ((k1 ++ k2).length / 2) = k1 ∧
    Py.sliceFrom (k1 ++ k2) (-(((k1 ++ k2).length / 2 : Nat) : Int)) = k2 := by
  have h2 : (k1 ++ k2).length / 2 = k1.length := by simp; omega
  constructor
  · rw [h2]; simp
  · rw [h2, Py.sliceFrom, Py.clampIdx]
    split
    · have : ((((k1 ++ k2).length : Nat) : Int) + -(k1.length : Int)).toNat = k1.length := by
        simp; omega
      rw [this]; simp
    · next hn =>
      have h0 : k1 = [] := List.length_eq_zero_iff.mp (by omega)
      have h0' : k2 = [] := List.length_eq_zero_iff.mp (by subst h0; simpa using hl.symm)
      subst h0; subst h0'; simp

/-- What SIV calls for these headers and a plaintext of `n` octets: `under1` calls with the first half of the key and `under2`
with the second. -/
structure SivCalls (k1 k2 : Bytes) (ads : List Bytes) (n : Nat) (under1 under2 : List (Bytes × Bytes)) : Prop where
  key1 : ∀ c ∈ under1, c.1 = k1
  key2 : ∀ c ∈ under2, c.1 = k2
  count1 : under1.length = 2 + (ads.map fun s => 1 + max 1 ((s.length + 15) / 16)).sum + (1 + max 1 ((n + 15) / 16))
  count2 : under2.length = (n + 15) / 16

/-- C178: `siv_encrypt` first makes all calls with the first half of the key and then all with the second; their numbers depend on
the lengths of the headers and of the plaintext only. -/
theorem C178_siv_encrypt (aes : CipherLib) (h : LawfulCipher aes) (k1 k2 : Bytes) (hl : k1.length = k2.length)
    (hk1 : aes.keyOk k1 = true) (hk2 : aes.keyOk k2 = true) (ads : List Bytes) (pt : Bytes)
    (hpt : (pt.length + 15) / 16 ≤ 2 ^ 63) (hs : ¬ ShortSubkey (aes.enc k1) ads pt.length) :
    (sivEncryptCalls aes (k1 ++ k2) pt ads).result = Model.sivEncrypt aes (k1 ++ k2) pt ads ∧
    ∃ under1 under2, (sivEncryptCalls aes (k1 ++ k2) pt ads).calls = under1 ++ under2 ∧
      SivCalls k1 k2 ads pt.length under1 under2 := by
  obtain ⟨e1, e2⟩ := halves k1 k2 hl
  obtain ⟨s1, s2, s3⟩ := s2vCalls_spec aes h k1 hk1 ads pt
  have hv := (s2v_exact aes h k1 hk1 ads pt).2 hs
  have hlen : (Spec.s2v (cmac (aes.enc k1)) (ads ++ [pt])).length = 16 := by
    cases ads ++ [pt] with
    | nil => exact length_cmacFrom aes h k1 _ _ _ _ (by simp)
    | cons S rest => exact length_cmacFrom aes h k1 _ _ _ _ (by simp)
  have s3 := s3 _ hv
  rw [sivEncryptCalls, Model.sivEncrypt]
  simp only [e1, e2]
  rw [hv] at s1
  rw [bind_ok _ s1, hv]
  dsimp only
  rw [if_pos hk2, if_pos hk2, none_ok _ rfl]
  obtain ⟨t1, t2, t3⟩ := sivStreamCalls_spec aes k2 (Spec.s2v (cmac (aes.enc k1)) (ads ++ [pt])) ((pt.length + 16 - 1) / 16) 0 []
  have hx := sivStream_eq aes k2 _ hlen ((pt.length + 16 - 1) / 16) 0 [] (by omega)
  have t3 := t3 _ hx
  rw [hx] at t1
  rw [bind_ok _ t1, hx]
  dsimp only
  refine ⟨?_, _, _, rfl, s2, ?_, s3, ?_⟩
  · cases Model.xor pt _ with
    | error e => rfl
    | ok ct => rfl
  · intro c hc
    rcases List.mem_append.mp hc with h | h
    · exact t2 c h
    · cases hz : Model.xor pt _ with
      | error e => rw [hz, none_error _ rfl] at h; cases h
      | ok ct => rw [hz, none_ok _ rfl] at h; cases h
  · rw [List.length_append, t3]
    cases Model.xor pt _ with
    | error e => rfl
    | ok ct => rfl
example := C178_siv_encrypt (toyCipher 0x11) (toyCipher_lawful _) (List.replicate 16 0) (List.replicate 16 1) rfl
  (by decide +kernel) (by decide +kernel) [[4]] [1, 2, 3] (by decide)
  (by rintro (h | ⟨_, h⟩) <;> revert h <;> decide +kernel)
example : (sivEncryptCalls (toyCipher 0x11) (List.replicate 16 0 ++ List.replicate 16 1) [1, 2, 3] [[4]]).calls.length = 7 := by
  decide +kernel

/-- C178: `siv_decrypt` makes the same numbers of calls, whether it accepts the ciphertext or not, in the other order. -/
theorem C178_siv_decrypt (aes : CipherLib) (h : LawfulCipher aes) (k1 k2 : Bytes) (hl : k1.length = k2.length)
    (hk1 : aes.keyOk k1 = true) (hk2 : aes.keyOk k2 = true) (ads : List Bytes) (c : Bytes) (hc16 : 16 ≤ c.length)
    (hc : (c.length + 15) / 16 ≤ 2 ^ 63) (hs : ¬ ShortSubkey (aes.enc k1) ads (c.length - 16)) :
    (sivDecryptCalls aes (k1 ++ k2) c ads).result = Model.sivDecrypt aes (k1 ++ k2) c ads ∧
    ∃ under1 under2, (sivDecryptCalls aes (k1 ++ k2) c ads).calls = under2 ++ under1 ∧
      SivCalls k1 k2 ads (c.length - 16) under1 under2 := by
  obtain ⟨e1, e2⟩ := halves k1 k2 hl
  rw [sivDecryptCalls, Model.sivDecrypt]
  simp only [e1, e2]
  rw [if_pos hk2, if_pos hk2, none_ok _ rfl]
  obtain ⟨t1, t2, t3⟩ := sivStreamCalls_spec aes k2 (c.take 16) (((c.drop 16).length + 16 - 1) / 16) 0 []
  have hx := sivStream_eq aes k2 (c.take 16) (by rw [List.length_take]; omega) (((c.drop 16).length + 16 - 1) / 16) 0 []
    (by rw [List.length_drop]; omega)
  have t3 := t3 _ hx
  rw [hx] at t1
  rw [bind_ok _ t1, hx]
  dsimp only
  set x := [] ++ (List.range' 0 (((c.drop 16).length + 16 - 1) / 16)).flatMap
      (fun i => aes.enc k2 (ofBits (sivQ (c.take 16) + BitVec.ofNat 128 i))) with hxd
  have hxl : (c.drop 16).length ≤ x.length := by
    rw [hxd, List.nil_append, List.length_flatMap, List.map_congr_left (g := fun _ => 16) fun i _ => h.length _ _ (by simp),
        List.map_const', List.sum_replicate, List.length_range', smul_eq_mul]
    omega
  have hlen : (c.drop 16).length = (x.take (c.drop 16).length).length := by rw [List.length_take]; omega
  have hpl : (xorBytes (c.drop 16) (x.take (c.drop 16).length)).length = c.length - 16 := by
    rw [length_xorBytes, ← hlen, Nat.min_self, List.length_drop]
  rw [xor_eq, if_pos hlen, none_ok _ rfl]
  dsimp only
  obtain ⟨s1, s2, s3⟩ := s2vCalls_spec aes h k1 hk1 ads (xorBytes (c.drop 16) (x.take (c.drop 16).length))
  have hv := (s2v_exact aes h k1 hk1 ads (xorBytes (c.drop 16) (x.take (c.drop 16).length))).2 (by rw [hpl]; exact hs)
  have s3 := s3 _ hv
  rw [hpl] at s3
  rw [hv] at s1
  rw [bind_ok _ s1, hv]
  dsimp only
  refine ⟨?_, _, _, rfl, ?_, t2, ?_, ?_⟩
  · split <;> rfl
  · intro d hd
    rcases List.mem_append.mp hd with h | h
    · exact s2 d h
    · split at h <;> cases h
  · rw [List.length_append, s3]
    split <;> rfl
  · rw [t3, List.length_drop]
    omega
example := C178_siv_decrypt (toyCipher 0x11) (toyCipher_lawful _) (List.replicate 16 0) (List.replicate 16 1) rfl
  (by decide +kernel) (by decide +kernel) [[4]] (List.replicate 19 2)
  (by decide) (by decide) (by rintro (h | ⟨_, h⟩) <;> revert h <;> decide +kernel)

/-- C178: the number of calls does not tell a ciphertext that is accepted from one that is rejected. -/
theorem C178_siv_decrypt_same (aes : CipherLib) (h : LawfulCipher aes) (k1 k2 : Bytes) (hl : k1.length = k2.length)
    (hk1 : aes.keyOk k1 = true) (hk2 : aes.keyOk k2 = true) (ads ads' : List Bytes) (c c' : Bytes) (hc16 : 16 ≤ c.length)
    (hc : (c.length + 15) / 16 ≤ 2 ^ 63) (hs : ¬ ShortSubkey (aes.enc k1) ads (c.length - 16))
    (hcc : c'.length = c.length) (haa : ads'.map List.length = ads.map List.length) :
    (sivDecryptCalls aes (k1 ++ k2) c' ads').calls.length = (sivDecryptCalls aes (k1 ++ k2) c ads).calls.length := by
  have hu : ∀ a : List Bytes, UsesK2 a (c.length - 16) ↔
      ((∃ n ∈ a.map List.length, n = 0 ∨ n % 16 ≠ 0) ∨ (16 ≤ c.length - 16 ∧ (c.length - 16) % 16 ≠ 0)) := by
    intro a
    rw [UsesK2]
    refine or_congr ⟨?_, ?_⟩ Iff.rfl
    · rintro ⟨s, h1, h2⟩
      refine ⟨s.length, List.mem_map_of_mem h1, h2.imp (fun h => by rw [h]; rfl) id⟩
    · rintro ⟨n, h1, h2⟩
      obtain ⟨s, h3, rfl⟩ := List.mem_map.mp h1
      exact ⟨s, h3, h2.imp List.length_eq_zero_iff.mp id⟩
  have hs' : ¬ ShortSubkey (aes.enc k1) ads' (c'.length - 16) := by
    rw [ShortSubkey, hcc, hu, haa, ← hu]
    exact hs
  obtain ⟨-, a, b, r1, r2⟩ := C178_siv_decrypt aes h k1 k2 hl hk1 hk2 ads c hc16 hc hs
  obtain ⟨-, a', b', r1', r2'⟩ := C178_siv_decrypt aes h k1 k2 hl hk1 hk2 ads' c' (by omega) (by omega) hs'
  have hm : ∀ a : List Bytes, (a.map fun s : Bytes => 1 + max 1 ((s.length + 15) / 16)) =
      (a.map List.length).map fun n => 1 + max 1 ((n + 15) / 16) := by
    intro a; rw [List.map_map]; rfl
  rw [r1, r1', List.length_append, List.length_append, r2.count1, r2.count2, r2'.count1, r2'.count2, hm, hm, haa, hcc]
example (c' : Bytes) (hc : c'.length = 19) := C178_siv_decrypt_same (toyCipher 0x11) (toyCipher_lawful _) (List.replicate 16 0) (List.replicate 16 1) rfl
  (by decide +kernel) (by decide +kernel) [[4]] [[5]]
  (List.replicate 19 2) c' (by decide) (by decide) (by rintro (h | ⟨_, h⟩) <;> revert h <;> decide +kernel) hc rfl

/-! ### pbkdf2 -/

private theorem pbkdf2InnerCalls_spec (prf : Bytes → Bytes) (d : Nat) (hF : ∀ x, (prf x).length = d) (k : Nat) :
    ∀ (U F : Bytes), F.length = d →
    (pbkdf2InnerCalls prf k U F).result = pbkdf2Inner prf k U F ∧
    (∃ r, pbkdf2Inner prf k U F = .ok r) ∧
    (pbkdf2InnerCalls prf k U F).calls = (List.range k).map fun j => prf^[j] U := by
  induction k with
  | zero => intro U F _; exact ⟨rfl, ⟨_, rfl⟩, rfl⟩
  | succ k ih =>
    intro U F hd
    rw [pbkdf2InnerCalls, pbkdf2Inner, call_bind]
    dsimp only
    rw [xor_eq, if_pos (by rw [hd, hF]), none_ok _ rfl]
    dsimp only
    obtain ⟨i1, i2, i3⟩ := ih (prf U) (xorBytes F (prf U)) (by rw [length_xorBytes, hd, hF, Nat.min_self])
    refine ⟨i1, i2, ?_⟩
    rw [i3, List.range_succ_eq_map, List.map_cons, List.map_map]
    rfl

/-- The calls for one block: twice with the first argument, then with each result but the last. -/
def blockCalls (prf : Bytes → Bytes) (S : Bytes) (iterations : Int) : List Bytes :=
  [S, S] ++ (List.range (iterations - 1).toNat).map fun j => prf^[j + 1] S

private theorem pbkdf2OuterCalls_spec (prf : Bytes → Bytes) (d : Nat) (hF : ∀ x, (prf x).length = d) (salt : Bytes)
    (iterations : Int) (k : Nat) : ∀ (block : Nat) (key : Bytes),
    (pbkdf2OuterCalls prf salt iterations block k key).result = pbkdf2Outer prf salt iterations block k key ∧
    (pbkdf2OuterCalls prf salt iterations block k key).calls =
      (List.range k).flatMap fun i => blockCalls prf (salt ++ packBE32 (block + i)) iterations := by
  induction k with
  | zero => intro block key; exact ⟨rfl, rfl⟩
  | succ k ih =>
    intro block key
    rw [pbkdf2OuterCalls, pbkdf2Outer, call_bind, call_bind]
    dsimp only
    obtain ⟨i1, ⟨r, i2⟩, i3⟩ := pbkdf2InnerCalls_spec prf d hF (iterations - 1).toNat (prf (salt ++ packBE32 block))
      (prf (salt ++ packBE32 block)) (hF _)
    rw [i2] at i1
    rw [bind_ok _ i1, i2]
    dsimp only
    obtain ⟨o1, o2⟩ := ih (block + 1) (key ++ r)
    refine ⟨o1, ?_⟩
    rw [i3, o2, List.range_succ_eq_map, List.flatMap_cons, List.flatMap_map, blockCalls]
    simp only [List.cons_append, List.nil_append, Nat.add_zero]
    congr 3
    have : (fun i => blockCalls prf (salt ++ packBE32 (block + 1 + i)) iterations) =
        fun i : Nat => blockCalls prf (salt ++ packBE32 (block + i.succ)) iterations := by
      funext i
      rw [show block + 1 + i = block + i.succ by omega]
    rw [this]

/-- C178: `pbkdf2` calls the keyed hash for each block twice with the salt and the number of the block, and then with each of the
results but the last one. -/
theorem C178_pbkdf2 (P : PrfLib) (password salt : Bytes) (iterations keySize : Int)
    (hd : 0 < P.digestSize) (hF : ∀ x, (P.prf password x).length = P.digestSize)
    (hp : password.length ≤ 63) (h0 : 0 ≤ keySize) (hk : keySize ≤ 10000) :
    (pbkdf2Calls true P password salt iterations keySize).result = Model.pbkdf2 true P password salt iterations keySize ∧
    (pbkdf2Calls true P password salt iterations keySize).calls =
      (List.range ((keySize.toNat + P.digestSize - 1) / P.digestSize)).flatMap fun i =>
        blockCalls (P.prf password) (salt ++ beBytes 4 (i + 1)) iterations := by
  have h1 : ¬ password.length > 63 := by omega
  have h2 : ¬ keySize > 10000 := by omega
  have h3 : ¬ P.digestSize = 0 := by omega
  rw [pbkdf2Calls, Model.pbkdf2, if_neg h1, if_neg h1, if_neg h2, if_neg h2, if_neg h3, if_neg h3, if_neg (by decide),
    if_neg (by decide)]
  have hN : (-((-keySize) / (P.digestSize : Int))).toNat = (keySize.toNat + P.digestSize - 1) / P.digestSize := by
    obtain ⟨k, rfl⟩ := Int.eq_ofNat_of_zero_le h0
    rw [Int.toNat_natCast, ceil_eq k _ hd]
  dsimp only
  rw [hN]
  obtain ⟨o1, o2⟩ := pbkdf2OuterCalls_spec (P.prf password) P.digestSize hF salt iterations
    ((keySize.toNat + P.digestSize - 1) / P.digestSize) 1 []
  cases hO : pbkdf2Outer (P.prf password) salt iterations 1 ((keySize.toNat + P.digestSize - 1) / P.digestSize) [] with
  | error e =>
    rw [hO] at o1
    rw [bind_error _ o1]
    refine ⟨rfl, ?_⟩
    simp only [o2, Nat.add_comm 1, packBE32_eq]
  | ok key =>
    rw [hO] at o1
    rw [bind_ok _ o1]
    refine ⟨rfl, ?_⟩
    simp only [o2, Nat.add_comm 1, packBE32_eq]
    exact List.append_nil _
example := C178_pbkdf2 ⟨2, fun p x => [UInt8.ofNat (p.length + x.length), 1]⟩ [1, 2] [3] 2 7 (by decide)
  (fun _ => rfl) (by decide) (by decide) (by decide)
example : (pbkdf2Calls true ⟨2, fun p x => [UInt8.ofNat (p.length + x.sum.toNat), 1]⟩ [1, 2] [3] 3 3).calls =
    [[3, 0, 0, 0, 1], [3, 0, 0, 0, 1], [6, 1], [9, 1], [3, 0, 0, 0, 2], [3, 0, 0, 0, 2], [7, 1], [10, 1]] := by decide +kernel

/-- C178: the number of the calls: one more for each block than the standard needs. -/
theorem C178_pbkdf2_count (P : PrfLib) (password salt : Bytes) (iterations keySize : Int)
    (hd : 0 < P.digestSize) (hF : ∀ x, (P.prf password x).length = P.digestSize)
    (hp : password.length ≤ 63) (h0 : 0 ≤ keySize) (hk : keySize ≤ 10000) :
    (pbkdf2Calls true P password salt iterations keySize).calls.length =
      (keySize.toNat + P.digestSize - 1) / P.digestSize * ((max iterations 1).toNat + 1) := by
  rw [(C178_pbkdf2 P password salt iterations keySize hd hF hp h0 hk).2, List.length_flatMap,
    List.map_congr_left (g := fun _ => (max iterations 1).toNat + 1) (fun i _ => by
      rw [blockCalls, List.length_append, List.length_map, List.length_range]
      simp only [List.length_cons, List.length_nil]
      omega), List.map_const', List.sum_replicate, List.length_range, smul_eq_mul]
example := C178_pbkdf2_count ⟨2, fun p x => [UInt8.ofNat (p.length + x.length), 1]⟩ [1, 2] [3] 2 7 (by decide)
  (fun _ => rfl) (by decide) (by decide) (by decide)

/-- C178: a pre-shared key of 802.11 takes 8194 calls of a keyed hash with 20 octets, whatever the pass phrase and the network. -/
theorem C178_psk (P : PrfLib) (passPhrase ssid : Bytes) (hd : P.digestSize = 20)
    (hF : ∀ x, (P.prf passPhrase x).length = 20) (h1 : 8 ≤ passPhrase.length) (h2 : passPhrase.length ≤ 63) :
    (dot11PassPhraseToPSKCalls true P passPhrase ssid).result = dot11PassPhraseToPSK true P passPhrase ssid ∧
    (dot11PassPhraseToPSKCalls true P passPhrase ssid).calls.length = 8194 := by
  rw [dot11PassPhraseToPSKCalls, dot11PassPhraseToPSK, if_pos (by omega), if_pos (by omega)]
  have hF' : ∀ x, (P.prf passPhrase x).length = P.digestSize := fun x => by rw [hF, hd]
  refine ⟨(C178_pbkdf2 P passPhrase ssid 4096 32 (by omega) hF' h2 (by decide) (by decide)).1, ?_⟩
  rw [C178_pbkdf2_count P passPhrase ssid 4096 32 (by omega) hF' h2 (by decide) (by decide), hd]
  decide
example := C178_psk ⟨20, fun p x => List.replicate 20 (UInt8.ofNat (p.length + x.length))⟩ (List.replicate 8 65) [3] rfl
  (fun _ => List.length_replicate) (by decide) (by decide)

/-! ### The PRF of 802.11 -/

private theorem prfLoopCalls_spec (mac : Bytes → Bytes → Bytes) (d : Nat) (hm : ∀ k x, (mac k x).length = d)
    (hd : 0 < d) (key A B : Bytes) (n : Nat) : ∀ (m i : Nat), m = 256 - i → i ≤ 256 → i ≤ n / d + 1 → ∀ R : Bytes,
    R.length = i * d →
    (prfLoopCalls (fun k m => .ok (mac k m)) key A B n i R).result = prfLoop (fun k m => .ok (mac k m)) key A B n i R ∧
    (prfLoopCalls (fun k m => .ok (mac k m)) key A B n i R).calls =
      (List.range' i (min 256 (n / d + 1) - i)).map fun j => A ++ [0x00] ++ B ++ [UInt8.ofNat j] := by
  intro m
  induction m with
  | zero =>
    intro i h1 h2 h3 R hR
    rw [prfLoopCalls, prfLoop]
    have : min 256 (n / d + 1) - i = 0 := by omega
    rw [this]
    split
    · rw [if_neg (by omega), if_neg (by omega)]
      exact ⟨rfl, rfl⟩
    · exact ⟨rfl, rfl⟩
  | succ m ih =>
    intro i h1 h2 h3 R hR
    rw [prfLoopCalls, prfLoop]
    by_cases hc : i = n / d + 1
    · have : ¬ ((R.length : Int) ≤ n) := by
        rw [hR, hc]
        have := Nat.lt_div_mul_add hd (a := n)
        rw [Nat.add_mul, Nat.one_mul]
        omega
      rw [if_neg this, if_neg this, show min 256 (n / d + 1) - i = 0 by omega]
      exact ⟨rfl, rfl⟩
    · have : (R.length : Int) ≤ n := by
        rw [hR]
        have := (Nat.le_div_iff_mul_le hd).mp (show i ≤ n / d by omega)
        omega
      rw [if_pos this, if_pos this, if_pos (by omega), if_pos (by omega)]
      dsimp only
      obtain ⟨i1, i2⟩ := ih (i + 1) (by omega) (by omega) (by omega)
        (R ++ mac key (A ++ [0x00] ++ B ++ [UInt8.ofNat i])) (by rw [List.length_append, hR, hm, Nat.add_mul, Nat.one_mul])
      refine ⟨i1, ?_⟩
      rw [i2, show min 256 (n / d + 1) - i = (min 256 (n / d + 1) - (i + 1)) + 1 by omega, List.range'_succ, List.map_cons]

/-- C178: `PRF` for `n` octets calls a keyed hash of `d` octets `n / d + 1` times, with the counters from 0 on: once more than
needed if `d` divides `n`.  If this is more than 256, it makes 256 calls before it raises `ValueError`. -/
theorem C178_prf (mac : Bytes → Bytes → Bytes) (d : Nat) (hm : ∀ k x, (mac k x).length = d) (hd : 0 < d)
    (key A B : Bytes) (n : Nat) :
    (prfDot11Calls (fun k m => .ok (mac k m)) key A B (8 * n)).result =
      prfDot11 (fun k m => .ok (mac k m)) key A B (8 * n) ∧
    (prfDot11Calls (fun k m => .ok (mac k m)) key A B (8 * n)).calls =
      (List.range (min 256 (n / d + 1))).map fun j => A ++ [0x00] ++ B ++ [UInt8.ofNat j] := by
  rw [prfDot11Calls, prfDot11]
  have e1 : (8 * (n : Int)) / 8 = n := by omega
  have e2 : ¬ ((8 * (n : Int)) % 8 ≠ 0) := by omega
  rw [e1, if_neg e2, if_neg e2]
  obtain ⟨l1, l2⟩ := prfLoopCalls_spec mac d hm hd key A B n 256 0 rfl (by omega) (Nat.zero_le _) [] (by simp)
  rw [Nat.sub_zero, ← List.range_eq_range'] at l2
  cases hO : prfLoop (fun k m => .ok (mac k m)) key A B n 0 [] with
  | error e =>
    rw [hO] at l1
    rw [bind_error _ l1]
    exact ⟨rfl, l2⟩
  | ok R =>
    rw [hO] at l1
    rw [bind_ok _ l1]
    exact ⟨rfl, by simpa [pure] using l2⟩
example := C178_prf (fun k m => List.replicate 20 (UInt8.ofNat (k.length + m.length))) 20 (fun _ _ => List.length_replicate)
  (by decide) [1] [2] [3] 40

end Cryptopy
