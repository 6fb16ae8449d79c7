import Verif.Lemmas.SivPrf

/-!
C164: with 129 headers or more, five equal headers can be replaced without a change of the synthetic IV.
-/

namespace Cryptopy
open Model (CipherLib aesCmac sivDecrypt)
open Spec Prf Gf S2vTags

/-- A list of headers in which one header is found five times: 120 other headers after the first time, then 4 other headers,
and then three times in a row. -/
def fiveTimes (pre a b post : List Bytes) (h : Bytes) : List Bytes :=
  pre ++ h :: (a ++ h :: (b ++ h :: h :: h :: post))

section
variable (F : Bytes → Blk)

/-- The chain. -/
private def foldS (t : Blk) (l : List Bytes) : Blk := l.foldl (fun D x => dblHom D + F x) t

private theorem foldS_add (t u : Blk) (l : List Bytes) : foldS F (t + u) l = foldS F t l + dblHom^[l.length] u := by
  induction l generalizing t u with
  | nil => rfl
  | cons a l ih =>
    change foldS F (dblHom (t + u) + F a) l = foldS F (dblHom t + F a) l + dblHom^[l.length + 1] u
    rw [map_add, show dblHom t + dblHom u + F a = dblHom t + F a + dblHom u by abel, ih]
    rfl

private theorem total_fold (l : List Bytes) : total F (l.reverse.map some) = foldS F 0 l := by
  induction l using List.reverseRecOn with
  | nil => rfl
  | append_singleton l a ih =>
    rw [List.reverse_concat, List.map_cons, total, ih, foldS, foldS, List.foldl_append, term, add_comm]
    rfl

private theorem mu_iterate (n : ℕ) (z : Blk) : mu (dblHom^[n] z) = AdjoinRoot.root gf128 ^ n * mu z := by
  induction n with
  | zero => rw [pow_zero, one_mul, Function.iterate_zero_apply]
  | succ n ih => rw [Function.iterate_succ_apply', mu_dbl, ih, pow_succ', mul_assoc]

private theorem root_eq (n : ℕ) (hn : n = 128) : AdjoinRoot.root gf128 ^ n + AdjoinRoot.root gf128 ^ 7 +
    AdjoinRoot.root gf128 ^ 2 + AdjoinRoot.root gf128 + 1 = 0 := by
  have h : gf128 = Polynomial.X ^ n + Polynomial.X ^ 7 + Polynomial.X ^ 2 + Polynomial.X + 1 := by
    unfold gf128
    rw [← hn]
    ring
  have h1 : AdjoinRoot.mk gf128 gf128 = 0 := AdjoinRoot.mk_self
  rw [← AdjoinRoot.mk_X, ← map_pow, ← map_pow, ← map_pow, ← map_one (AdjoinRoot.mk gf128), ← map_add, ← map_add,
    ← map_add, ← map_add, ← h, h1]

private theorem poly_zero (z : Blk) (n : ℕ) (hn : n = 128) :
    dblHom^[n] z + dblHom^[7] z + dblHom^[2] z + dblHom z + z = 0 := by
  apply mu_inj
  rw [map_add, map_add, map_add, map_add, mu_iterate, mu_iterate, mu_iterate, mu_dbl, map_zero]
  have := congrArg (· * mu z) (root_eq n hn)
  simp only [add_mul, one_mul, zero_mul] at this
  exact this

private theorem fold_five (pre a b post : List Bytes) (h h' : Bytes) (ha : a.length = 120) (hb : b.length = 4) (t : Blk) :
    foldS F t (fiveTimes pre a b post h') = foldS F t (fiveTimes pre a b post h) := by
  have app : ∀ (t : Blk) (l l' : List Bytes), foldS F t (l ++ l') = foldS F (foldS F t l) l' := fun t l l' =>
    List.foldl_append
  have cons : ∀ (t : Blk) (x : Bytes) (l : List Bytes), foldS F t (x :: l) = foldS F (dblHom t + F x) l := fun t x l => rfl
  obtain ⟨z, hz⟩ : ∃ z, F h' = F h + z := ⟨F h + F h', by rw [← add_assoc, Prf.add_self, zero_add]⟩
  rw [fiveTimes, fiveTimes, app, app]
  generalize foldS F t pre = X
  simp only [cons, app]
  have it : ∀ m n (x : Blk), dblHom^[m] (dblHom^[n] x) = dblHom^[m + n] x := fun m n x =>
    (Function.iterate_add_apply _ _ _ _).symm
  have s1 : foldS F (dblHom X + F h') a = foldS F (dblHom X + F h) a + dblHom^[120] z := by
    rw [hz, ← add_assoc, foldS_add, ha]
  rw [s1]
  generalize foldS F (dblHom X + F h) a = Y
  have s2 : foldS F (dblHom (Y + dblHom^[120] z) + F h') b =
      foldS F (dblHom Y + F h) b + (dblHom^[125] z + dblHom^[4] z) := by
    rw [hz, map_add, show dblHom Y + dblHom (dblHom^[120] z) + (F h + z) = dblHom Y + F h + (dblHom^[121] z + z) by
      rw [show dblHom (dblHom^[120] z) = dblHom^[121] z from it 1 120 z]; abel, foldS_add, hb]
    congr 1
    rw [iterate_map_add, it]
  rw [s2]
  generalize foldS F (dblHom Y + F h) b = W
  have d1 : dblHom (dblHom^[125] z + dblHom^[4] z) = dblHom^[126] z + dblHom^[5] z := by
    rw [map_add]
    exact congrArg₂ (· + ·) (it 1 125 z) (it 1 4 z)
  have d2 : dblHom (dblHom^[126] z + dblHom^[5] z + z) = dblHom^[127] z + dblHom^[6] z + dblHom z := by
    rw [map_add, map_add]
    exact congrArg₂ (· + ·) (congrArg₂ (· + ·) (it 1 126 z) (it 1 5 z)) rfl
  have d3 : dblHom (dblHom^[127] z + dblHom^[6] z + dblHom z + z) =
      dblHom^[128] z + dblHom^[7] z + dblHom^[2] z + dblHom z := by
    rw [map_add, map_add, map_add]
    exact congrArg₂ (· + ·) (congrArg₂ (· + ·) (congrArg₂ (· + ·) (it 1 127 z) (it 1 6 z)) (it 1 1 z)) rfl
  have e1 : dblHom (W + (dblHom^[125] z + dblHom^[4] z)) + F h' =
      dblHom W + F h + (dblHom^[126] z + dblHom^[5] z + z) := by
    rw [map_add, d1, hz]
    abel
  have e2 (V : Blk) : dblHom (V + (dblHom^[126] z + dblHom^[5] z + z)) + F h' =
      dblHom V + F h + (dblHom^[127] z + dblHom^[6] z + dblHom z + z) := by
    rw [map_add, d2, hz]
    abel
  have e3 (V : Blk) : dblHom (V + (dblHom^[127] z + dblHom^[6] z + dblHom z + z)) + F h' = dblHom V + F h := by
    rw [map_add, d3, hz]
    have h0 := poly_zero z 128 rfl
    generalize dblHom^[128] z + dblHom^[7] z + dblHom^[2] z + dblHom z = s at h0 ⊢
    rw [show dblHom V + s + (F h + z) = dblHom V + F h + (s + z) by abel, h0, add_zero]
  rw [e1, e2, e3]

private theorem locS_five (pre a b post : List Bytes) (h h' : Bytes) (ha : a.length = 120) (hb : b.length = 4) (pt : Bytes) :
    locS F (fiveTimes pre a b post h', pt) = locS F (fiveTimes pre a b post h, pt) := by
  have e : total F ((zeroBlock :: fiveTimes pre a b post h').reverse.map some) =
      total F ((zeroBlock :: fiveTimes pre a b post h).reverse.map some) := by
    rw [total_fold, total_fold]
    exact fold_five F pre a b post h h' ha hb _
  rw [locS, locS, powers, powers, front, front, back, back]
  by_cases hp : pt.length < 16
  · simp only [hp, if_true, total, e]
  · simp only [hp, if_false, e]

end

/-- C164: S2V of RFC 5297 itself, with any function in place of AES-CMAC, does not change if a header that is found five
times at these distances is replaced by another one. -/
theorem C164_rfc5297 (F : Bytes → Bytes) (hF : ∀ m, (F m).length = 16) (pre a b post : List Bytes) (h h' pt : Bytes)
    (ha : a.length = 120) (hb : b.length = 4) :
    Spec.s2v F (fiveTimes pre a b post h ++ [pt]) = Spec.s2v F (fiveTimes pre a b post h' ++ [pt]) := by
  have e : F = fun M => ofBlk (toBlk (F M)) := by
    funext M
    exact (ofBits_toBits (hF M)).symm
  rw [e, s2v_locS, s2v_locS, locS_five _ pre a b post h h' ha hb]
example : (List.replicate 120 ([] : Bytes)).length = 120 ∧ (List.replicate 4 ([] : Bytes)).length = 4 ∧
    fiveTimes [] (List.replicate 120 []) (List.replicate 4 []) [] [1] ≠
      fiveTimes [] (List.replicate 120 []) (List.replicate 4 []) [] [2] := by decide

/-- C164: and as `s2v` accepts any number of headers, neither does the outcome of `s2v`, `siv_encrypt` or `siv_decrypt`, for
every cipher, key and plaintext or ciphertext, if both or none of the two headers consist of whole blocks. -/
theorem C164_headers (aes : CipherLib) (hc : LawfulCipher aes) (key : Bytes) (pre a b post : List Bytes) (h h' : Bytes)
    (ha : a.length = 120) (hb : b.length = 4)
    (hw : (h.length ≠ 0 ∧ h.length % 16 = 0) ↔ (h'.length ≠ 0 ∧ h'.length % 16 = 0)) :
    (∀ pt, Model.s2v aes key (fiveTimes pre a b post h ++ [pt]) = Model.s2v aes key (fiveTimes pre a b post h' ++ [pt])) ∧
      (∀ pt, Model.sivEncrypt aes key pt (fiveTimes pre a b post h) =
        Model.sivEncrypt aes key pt (fiveTimes pre a b post h')) ∧
      ∀ c, sivDecrypt aes key c (fiveTimes pre a b post h) = sivDecrypt aes key c (fiveTimes pre a b post h') := by
  have key1 (key pt : Bytes) :
      Model.s2v aes key (fiveTimes pre a b post h ++ [pt]) = Model.s2v aes key (fiveTimes pre a b post h' ++ [pt]) := by
    by_cases hk : aes.keyOk key = true
    · have hF : ∀ M, aesCmac aes aes key M = if cmacErr (subErr (aes.enc key)) M then .error .assertion else
          .ok (ofBlk (toBlk (cmac (aes.enc key) M))) := fun M => by
        have e : ofBlk (toBlk (cmac (aes.enc key) M)) = cmac (aes.enc key) M :=
          ofBits_toBits (length_cmacFrom aes hc key _ _ _ _ (by simp))
        rw [e]
        exact cmac_err aes hc key M hk
      have herr : cmacErr (subErr (aes.enc key)) h = cmacErr (subErr (aes.enc key)) h' := by
        rw [cmacErr, cmacErr]
        exact if_congr hw rfl rfl
      rw [s2v_err aes key _ _ hF, s2v_err aes key _ _ hF, locS_five _ pre a b post h h' ha hb]
      have : boxErr (subErr (aes.enc key)) (fiveTimes pre a b post h, pt) =
          boxErr (subErr (aes.enc key)) (fiveTimes pre a b post h', pt) := by
        simp only [boxErr, fiveTimes, List.any_append, List.any_cons, herr]
      rw [this]
    · have bad (l : List Bytes) : Model.s2v aes key (l ++ [pt]) = .error .value := by
        rw [Model.s2v]
        simp only [List.getLast?_append, List.getLast?_singleton, Option.some_or]
        rw [aesCmac, if_neg hk]
      rw [bad, bad]
  refine ⟨key1 key, fun pt => ?_, fun c => ?_⟩
  · rw [Model.sivEncrypt, Model.sivEncrypt]
    simp only [key1]
  · rw [sivDecrypt, sivDecrypt]
    simp only [key1]
/-- 129 headers are enough. -/
example : (fiveTimes [] (List.replicate 120 []) (List.replicate 4 []) [] [1]).length = 129 ∧
    ((([1] : Bytes).length ≠ 0 ∧ ([1] : Bytes).length % 16 = 0) ↔
      (([2, 3] : Bytes).length ≠ 0 ∧ ([2, 3] : Bytes).length % 16 = 0)) := by
  refine ⟨?_, by decide⟩
  simp [fiveTimes]

end Cryptopy
