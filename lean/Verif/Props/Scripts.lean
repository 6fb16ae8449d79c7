import Verif.Model.Scripts
import Verif.Props.GaloisField
import Verif.Props.Encoding
import Verif.Lemmas.EdwardsCert2
import Verif.Spec.Sha256
import Verif.Spec.Siv
import Mathlib.Data.Fintype.BigOperators

/-!
C155: the random test of the field elements, the loop test of the text encodings and the example scripts.
-/

namespace Cryptopy
open Model Spec

/-! ### Field elements -/

private theorem step_ok {p : Nat} (hp : p.Prime) (x : Nat) (hx : x < p) :
    (do
      let g ← gfpNew p (x : Int)
      let invx ← g.rdiv (.int 1)
      let r ← invx.rmul (.int (x : Int))
      let one ← gfpNew p 1
      if r.eq (.elem one) then .ok () else .error .assertion : Py Unit) =
    if x = 0 then .error .exception else .ok () := by
  obtain ⟨g, hg, gp, g0, g1, gv⟩ := C71_new p hp.one_le x
  have hgx : g.value = x := by
    have h := (ZMod.intCast_eq_intCast_iff _ _ _).mp gv
    rw [Int.ModEq, Int.emod_eq_of_lt g0 g1, Int.emod_eq_of_lt (by omega) (by omega)] at h
    exact h
  rw [hg]
  change (do
      let invx ← g.rdiv (.int 1)
      let r ← invx.rmul (.int (x : Int))
      let one ← gfpNew p 1
      if r.eq (.elem one) then .ok () else .error .assertion : Py Unit) = _
  by_cases h0 : x = 0
  · rw [if_pos h0, (C72_div_error p g gp (.int 1)).2 (Or.inr (by
      rw [hgx, h0]
      simp only [Nat.cast_zero, Int.gcd_zero_left, Int.natAbs_natCast]
      exact hp.one_lt.ne'))]
    rfl
  · have hco : Int.gcd g.value p = 1 := by
      rw [hgx, Int.gcd_natCast_natCast, Nat.gcd_comm]
      exact (hp.coprime_iff_not_dvd.mpr fun h => absurd (Nat.le_of_dvd (by omega) h) (by omega))
    obtain ⟨i, hi, ip, i0, i1, iv⟩ := C72_rdiv p hp.two_le g gp g0 (.int 1) hco
    obtain ⟨r, hr, rp, r0, r1, rv⟩ := (C71_ring p hp.one_le i ip (.int (x : Int))).2.2.2.2.2.1
    obtain ⟨o, ho, op, o0, o1, ov⟩ := C71_new p hp.one_le 1
    rw [if_neg h0, hi]
    change (do
      let r ← i.rmul (.int (x : Int))
      let one ← gfpNew p 1
      if r.eq (.elem one) then .ok () else .error .assertion : Py Unit) = _
    rw [hr]
    change (do
      let one ← gfpNew p 1
      if r.eq (.elem one) then .ok () else .error .assertion : Py Unit) = _
    rw [ho]
    change (if r.eq (.elem o) then .ok () else .error .assertion : Py Unit) = _
    rw [if_pos]
    rw [C73_eq_iff]
    change r.value = o.value
    have h : (r.value : ZMod p) = (o.value : ZMod p) := by
      rw [rv, ov]
      have h2 := (ZMod.intCast_eq_intCast_iff _ _ _).mpr iv
      rw [hgx] at h2
      push_cast [intOf] at h2 ⊢
      rw [mul_comm] at h2 ⊢
      first | exact h2 | (rw [mul_comm]; exact h2)
    have h3 := (ZMod.intCast_eq_intCast_iff _ _ _).mp h
    rwa [Int.ModEq, Int.emod_eq_of_lt r0 r1, Int.emod_eq_of_lt o0 o1] at h3

/-- C155: for every prime the loop of `test_misc` raises the exception of `inverse_mod` exactly if a zero is drawn, and
succeeds otherwise. -/
theorem C155_misc (p : Nat) (hp : p.Prime) (draws : List Nat) (h : ∀ x ∈ draws, x < p) :
    testMiscLoop p (draws.map fun x : Nat => (x : Int)) = if 0 ∈ draws then .error .exception else .ok () := by
  induction draws with
  | nil => rfl
  | cons x l ih =>
    have ih := ih fun y hy => h y (List.mem_cons_of_mem _ hy)
    rw [testMiscLoop] at ih ⊢
    rw [List.map_cons, show ∀ (f : Int → Py Unit) a l, List.forM (a :: l) f = (f a >>= fun _ => l.forM f) from
      fun _ _ _ => rfl, step_ok hp x (h x List.mem_cons_self)]
    by_cases h0 : x = 0
    · rw [if_pos h0, if_pos (h0 ▸ List.mem_cons_self)]
      rfl
    · rw [if_neg h0]
      change List.forM _ _ = _
      rw [ih]
      simp only [List.mem_cons, Ne.symm h0, false_or]

example : testMiscLoop 7 [1, 6, 3] = .ok () ∧ testMiscLoop 7 [1, 0, 3] = .error .exception := by decide +kernel

/-- C155: of the `p^100` draws that the test in the repository can make, with `p = 2^255 - 19`, exactly `(p-1)^100` let it
succeed. -/
theorem C155_misc_count :
    Nat.card {f : Fin 100 → Fin (2 ^ 255 - 19) //
      testMiscLoop (2 ^ 255 - 19) (List.ofFn fun i => ((f i).val : Int)) = .ok ()} = (2 ^ 255 - 20) ^ 100 := by
  have hp : Nat.Prime (2 ^ 255 - 19) := by
    have h := Curve25519_p_prime
    rwa [show Curve25519.p.toNat = 2 ^ 255 - 19 by decide +kernel] at h
  have hcast : ((2 ^ 255 - 19 : Nat) : Int) = 2 ^ 255 - 19 := by norm_num
  have hiff : ∀ f : Fin 100 → Fin (2 ^ 255 - 19),
      testMiscLoop (2 ^ 255 - 19) (List.ofFn fun i => ((f i).val : Int)) = .ok () ↔ ∀ i, (f i).val ≠ 0 := by
    intro f
    have h1 : (List.ofFn fun i => ((f i).val : Int)) = (List.ofFn fun i => (f i).val).map fun x : Nat => (x : Int) := by
      rw [List.map_ofFn]; rfl
    rw [h1, ← hcast, C155_misc _ hp _ (by
      intro x hx
      obtain ⟨i, rfl⟩ := (List.mem_ofFn' _ _).mp hx
      exact (f i).isLt)]
    have h2 : (0 ∈ List.ofFn fun i => (f i).val) ↔ ∃ i, (f i).val = 0 := by
      rw [List.mem_ofFn']; rfl
    constructor
    · intro h i hi
      rw [if_pos (h2.mpr ⟨i, hi⟩)] at h
      cases h
    · intro h
      rw [if_neg fun h' => by obtain ⟨i, hi⟩ := h2.mp h'; exact h i hi]
  have e : {f : Fin 100 → Fin (2 ^ 255 - 19) //
      testMiscLoop (2 ^ 255 - 19) (List.ofFn fun i => ((f i).val : Int)) = .ok ()} ≃
      (Fin 100 → {x : Fin (2 ^ 255 - 19) // x.val ≠ 0}) :=
    (Equiv.subtypeEquivRight hiff).trans (Equiv.subtypePiEquivPi (p := fun _ (x : Fin (2 ^ 255 - 19)) => x.val ≠ 0))
  have e2 : ∀ n : Nat, 0 < n → Nat.card {x : Fin n // x.val ≠ 0} = n - 1 := by
    intro n hn
    have : Nat.card {x : Fin n // x.val ≠ 0} = Nat.card (Fin (n - 1)) :=
      Nat.card_congr ⟨fun x => ⟨x.1.val - 1, by have := x.1.isLt; have := x.2; omega⟩,
        fun y => ⟨⟨y.val + 1, by have := y.isLt; omega⟩, by simp⟩,
        fun x => Subtype.ext (Fin.ext (by have := x.2; simp only; omega)), fun y => Fin.ext (by simp)⟩
    rw [this, Nat.card_eq_fintype_card, Fintype.card_fin]
  rw [Nat.card_congr e, Nat.card_pi, Finset.prod_const, Finset.card_univ, Fintype.card_fin, e2 _ (by norm_num)]
  rfl

/-! ### Text encodings -/

private theorem roundTrip {enc : Bytes → Option (Py (List Char))} {dec : List Char → Py Bytes} {s : Bytes}
    (h : ∃ t, enc s = some (.ok t) ∧ (dec t = .ok s ↔ Canonical s)) (hd : ∀ t e, enc s = some (.ok t) → dec t ≠ .error e)
    [Decidable (Canonical s)] :
    assertRoundTrip enc dec s = some (if Canonical s then .ok () else .error .assertion) := by
  obtain ⟨t, ht, hiff⟩ := h
  rw [assertRoundTrip, ht]
  change (match dec t with
    | .error e => some (Except.error e)
    | .ok r => some (if r = s then Except.ok () else Except.error PyErr.assertion)) = _
  cases hr : dec t with
  | error e => exact absurd hr (hd t e ht)
  | ok r =>
    change some (if r = s then _ else _) = _
    rw [hr] at hiff
    by_cases hc : Canonical s
    · have := hiff.mpr hc
      injection this with this
      rw [if_pos hc, if_pos this]
    · rw [if_neg hc, if_neg fun h : r = s => hc (hiff.mp (h ▸ rfl))]

private theorem decode_ok (A : List Char) (hA : A.Nodup) (h2 : 2 ≤ A.length) (s : Bytes) (t : List Char) (e : PyErr)
    (h : baseNEncode s A = some (.ok t)) : baseNDecode t A ≠ .error e := by
  have hmem : ∀ c ∈ t, c ∈ A := by
    by_cases hs : s = []
    · have : t = [] := by
        rw [hs, baseNEncode, baseNEncodeLoop] at h
        injection h with h
        injection h with h
        exact h.symm
      simp [this]
    · obtain ⟨t', h1, h2, -⟩ := C04_base_n_roundtrip A hA h2 s hs
      rw [h1] at h
      injection h with h
      injection h with h
      exact h ▸ h2
  obtain ⟨r, ds, hr, -⟩ := (C06_decode_positional A t none).2 hmem
  rw [hr]
  exact fun h => by cases h

/-- The text of a string from the value of the text. -/
private theorem encode_of (A : List Char) (hA : A.Nodup) (h2 : 2 ≤ A.length) (s : Bytes) (t : List Char)
    (ht : ∀ c ∈ t, c ∈ A) (h0 : t.dropWhile (· == A[0]'(by omega)) = t)
    (hv : baseNDecodeLoop A t 0 = .ok (stringToInt s)) : baseNEncode s A = some (.ok t) := by
  obtain ⟨r, hr, he⟩ := C07_encode_decode A hA h2 t ht
  rw [baseNDecode, hv] at hr
  have := C01_int_roundtrip _ _ _ hr
  rw [h0, baseNEncode, show stringToInt r = stringToInt s by omega] at he
  exact he

open Classical in
private theorem three (s : Bytes) :
    assertRoundTrip b27encode b27decode s = some (if Canonical s then .ok () else .error .assertion) ∧
    assertRoundTrip b85encode b85decode s = some (if Canonical s then .ok () else .error .assertion) ∧
    assertRoundTrip b94encode b94decode s = some (if Canonical s then .ok () else .error .assertion) := by
  obtain ⟨⟨n1, l1⟩, ⟨n2, l2⟩, ⟨n3, l3⟩⟩ := C07_alphabets
  obtain ⟨h1, h2, h3⟩ := C05_padto_ignored s none
  exact ⟨roundTrip h1 fun t e h => decode_ok _ n1 (by omega) s t e h, roundTrip h2 fun t e h => decode_ok _ n2 (by omega) s t e h,
    roundTrip h3 fun t e h => decode_ok _ n3 (by omega) s t e h⟩

/-- C155: the loop of `test_basic` succeeds for every list of numbers from 0 on, not only for those below 1000. -/
theorem C155_basic (l : List Nat) : testBasic (l.map fun i : Nat => (i : Int)) = some (.ok ()) := by
  induction l with
  | nil => rfl
  | cons i l ih =>
    obtain ⟨s, hs, hc, hv⟩ := (C03_int_to_string_contract i none).2.1 (by omega) (Or.inl rfl)
    obtain ⟨h1, h2, h3⟩ := three s
    rw [if_pos hc] at h1 h2 h3
    have hone : testBasicOne i = some (.ok ()) := by
      rw [testBasicOne, hs]
      change thenDo (some (if (stringToInt s : Int) = i then .ok () else .error .assertion)) _ = _
      rw [if_pos (C01_int_roundtrip i none s hs), h1, h2, h3]
      rfl
    rw [List.map_cons, testBasic, hone, ih]
    rfl

example : testBasic [0, 255, 256, 999] = some (.ok ()) := C155_basic [0, 255, 256, 999]
/-- A negative number is refused by `int_to_string`. -/
example : testBasic [5, -1] = some (.error .value) := by
  rw [testBasic, testBasic, show testBasicOne 5 = some (.ok ()) from (by
    have := C155_basic [5]
    rw [List.map_cons, testBasic] at this
    simpa [testBasic, thenDo, List.map_nil] using by
      revert this
      cases testBasicOne ((5 : Nat) : Int) with
      | none => exact fun h => by cases h
      | some r => cases r with
        | error e => exact fun h => by cases h
        | ok u => exact fun _ => rfl)]
  rfl

private theorem printed_ok (s : Bytes) :
    printed (b27encode s) = some (.ok ()) ∧ printed (b85encode s) = some (.ok ()) ∧
    printed (b94encode s) = some (.ok ()) := by
  obtain ⟨⟨t1, h1, -⟩, ⟨t2, h2, -⟩, ⟨t3, h3, -⟩⟩ := C05_padto_ignored s none
  rw [h1, h2, h3]
  exact ⟨rfl, rfl, rfl⟩

open Classical in
/-- C155: the script part of `cipher/encoding.py` succeeds exactly if the first 16 octets of the hash value are no string
with a leading zero octet; otherwise it ends with an AssertionError, although the encodings work as they should. -/
theorem C155_encoding_main (sha : Bytes → Bytes) :
    encodingMain sha = some (if Canonical ((sha serviceName).take 16) then .ok () else .error .assertion) := by
  obtain ⟨h1, h2, h3⟩ := three ((sha serviceName).take 16)
  obtain ⟨p1, p2, p3⟩ := printed_ok ((sha serviceName).take 16)
  obtain ⟨q1, q2, q3⟩ := printed_ok ((sha serviceName).take 6)
  have q3' : printed (baseNEncode ((sha serviceName).take 6) asciiPrintable) = some (.ok ()) := q3
  rw [encodingMain]
  simp only [h1, h2, h3, p1, p2, p3, q1, q2, q3']
  split
  · next hc =>
    obtain ⟨-, ⟨n2, l2⟩, -⟩ := C07_alphabets
    obtain ⟨r, hr, -, -⟩ := (C03_int_to_string_contract 0x108000000000000000080800200c417a none).2.1 (by norm_num) (Or.inl rfl)
    have hv := C01_int_roundtrip _ _ _ hr
    have he : b85encode r = some (.ok "4)+k&C#VzJ4br>0wv%Yp".toList) :=
      encode_of b85chars n2 (by omega) r _ (by decide +kernel)
        (show List.dropWhile (· == '0') _ = _ by decide +kernel) (by
        rw [show stringToInt r = 0x108000000000000000080800200c417a by omega]
        decide +kernel)
    simp only [thenDo, hr, he]
    rfl
  · rfl

/-- C155: a hash value with a leading zero octet. -/
example : encodingMain (fun _ => List.replicate 32 0) = some (.error .assertion) := by
  rw [C155_encoding_main, if_neg]
  simp [Canonical, List.replicate]

private theorem chain_ok (sha : Bytes → Bytes) (n : Nat) (name : Bytes) :
    ∃ ts, exampleChain sha n name = some (.ok ts) ∧ ts.length = n := by
  induction n generalizing name with
  | zero => exact ⟨[], rfl, rfl⟩
  | succ n ih =>
    obtain ⟨t, ht, -⟩ := (C05_padto_ignored ((sha name).take 16) none).1
    obtain ⟨ts, h1, h2⟩ := ih (textOctets t)
    refine ⟨t :: ts, ?_, by simp [h2]⟩
    rw [exampleChain, ht]
    change (exampleChain sha n (textOctets t)).map _ = _
    rw [h1]
    rfl

/-- C155: `example_encoding.py` prints its six texts under the same condition and otherwise ends with an AssertionError. -/
theorem C155_example (sha : Bytes → Bytes) :
    (Canonical ((sha serviceName).take 16) → ∃ ts, exampleEncoding sha = some (.ok ts) ∧ ts.length = 6) ∧
    (¬ Canonical ((sha serviceName).take 16) → exampleEncoding sha = some (.error .assertion)) := by
  classical
  obtain ⟨h1, -, -⟩ := three ((sha serviceName).take 16)
  obtain ⟨p1, p2, p3⟩ := printed_ok ((sha serviceName).take 16)
  obtain ⟨q1, q2, q3⟩ := printed_ok ((sha serviceName).take 6)
  obtain ⟨ts, c1, c2⟩ := chain_ok sha 6 serviceName
  constructor
  · intro hc
    refine ⟨ts, ?_, c2⟩
    rw [exampleEncoding]
    simp only [h1, p1, p2, p3, q1, q2, q3, if_pos hc, c1, thenDo]
  · intro hc
    rw [exampleEncoding]
    simp only [h1, p1, if_neg hc, thenDo]

/-- Both cases of `C155_example`: hash values of ones and of zeros. -/
example : (∃ ts, exampleEncoding (fun _ => List.replicate 32 1) = some (.ok ts) ∧ ts.length = 6) ∧
    exampleEncoding (fun _ => List.replicate 32 0) = some (.error .assertion) :=
  ⟨(C155_example _).1 (Or.inr ⟨1, List.replicate 15 1, rfl, by decide⟩),
    (C155_example _).2 (by simp [Canonical, List.replicate])⟩

/-- SHA-256 on octet strings. -/
def sha256Octets (s : Bytes) : Bytes := beBytes 32 (sha256 (beValue s) (8 * s.length))

private theorem chain_step {sha : Bytes → Bytes} {n : Nat} {name : Bytes} {t : List Char} {ts : List (List Char)}
    (ht : ∀ c ∈ t, c ∈ b27chars) (h0 : t.dropWhile (· == 'A') = t)
    (hv : baseNDecodeLoop b27chars t 0 = .ok (stringToInt ((sha name).take 16)))
    (hr : exampleChain sha n (textOctets t) = some (.ok ts)) : exampleChain sha (n + 1) name = some (.ok (t :: ts)) := by
  obtain ⟨⟨n1, l1⟩, -, -⟩ := C07_alphabets
  have he : b27encode ((sha name).take 16) = some (.ok t) := encode_of b27chars n1 (by omega) _ t ht h0 hv
  rw [exampleChain, he]
  change (exampleChain sha n (textOctets t)).map _ = _
  rw [hr]
  rfl

/-- C155: with SHA-256 both scripts succeed, and these are the six texts. -/
theorem C155_sha256 : encodingMain sha256Octets = some (.ok ()) ∧
    exampleEncoding sha256Octets = some (.ok (["JEQGFF4M7HBFQNH3CKYEQMMX666", "R6NKA86CMH2EDMTKQRKKBN9K3RG",
      "KBWE9WK7ZDBH8T7JWW4FDHB39C3", "XW9Z2GWP7MGDHBGBMA63XKYAXPT", "Q4RMK4FZT432RZ4QZA88YQ94M2E",
      "FCD3BG9WHBAZYW8JWK7FYEGN89Y"].map String.toList)) := by
  have hc : Canonical ((sha256Octets serviceName).take 16) :=
    Or.inr ⟨0x64, ((sha256Octets serviceName).take 16).tail, by decide +kernel, by decide⟩
  refine ⟨by rw [C155_encoding_main, if_pos hc], ?_⟩
  have hchain : exampleChain sha256Octets 6 serviceName = some (.ok (["JEQGFF4M7HBFQNH3CKYEQMMX666",
      "R6NKA86CMH2EDMTKQRKKBN9K3RG", "KBWE9WK7ZDBH8T7JWW4FDHB39C3", "XW9Z2GWP7MGDHBGBMA63XKYAXPT",
      "Q4RMK4FZT432RZ4QZA88YQ94M2E", "FCD3BG9WHBAZYW8JWK7FYEGN89Y"].map String.toList)) := by
    iterate 6
      refine chain_step (by decide +kernel) (by decide +kernel) (by decide +kernel) ?_
    rfl
  classical
  obtain ⟨h1, -, -⟩ := three ((sha256Octets serviceName).take 16)
  obtain ⟨p1, p2, p3⟩ := printed_ok ((sha256Octets serviceName).take 16)
  obtain ⟨q1, q2, q3⟩ := printed_ok ((sha256Octets serviceName).take 6)
  rw [exampleEncoding, h1, p1, p2, p3, q1, q2, q3, if_pos hc, hchain]
  rfl

end Cryptopy
