import Verif.Model.Hmac
import Verif.Spec.Hmac
import Verif.Lemmas.Siv

namespace Cryptopy
open Model Spec

/-- The key block the code works with: the hash of a long key is not extended to `B` octets. -/
def codeKey (H : Bytes → Bytes) (B : Nat) (key : Bytes) : Bytes :=
  if key.length ≤ B then key ++ List.replicate (B - key.length) 0 else H key

theorem map_xor_eq (k : Bytes) (c : UInt8) :
    k.map (· ^^^ c) = xorBytes k (List.replicate k.length c) := by
  induction k with
  | nil => rfl
  | cons a k ih =>
    simp only [List.map_cons, List.length_cons, List.replicate_succ, xorBytes, List.zipWith_cons_cons]
    rw [ih]; rfl

theorem hmac_setKey (h : HashLib) (o : Hmac) (key : Bytes) :
    ∃ out, o.setKey h key =
      (⟨(codeKey h.H h.rawBlockSize key).map (· ^^^ 0x36), out,
        some ((codeKey h.H h.rawBlockSize key).map (· ^^^ 0x36),
          (codeKey h.H h.rawBlockSize key).map (· ^^^ 0x5C))⟩, .ok ()) := by
  refine ⟨o.outer, ?_⟩
  unfold Hmac.setKey codeKey
  by_cases hk : key.length ≤ h.rawBlockSize
  · simp [hk, Nat.not_lt.mpr hk, Hmac.reset]
  · simp [hk, Nat.lt_of_not_le hk, Hmac.reset]

theorem packBE32_eq (n : Nat) : packBE32 n = beBytes 4 n := by
  simp [packBE32, beBytes]

theorem length_pbU (F : Bytes → Bytes) (d : Nat) (hF : ∀ x, (F x).length = d) (salt : Bytes)
    (i j : Nat) : (pbU F salt i j).length = d := by
  cases j <;> exact hF _

theorem length_pbT (F : Bytes → Bytes) (d : Nat) (hF : ∀ x, (F x).length = d) (salt : Bytes)
    (i n : Nat) : (pbT F salt i n).length = d := by
  induction n with
  | zero => exact length_pbU F d hF salt i 0
  | succ n ih => simp [pbT, length_xorBytes, ih, length_pbU F d hF]

theorem pbkdf2Inner_eq (F : Bytes → Bytes) (d : Nat) (hF : ∀ x, (F x).length = d) (salt : Bytes)
    (i k n : Nat) :
    pbkdf2Inner F k (pbU F salt i n) (pbT F salt i n) = .ok (pbT F salt i (n + k)) := by
  induction k generalizing n with
  | zero => rfl
  | succ k ih =>
    have h1 : Model.xor (pbT F salt i n) (F (pbU F salt i n)) = .ok (pbT F salt i (n + 1)) := by
      rw [xor_eq, if_pos]
      · rfl
      · rw [length_pbT F d hF, hF]
    have h2 := ih (n + 1)
    rw [show pbU F salt i (n + 1) = F (pbU F salt i n) from rfl] at h2
    simp only [pbkdf2Inner, h1]
    rw [h2]
    congr 2; omega

theorem pbkdf2Outer_eq (F : Bytes → Bytes) (d : Nat) (hF : ∀ x, (F x).length = d) (salt : Bytes)
    (it : Int) (k b : Nat) (acc : Bytes) :
    pbkdf2Outer F salt it (b + 1) k acc =
      .ok (acc ++ (List.range' b k).flatMap fun j => pbT F salt (j + 1) (it - 1).toNat) := by
  induction k generalizing b acc with
  | zero => simp [pbkdf2Outer]
  | succ k ih =>
    have h0 := pbkdf2Inner_eq F d hF salt (b + 1) (it - 1).toNat 0
    simp only [pbT, pbU, Nat.zero_add] at h0
    simp only [pbkdf2Outer, packBE32_eq, h0]
    rw [ih, List.range'_succ]
    simp

theorem ceil_eq (k d : Nat) (hd : 0 < d) : (-((-(k : Int)) / (d : Int))).toNat = (k + d - 1) / d := by
  have h1 : (-((-(k : Int)) / (d : Int))) = (((k + d - 1) / d : Nat) : Int) := by
    have hq := Nat.div_add_mod (k + d - 1) d
    have hr := Nat.mod_lt (k + d - 1) hd
    generalize (k + d - 1) / d = q at *
    generalize (k + d - 1) % d = r at *
    have hq' : (d : Int) * q + r = k + d - 1 := by
      have : ((d * q + r : Nat) : Int) = ((k + d - 1 : Nat) : Int) := by rw [hq]
      push_cast at this
      omega
    have : (-(k : Int)) / (d : Int) = -(q : Int) := by
      rw [Int.ediv_eq_iff_of_pos (by exact_mod_cast hd)]
      constructor
      · nlinarith
      · nlinarith
    omega
  rw [h1]; rfl

theorem length_flatMap_const {α : Type} (l : List α) (f : α → Bytes) (d : Nat)
    (h : ∀ a, (f a).length = d) : (l.flatMap f).length = d * l.length := by
  induction l with
  | nil => rfl
  | cons a l ih => simp [ih, h, Nat.mul_add]; omega

theorem le_ceil_mul (k d : Nat) (hd : 0 < d) : k ≤ d * ((k + d - 1) / d) := by
  have hq := Nat.div_add_mod (k + d - 1) d
  have hr := Nat.mod_lt (k + d - 1) hd
  omega

theorem length_specPbkdf2 (F : Bytes → Bytes) (d : Nat) (hd : 0 < d) (hF : ∀ x, (F x).length = d)
    (salt : Bytes) (c k : Nat) : (Spec.pbkdf2 F d salt c k).length = k := by
  unfold Spec.pbkdf2
  rw [List.length_take, length_flatMap_const _ _ d (fun a => length_pbT F d hF _ _ _),
    List.length_range]
  exact Nat.min_eq_left (le_ceil_mul k d hd)

theorem sliceTo_nat (s : Bytes) (k : Nat) : Py.sliceTo s (k : Int) = s.take k := by
  have : ¬ (k : Int) < 0 := by omega
  simp [Py.sliceTo, Py.clampIdx, this]

theorem sliceTo_nil (k : Int) : Py.sliceTo ([] : Bytes) k = [] := by
  simp [Py.sliceTo]

theorem pbkdf2_eq (P : PrfLib) (hd : 0 < P.digestSize)
    (password : Bytes) (hF : ∀ x, (P.prf password x).length = P.digestSize)
    (salt : Bytes) (it : Int) (k : Nat) (hp : password.length ≤ 63) (hk : k ≤ 10000) :
    Model.pbkdf2 true P password salt it k =
      .ok (Spec.pbkdf2 (P.prf password) P.digestSize salt (max it 1).toNat k) := by
  have h1 : ¬ password.length > 63 := by omega
  have h2 : ¬ (k : Int) > 10000 := by omega
  have h3 : ¬ P.digestSize = 0 := by omega
  have h4 := pbkdf2Outer_eq (P.prf password) P.digestSize hF salt it
    ((k + P.digestSize - 1) / P.digestSize) 0 []
  have h5 : (it - 1).toNat = (max it 1).toNat - 1 := by omega
  simp only [Model.pbkdf2, h1, h2, h3, if_false, ceil_eq k _ hd, Bool.not_true, Bool.false_eq_true]
  rw [Nat.zero_add] at h4
  rw [h4]
  simp only [List.nil_append, sliceTo_nat, Spec.pbkdf2, h5, List.range_eq_range']

/-- The first `n` blocks of the PRF. -/
def prfBlocks (mac : Bytes → Bytes → Bytes) (key A B : Bytes) (n : Nat) : Bytes :=
  (List.range n).flatMap fun i => mac key (A ++ [0] ++ B ++ [UInt8.ofNat i])

theorem prfLoop_eq (mac : Bytes → Bytes → Bytes) (hm : ∀ k x, (mac k x).length = 20)
    (key A B : Bytes) (n i : Nat) (hi : i ≤ n / 20 + 1) (hi' : i ≤ 256) :
    prfLoop (fun k m => .ok (mac k m)) key A B n i (prfBlocks mac key A B i) =
      if n < 5120 then .ok (prfBlocks mac key A B (n / 20 + 1)) else .error .value := by
  have hlen : (prfBlocks mac key A B i).length = 20 * i := by
    unfold prfBlocks
    rw [length_flatMap_const _ _ 20 (fun a => hm _ _), List.length_range]
  obtain ⟨m, hmeq⟩ : ∃ m, m = 256 - i := ⟨_, rfl⟩
  induction m generalizing i with
  | zero =>
    have : i = 256 := by omega
    subst this
    unfold prfLoop
    rw [hlen]
    by_cases hn : (5120 : Nat) ≤ n
    · rw [if_pos (by omega), if_neg (by omega), if_neg (by omega)]
    · rw [if_neg (by omega), if_pos (by omega)]
      congr 2; omega
  | succ m ih =>
    unfold prfLoop
    rw [hlen]
    by_cases hn : 20 * i ≤ n
    · rw [if_pos (by omega), if_pos (by omega)]
      have hstep : prfBlocks mac key A B i ++ mac key (A ++ [0] ++ B ++ [UInt8.ofNat i]) =
          prfBlocks mac key A B (i + 1) := by
        simp [prfBlocks, List.range_succ]
      simp only [hstep]
      refine ih (i + 1) (by omega) (by omega) ?_ (by omega)
      rw [← hstep, List.length_append, hlen, hm]; omega
    · rw [if_neg (by omega), if_pos (by omega)]
      congr 2; omega

theorem prfDot11_eq (mac : Bytes → Bytes → Bytes) (hm : ∀ k x, (mac k x).length = 20)
    (key A B : Bytes) (n : Nat) :
    prfDot11 (fun k m => .ok (mac k m)) key A B (8 * n) =
      if n < 5120 then .ok (prf80211 mac key A B n) else .error .value := by
  have h1 : (8 * (n : Int)) / 8 = n := by omega
  have h2 : (8 * (n : Int)) % 8 = 0 := by omega
  have h3 := prfLoop_eq mac hm key A B n 0 (by omega) (by omega)
  simp only [prfDot11, h1, h2, ne_eq, not_true_eq_false, if_false]
  rw [show prfBlocks mac key A B 0 = [] from rfl] at h3
  rw [h3]
  by_cases hn : n < 5120
  · simp [hn, sliceTo_nat, prf80211, prfBlocks]
  · simp [hn]

theorem length_prf80211 (mac : Bytes → Bytes → Bytes) (hm : ∀ k x, (mac k x).length = 20)
    (key A B : Bytes) (n : Nat) : (prf80211 mac key A B n).length = n := by
  unfold prf80211
  rw [List.length_take, length_flatMap_const _ _ 20 (fun a => hm _ _), List.length_range]
  omega

end Cryptopy
