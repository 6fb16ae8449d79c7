import Verif.Lemmas.Switch

/-!
The difference of two values of a random permutation of a group, and asking for a list of messages: used for C191.
-/

namespace Cryptopy.Prf
open Finset Function Spec

section
variable {B : Type} [Fintype B] [DecidableEq B] [AddCommGroup B]

omit [DecidableEq B] in
/-- A value of a permutation and the differences of its values have nothing to do with each other. -/
theorem perms_shift (G : B → Prop) (Q : B → Prop) (z a b : B) :
    cnt (fun π : Equiv.Perm B => G (π z) ∧ Q (π a - π b)) * Fintype.card B =
      cnt G * cnt fun π : Equiv.Perm B => Q (π a - π b) := by
  rw [cnt, cnt, cnt, ← Nat.card_eq_fintype_card, ← Nat.card_prod, ← Nat.card_prod]
  refine Nat.card_congr
    { toFun := fun p => (⟨p.1.1 z, p.1.2.1⟩, ⟨p.1.1.trans (Equiv.addRight p.2), by simpa using p.1.2.2⟩)
      invFun := fun p => (⟨p.2.1.trans (Equiv.addRight (p.1.1 - p.2.1 z)), by simpa using p.1.2, by simpa using p.2.2⟩,
        p.2.1 z - p.1.1)
      left_inv := ?_
      right_inv := ?_ }
  · rintro ⟨⟨π, h⟩, t⟩
    simp only [Prod.mk.injEq, Subtype.mk.injEq]
    refine ⟨Equiv.ext fun x => ?_, ?_⟩ <;> simp
  · rintro ⟨⟨c, hc⟩, ⟨π, h⟩⟩
    simp only [Prod.mk.injEq, Subtype.mk.injEq]
    refine ⟨by simp, Equiv.ext fun x => ?_⟩
    change π x + (c - π z) + (π z - c) = π x
    abel

/-- All differences other than zero are equally frequent. -/
theorem perms_difference (a b d : B) (hab : a ≠ b) (hd : d ≠ 0) :
    (Fintype.card B - 1) * cnt (fun π : Equiv.Perm B => π a - π b = d) = Fintype.card (Equiv.Perm B) := by
  classical
  rw [cnt_split (fun π : Equiv.Perm B => π a - π b = d) fun π => π a, mul_sum]
  have h0 : Fintype.card (Equiv.Perm B) = ∑ x, cnt fun π : Equiv.Perm B => Agrees [(a, x)] π := by
    rw [← cnt_true, cnt_split _ fun π : Equiv.Perm B => π a]
    exact sum_congr rfl fun x _ => cnt_congr fun π => by simp [Agrees]
  rw [h0]
  refine sum_congr rfl fun x _ => ?_
  have h1 := perms_cons [(a, x)] b (by simpa using hab.symm) fun _ => True
  simp only [and_true] at h1
  rw [h1]
  have hx : x - d ∉ [(a, x)].map Prod.snd := by simpa using hd
  have h2 : ∀ y ∈ left [(a, x)], cnt (fun π : Equiv.Perm B => Agrees [(b, y), (a, x)] π) =
      cnt fun π : Equiv.Perm B => Agrees [(b, x - d), (a, x)] π := fun y hy =>
    perms_same [(a, x)] b y (x - d) (by simpa [left] using hy) hx
  rw [sum_congr rfl h2, sum_const, smul_eq_mul]
  have h3 := card_left [(a, x)] (by simp)
  rw [List.length_singleton] at h3
  rw [← h3, Nat.add_sub_cancel]
  congr 1
  refine cnt_congr fun π => ?_
  simp only [Agrees, List.mem_cons, List.not_mem_nil, or_false, forall_eq_or_imp, forall_eq]
  constructor
  · rintro ⟨h, rfl⟩
    exact ⟨by rw [← h]; abel, rfl⟩
  · rintro ⟨h, rfl⟩
    exact ⟨by rw [h]; abel, rfl⟩

/-- How often the difference is in a set and another value has a property. -/
theorem perms_count (G : B → Prop) (S : Finset B) (z a b : B) (hab : a ≠ b) :
    (Fintype.card B - 1) * cnt (fun π : Equiv.Perm B => G (π z) ∧ π a - π b ∈ S) =
      (S.erase 0).card * cnt fun π : Equiv.Perm B => G (π z) := by
  classical
  have hS : (Fintype.card B - 1) * cnt (fun π : Equiv.Perm B => π a - π b ∈ S) =
      (S.erase 0).card * Fintype.card (Equiv.Perm B) := by
    rw [cnt_split (fun π : Equiv.Perm B => π a - π b ∈ S) fun π => π a - π b,
      ← sum_subset (subset_univ (S.erase 0)), mul_sum]
    · rw [← smul_eq_mul (S.erase 0).card, ← sum_const]
      refine sum_congr rfl fun d hd => ?_
      rw [← perms_difference a b d hab (ne_of_mem_erase hd)]
      congr 1
      exact cnt_congr fun π => ⟨fun h => h.2, fun h => ⟨h ▸ mem_of_mem_erase hd, h⟩⟩
    · intro d _ hd
      refine cnt_false ?_
      rintro π ⟨h, rfl⟩
      refine hd (mem_erase.mpr ⟨fun e => hab (π.injective (sub_eq_zero.mp e)), h⟩)
  have h1 := perms_shift G (· ∈ S) z a b
  have h2 := perms_shift G (fun _ => True) z a b
  simp only [and_true] at h2
  rw [cnt_true] at h2
  have hp : 0 < Fintype.card B := Fintype.card_pos_iff.mpr ⟨0⟩
  refine Nat.eq_of_mul_eq_mul_right hp ?_
  calc _ = (Fintype.card B - 1) * (cnt (fun π : Equiv.Perm B => G (π z) ∧ π a - π b ∈ S) * Fintype.card B) := by ring
    _ = cnt G * ((Fintype.card B - 1) * cnt fun π : Equiv.Perm B => π a - π b ∈ S) := by rw [h1]; ring
    _ = (S.erase 0).card * (cnt G * Fintype.card (Equiv.Perm B)) := by rw [hS]; ring
    _ = _ := by rw [← h2]; ring

end

end Cryptopy.Prf
