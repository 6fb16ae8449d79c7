import Verif.Lemmas.PrimeCert
import Mathlib.Tactic.NormNum.Prime

/-!
A Lucas (Pratt) certificate for the Poly1305 prime.
-/

namespace Cryptopy.Cert

theorem prime_3134801 : Nat.Prime 3134801 := by
  apply prime_of_lucas 22 _ 3 [2, 2, 2, 2, 5, 5, 17, 461] (by decide +kernel)
  simp only [List.mem_cons, List.not_mem_nil, or_false, forall_eq_or_imp, forall_eq]
  exact ⟨by norm_num, by norm_num, by norm_num, by norm_num, by norm_num, by norm_num, by norm_num, by norm_num⟩

theorem prime_37003 : Nat.Prime 37003 := by
  apply prime_of_lucas 16 _ 2 [2, 3, 7, 881] (by decide +kernel)
  simp only [List.mem_cons, List.not_mem_nil, or_false, forall_eq_or_imp, forall_eq]
  exact ⟨by norm_num, by norm_num, by norm_num, by norm_num⟩

theorem prime_221101 : Nat.Prime 221101 := by
  apply prime_of_lucas 18 _ 22 [2, 2, 3, 5, 5, 11, 67] (by decide +kernel)
  simp only [List.mem_cons, List.not_mem_nil, or_false, forall_eq_or_imp, forall_eq]
  exact ⟨by norm_num, by norm_num, by norm_num, by norm_num, by norm_num, by norm_num, by norm_num⟩

theorem prime_4889 : Nat.Prime 4889 := by
  apply prime_of_lucas 13 _ 3 [2, 2, 2, 13, 47] (by decide +kernel)
  simp only [List.mem_cons, List.not_mem_nil, or_false, forall_eq_or_imp, forall_eq]
  exact ⟨by norm_num, by norm_num, by norm_num, by norm_num, by norm_num⟩

theorem prime_4024685905107147541 : Nat.Prime 4024685905107147541 := by
  apply prime_of_lucas 62 _ 2 [2, 2, 3, 3, 5, 13, 43, 4889, 37003, 221101] (by decide +kernel)
  simp only [List.mem_cons, List.not_mem_nil, or_false, forall_eq_or_imp, forall_eq]
  exact ⟨by norm_num, by norm_num, by norm_num, by norm_num, by norm_num, by norm_num, by norm_num, prime_4889, prime_37003, prime_221101⟩

theorem prime_897064739519922787230182993783 : Nat.Prime 897064739519922787230182993783 := by
  apply prime_of_lucas 100 _ 5 [2, 73, 487, 3134801, 4024685905107147541] (by decide +kernel)
  simp only [List.mem_cons, List.not_mem_nil, or_false, forall_eq_or_imp, forall_eq]
  exact ⟨by norm_num, by norm_num, by norm_num, prime_3134801, prime_4024685905107147541⟩

theorem prime_19403 : Nat.Prime 19403 := by
  apply prime_of_lucas 15 _ 2 [2, 89, 109] (by decide +kernel)
  simp only [List.mem_cons, List.not_mem_nil, or_false, forall_eq_or_imp, forall_eq]
  exact ⟨by norm_num, by norm_num, by norm_num⟩

theorem prime_32985101 : Nat.Prime 32985101 := by
  apply prime_of_lucas 25 _ 2 [2, 2, 5, 5, 17, 19403] (by decide +kernel)
  simp only [List.mem_cons, List.not_mem_nil, or_false, forall_eq_or_imp, forall_eq]
  exact ⟨by norm_num, by norm_num, by norm_num, by norm_num, by norm_num, prime_19403⟩

theorem prime_p1305 : Nat.Prime 1361129467683753853853498429727072845819 := by
  apply prime_of_lucas 130 _ 2 [2, 23, 32985101, 897064739519922787230182993783] (by decide +kernel)
  simp only [List.mem_cons, List.not_mem_nil, or_false, forall_eq_or_imp, forall_eq]
  exact ⟨by norm_num, by norm_num, prime_32985101, prime_897064739519922787230182993783⟩


end Cryptopy.Cert
