import Verif.Spec.P256
import Verif.Lemmas.Math.Pratt
import Mathlib.Tactic.NormNum.Prime

/-!
# The field order and the base point order of P-256 are prime

By Pratt certificates: a number is prime if some residue has order `n - 1`.
-/

namespace LCT.P256
open LCT.Spec LCT.Pratt

theorem prime_104471 : Nat.Prime 104471 :=
  prime_of_check _ 11 [2, 5, 31, 337] (by decide +kernel) (by
    simp only [List.forall_mem_cons]
    exact ⟨(by norm_num), (by norm_num), (by norm_num), (by norm_num), by simp⟩)

theorem prime_126241 : Nat.Prime 126241 :=
  prime_of_check _ 7 [2, 2, 2, 2, 2, 3, 5, 263] (by decide +kernel) (by
    simp only [List.forall_mem_cons]
    exact ⟨(by norm_num), (by norm_num), (by norm_num), (by norm_num), (by norm_num), (by norm_num), (by norm_num), (by norm_num), by simp⟩)

theorem prime_155317 : Nat.Prime 155317 :=
  prime_of_check _ 5 [2, 2, 3, 7, 43, 43] (by decide +kernel) (by
    simp only [List.forall_mem_cons]
    exact ⟨(by norm_num), (by norm_num), (by norm_num), (by norm_num), (by norm_num), (by norm_num), by simp⟩)

theorem prime_490463 : Nat.Prime 490463 :=
  prime_of_check _ 14 [2, 7, 53, 661] (by decide +kernel) (by
    simp only [List.forall_mem_cons]
    exact ⟨(by norm_num), (by norm_num), (by norm_num), (by norm_num), by simp⟩)

theorem prime_704251 : Nat.Prime 704251 :=
  prime_of_check _ 2 [2, 3, 3, 5, 5, 5, 313] (by decide +kernel) (by
    simp only [List.forall_mem_cons]
    exact ⟨(by norm_num), (by norm_num), (by norm_num), (by norm_num), (by norm_num), (by norm_num), (by norm_num), by simp⟩)

theorem prime_3969899 : Nat.Prime 3969899 :=
  prime_of_check _ 2 [2, 19, 104471] (by decide +kernel) (by
    simp only [List.forall_mem_cons]
    exact ⟨(by norm_num), (by norm_num), prime_104471, by simp⟩)

theorem prime_6700417 : Nat.Prime 6700417 :=
  prime_of_check _ 5 [2, 2, 2, 2, 2, 2, 2, 3, 17449] (by decide +kernel) (by
    simp only [List.forall_mem_cons]
    exact ⟨(by norm_num), (by norm_num), (by norm_num), (by norm_num), (by norm_num), (by norm_num), (by norm_num), (by norm_num), (by norm_num), by simp⟩)

theorem prime_9350987 : Nat.Prime 9350987 :=
  prime_of_check _ 2 [2, 17, 229, 1201] (by decide +kernel) (by
    simp only [List.forall_mem_cons]
    exact ⟨(by norm_num), (by norm_num), (by norm_num), (by norm_num), by simp⟩)

theorem prime_187019741 : Nat.Prime 187019741 :=
  prime_of_check _ 2 [2, 2, 5, 9350987] (by decide +kernel) (by
    simp only [List.forall_mem_cons]
    exact ⟨(by norm_num), (by norm_num), (by norm_num), prime_9350987, by simp⟩)

theorem prime_191039911 : Nat.Prime 191039911 :=
  prime_of_check _ 3 [2, 3, 5, 41, 155317] (by decide +kernel) (by
    simp only [List.forall_mem_cons]
    exact ⟨(by norm_num), (by norm_num), (by norm_num), (by norm_num), prime_155317, by simp⟩)

theorem prime_204061199 : Nat.Prime 204061199 :=
  prime_of_check _ 11 [2, 11, 23, 107, 3769] (by decide +kernel) (by
    simp only [List.forall_mem_cons]
    exact ⟨(by norm_num), (by norm_num), (by norm_num), (by norm_num), (by norm_num), by simp⟩)

theorem prime_311245691 : Nat.Prime 311245691 :=
  prime_of_check _ 2 [2, 5, 7, 17, 29, 29, 311] (by decide +kernel) (by
    simp only [List.forall_mem_cons]
    exact ⟨(by norm_num), (by norm_num), (by norm_num), (by norm_num), (by norm_num), (by norm_num), (by norm_num), by simp⟩)

theorem prime_622491383 : Nat.Prime 622491383 :=
  prime_of_check _ 5 [2, 311245691] (by decide +kernel) (by
    simp only [List.forall_mem_cons]
    exact ⟨(by norm_num), prime_311245691, by simp⟩)

theorem prime_34282281433 : Nat.Prime 34282281433 :=
  prime_of_check _ 17 [2, 2, 2, 3, 7, 204061199] (by decide +kernel) (by
    simp only [List.forall_mem_cons]
    exact ⟨(by norm_num), (by norm_num), (by norm_num), (by norm_num), (by norm_num), prime_204061199, by simp⟩)

theorem prime_66417393611 : Nat.Prime 66417393611 :=
  prime_of_check _ 6 [2, 5, 53, 173, 197, 3677] (by decide +kernel) (by
    simp only [List.forall_mem_cons]
    exact ⟨(by norm_num), (by norm_num), (by norm_num), (by norm_num), (by norm_num), (by norm_num), by simp⟩)

theorem prime_1002328039319 : Nat.Prime 1002328039319 :=
  prime_of_check _ 19 [2, 126241, 3969899] (by decide +kernel) (by
    simp only [List.forall_mem_cons]
    exact ⟨(by norm_num), prime_126241, prime_3969899, by simp⟩)

theorem prime_11290956913871 : Nat.Prime 11290956913871 :=
  prime_of_check _ 13 [2, 5, 17, 66417393611] (by decide +kernel) (by
    simp only [List.forall_mem_cons]
    exact ⟨(by norm_num), (by norm_num), (by norm_num), prime_66417393611, by simp⟩)

theorem prime_46076956964474543 : Nat.Prime 46076956964474543 :=
  prime_of_check _ 5 [2, 23, 18169, 78283, 704251] (by decide +kernel) (by
    simp only [List.forall_mem_cons]
    exact ⟨(by norm_num), (by norm_num), (by norm_num), (by norm_num), prime_704251, by simp⟩)

theorem prime_208150935158385979 : Nat.Prime 208150935158385979 :=
  prime_of_check _ 2 [2, 3, 11, 43, 127, 3023, 191039911] (by decide +kernel) (by
    simp only [List.forall_mem_cons]
    exact ⟨(by norm_num), (by norm_num), (by norm_num), (by norm_num), (by norm_num), (by norm_num), prime_191039911, by simp⟩)

theorem prime_2624747550333869278416773953 : Nat.Prime 2624747550333869278416773953 :=
  prime_of_check _ 7 [2, 2, 2, 2, 2, 2, 3, 3, 1297, 16879, 208150935158385979] (by decide +kernel) (by
    simp only [List.forall_mem_cons]
    exact ⟨(by norm_num), (by norm_num), (by norm_num), (by norm_num), (by norm_num), (by norm_num), (by norm_num), (by norm_num), (by norm_num), (by norm_num), prime_208150935158385979, by simp⟩)

theorem prime_774023187263532362759620327192479577272145303 : Nat.Prime 774023187263532362759620327192479577272145303 :=
  prime_of_check _ 3 [2, 3, 3, 2411, 34282281433, 11290956913871, 46076956964474543] (by decide +kernel) (by
    simp only [List.forall_mem_cons]
    exact ⟨(by norm_num), (by norm_num), (by norm_num), (by norm_num), prime_34282281433, prime_11290956913871, prime_46076956964474543, by simp⟩)

theorem prime_835945042244614951780389953367877943453916927241 : Nat.Prime 835945042244614951780389953367877943453916927241 :=
  prime_of_check _ 11 [2, 2, 2, 3, 3, 3, 5, 774023187263532362759620327192479577272145303] (by decide +kernel) (by
    simp only [List.forall_mem_cons]
    exact ⟨(by norm_num), (by norm_num), (by norm_num), (by norm_num), (by norm_num), (by norm_num), (by norm_num), prime_774023187263532362759620327192479577272145303, by simp⟩)

theorem prime_n : Nat.Prime P256.n :=
  prime_of_check _ 7 [2, 2, 2, 2, 3, 71, 131, 373, 3407, 17449, 38189, 187019741, 622491383, 1002328039319, 2624747550333869278416773953] (by decide +kernel) (by
    simp only [List.forall_mem_cons]
    exact ⟨(by norm_num), (by norm_num), (by norm_num), (by norm_num), (by norm_num), (by norm_num), (by norm_num), (by norm_num), (by norm_num), (by norm_num), (by norm_num), prime_187019741, prime_622491383, prime_1002328039319, prime_2624747550333869278416773953, by simp⟩)

theorem prime_p : Nat.Prime P256.p :=
  prime_of_check _ 6 [2, 3, 5, 5, 17, 257, 641, 1531, 65537, 490463, 6700417, 835945042244614951780389953367877943453916927241] (by decide +kernel) (by
    simp only [List.forall_mem_cons]
    exact ⟨(by norm_num), (by norm_num), (by norm_num), (by norm_num), (by norm_num), (by norm_num), (by norm_num), (by norm_num), (by norm_num), prime_490463, prime_6700417, prime_835945042244614951780389953367877943453916927241, by simp⟩)

end LCT.P256
