import Verif.Spec.Secp256k1
import Verif.Lemmas.Math.Pratt
import Mathlib.Tactic.NormNum.Prime

/-!
# The field order and the base point order of secp256k1 are prime

By Pratt certificates: a number is prime if some residue has order `n - 1`.
-/

namespace LCT.Secp256k1
open LCT.Spec LCT.Pratt

theorem prime_120233 : Nat.Prime 120233 :=
  prime_of_check _ 3 [2, 2, 2, 7, 19, 113] (by decide +kernel) (by
    simp only [List.forall_mem_cons]
    exact ⟨(by norm_num), (by norm_num), (by norm_num), (by norm_num), (by norm_num), (by norm_num), by simp⟩)

theorem prime_305873 : Nat.Prime 305873 :=
  prime_of_check _ 3 [2, 2, 2, 2, 7, 2731] (by decide +kernel) (by
    simp only [List.forall_mem_cons]
    exact ⟨(by norm_num), (by norm_num), (by norm_num), (by norm_num), (by norm_num), (by norm_num), by simp⟩)

theorem prime_1206781 : Nat.Prime 1206781 :=
  prime_of_check _ 10 [2, 2, 3, 5, 20113] (by decide +kernel) (by
    simp only [List.forall_mem_cons]
    exact ⟨(by norm_num), (by norm_num), (by norm_num), (by norm_num), (by norm_num), by simp⟩)

theorem prime_1627771 : Nat.Prime 1627771 :=
  prime_of_check _ 3 [2, 3, 5, 29, 1871] (by decide +kernel) (by
    simp only [List.forall_mem_cons]
    exact ⟨(by norm_num), (by norm_num), (by norm_num), (by norm_num), (by norm_num), by simp⟩)

theorem prime_4681609 : Nat.Prime 4681609 :=
  prime_of_check _ 23 [2, 2, 2, 3, 97, 2011] (by decide +kernel) (by
    simp only [List.forall_mem_cons]
    exact ⟨(by norm_num), (by norm_num), (by norm_num), (by norm_num), (by norm_num), (by norm_num), by simp⟩)

theorem prime_7240687 : Nat.Prime 7240687 :=
  prime_of_check _ 3 [2, 3, 1206781] (by decide +kernel) (by
    simp only [List.forall_mem_cons]
    exact ⟨(by norm_num), (by norm_num), prime_1206781, by simp⟩)

theorem prime_13331831 : Nat.Prime 13331831 :=
  prime_of_check _ 13 [2, 5, 971, 1373] (by decide +kernel) (by
    simp only [List.forall_mem_cons]
    exact ⟨(by norm_num), (by norm_num), (by norm_num), (by norm_num), by simp⟩)

theorem prime_44706919 : Nat.Prime 44706919 :=
  prime_of_check _ 6 [2, 3, 797, 9349] (by decide +kernel) (by
    simp only [List.forall_mem_cons]
    exact ⟨(by norm_num), (by norm_num), (by norm_num), (by norm_num), by simp⟩)

theorem prime_107590001 : Nat.Prime 107590001 :=
  prime_of_check _ 3 [2, 2, 2, 2, 5, 5, 5, 5, 7, 29, 53] (by decide +kernel) (by
    simp only [List.forall_mem_cons]
    exact ⟨(by norm_num), (by norm_num), (by norm_num), (by norm_num), (by norm_num), (by norm_num), (by norm_num), (by norm_num), (by norm_num), (by norm_num), (by norm_num), by simp⟩)

theorem prime_545358713 : Nat.Prime 545358713 :=
  prime_of_check _ 5 [2, 2, 2, 41, 59, 28181] (by decide +kernel) (by
    simp only [List.forall_mem_cons]
    exact ⟨(by norm_num), (by norm_num), (by norm_num), (by norm_num), (by norm_num), (by norm_num), by simp⟩)

theorem prime_297159362677 : Nat.Prime 297159362677 :=
  prime_of_check _ 2 [2, 2, 3, 3, 11, 461, 1627771] (by decide +kernel) (by
    simp only [List.forall_mem_cons]
    exact ⟨(by norm_num), (by norm_num), (by norm_num), (by norm_num), (by norm_num), (by norm_num), prime_1627771, by simp⟩)

theorem prime_107361793816595537 : Nat.Prime 107361793816595537 :=
  prime_of_check _ 3 [2, 2, 2, 2, 16699, 85831, 4681609] (by decide +kernel) (by
    simp only [List.forall_mem_cons]
    exact ⟨(by norm_num), (by norm_num), (by norm_num), (by norm_num), (by norm_num), (by norm_num), prime_4681609, by simp⟩)

theorem prime_173378833005251801 : Nat.Prime 173378833005251801 :=
  prime_of_check _ 6 [2, 2, 2, 5, 5, 2621, 24809, 13331831] (by decide +kernel) (by
    simp only [List.forall_mem_cons]
    exact ⟨(by norm_num), (by norm_num), (by norm_num), (by norm_num), (by norm_num), (by norm_num), (by norm_num), prime_13331831, by simp⟩)

theorem prime_174723607534414371449 : Nat.Prime 174723607534414371449 :=
  prime_of_check _ 3 [2, 2, 2, 17, 59, 4051, 120233, 44706919] (by decide +kernel) (by
    simp only [List.forall_mem_cons]
    exact ⟨(by norm_num), (by norm_num), (by norm_num), (by norm_num), (by norm_num), (by norm_num), prime_120233, prime_44706919, by simp⟩)

theorem prime_22149492674086928081353 : Nat.Prime 22149492674086928081353 :=
  prime_of_check _ 5 [2, 2, 2, 3, 5323, 173378833005251801] (by decide +kernel) (by
    simp only [List.forall_mem_cons]
    exact ⟨(by norm_num), (by norm_num), (by norm_num), (by norm_num), (by norm_num), prime_173378833005251801, by simp⟩)

theorem prime_132896956044521568488119 : Nat.Prime 132896956044521568488119 :=
  prime_of_check _ 6 [2, 3, 22149492674086928081353] (by decide +kernel) (by
    simp only [List.forall_mem_cons]
    exact ⟨(by norm_num), (by norm_num), prime_22149492674086928081353, by simp⟩)

theorem prime_29047611873442575647497758179 : Nat.Prime 29047611873442575647497758179 :=
  prime_of_check _ 2 [2, 293, 305873, 545358713, 297159362677] (by decide +kernel) (by
    simp only [List.forall_mem_cons]
    exact ⟨(by norm_num), (by norm_num), prime_305873, prime_545358713, prime_297159362677, by simp⟩)

theorem prime_341948486974166000522343609283189 : Nat.Prime 341948486974166000522343609283189 :=
  prime_of_check _ 2 [2, 2, 3, 3, 3, 109, 29047611873442575647497758179] (by decide +kernel) (by
    simp only [List.forall_mem_cons]
    exact ⟨(by norm_num), (by norm_num), (by norm_num), (by norm_num), (by norm_num), (by norm_num), prime_29047611873442575647497758179, by simp⟩)

theorem prime_255515944373312847190720520512484175977 : Nat.Prime 255515944373312847190720520512484175977 :=
  prime_of_check _ 3 [2, 2, 2, 7, 7, 11, 1627, 2657, 4423, 41201, 96557, 7240687, 107590001] (by decide +kernel) (by
    simp only [List.forall_mem_cons]
    exact ⟨(by norm_num), (by norm_num), (by norm_num), (by norm_num), (by norm_num), (by norm_num), (by norm_num), (by norm_num), (by norm_num), (by norm_num), (by norm_num), prime_7240687, prime_107590001, by simp⟩)

theorem prime_205115282021455665897114700593932402728804164701536103180137503955397371 : Nat.Prime 205115282021455665897114700593932402728804164701536103180137503955397371 :=
  prime_of_check _ 10 [2, 3, 5, 29, 29, 31, 7723, 132896956044521568488119, 255515944373312847190720520512484175977] (by decide +kernel) (by
    simp only [List.forall_mem_cons]
    exact ⟨(by norm_num), (by norm_num), (by norm_num), (by norm_num), (by norm_num), (by norm_num), (by norm_num), prime_132896956044521568488119, prime_255515944373312847190720520512484175977, by simp⟩)

theorem prime_n : Nat.Prime Secp256k1.n :=
  prime_of_check _ 7 [2, 2, 2, 2, 2, 2, 3, 149, 631, 107361793816595537, 174723607534414371449, 341948486974166000522343609283189] (by decide +kernel) (by
    simp only [List.forall_mem_cons]
    exact ⟨(by norm_num), (by norm_num), (by norm_num), (by norm_num), (by norm_num), (by norm_num), (by norm_num), (by norm_num), (by norm_num), prime_107361793816595537, prime_174723607534414371449, prime_341948486974166000522343609283189, by simp⟩)

theorem prime_p : Nat.Prime Secp256k1.p :=
  prime_of_check _ 3 [2, 3, 7, 13441, 205115282021455665897114700593932402728804164701536103180137503955397371] (by decide +kernel) (by
    simp only [List.forall_mem_cons]
    exact ⟨(by norm_num), (by norm_num), (by norm_num), (by norm_num), prime_205115282021455665897114700593932402728804164701536103180137503955397371, by simp⟩)

end LCT.Secp256k1
