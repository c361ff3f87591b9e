import Verif.Spec.W25519
import Verif.Lemmas.Math.Pratt
import Mathlib.Tactic.NormNum.Prime

/-!
# The field order and the base point order of Curve25519 are prime

By Pratt certificates: a number is prime if some residue has order `n - 1`.
-/

namespace LCT.W25519
open LCT.Spec LCT.Pratt

theorem prime_132049 : Nat.Prime 132049 :=
  prime_of_check _ 26 [2, 2, 2, 2, 3, 3, 7, 131] (by decide +kernel) (by
    simp only [List.forall_mem_cons]
    exact ⟨(by norm_num), (by norm_num), (by norm_num), (by norm_num), (by norm_num), (by norm_num), (by norm_num), (by norm_num), by simp⟩)

theorem prime_132667 : Nat.Prime 132667 :=
  prime_of_check _ 5 [2, 3, 22111] (by decide +kernel) (by
    simp only [List.forall_mem_cons]
    exact ⟨(by norm_num), (by norm_num), (by norm_num), by simp⟩)

theorem prime_137849 : Nat.Prime 137849 :=
  prime_of_check _ 3 [2, 2, 2, 17231] (by decide +kernel) (by
    simp only [List.forall_mem_cons]
    exact ⟨(by norm_num), (by norm_num), (by norm_num), (by norm_num), by simp⟩)

theorem prime_409477 : Nat.Prime 409477 :=
  prime_of_check _ 2 [2, 2, 3, 34123] (by decide +kernel) (by
    simp only [List.forall_mem_cons]
    exact ⟨(by norm_num), (by norm_num), (by norm_num), (by norm_num), by simp⟩)

theorem prime_430751 : Nat.Prime 430751 :=
  prime_of_check _ 17 [2, 5, 5, 5, 1723] (by decide +kernel) (by
    simp only [List.forall_mem_cons]
    exact ⟨(by norm_num), (by norm_num), (by norm_num), (by norm_num), (by norm_num), by simp⟩)

theorem prime_531581 : Nat.Prime 531581 :=
  prime_of_check _ 2 [2, 2, 5, 7, 3797] (by decide +kernel) (by
    simp only [List.forall_mem_cons]
    exact ⟨(by norm_num), (by norm_num), (by norm_num), (by norm_num), (by norm_num), by simp⟩)

theorem prime_569003 : Nat.Prime 569003 :=
  prime_of_check _ 2 [2, 7, 97, 419] (by decide +kernel) (by
    simp only [List.forall_mem_cons]
    exact ⟨(by norm_num), (by norm_num), (by norm_num), (by norm_num), by simp⟩)

theorem prime_1224481 : Nat.Prime 1224481 :=
  prime_of_check _ 13 [2, 2, 2, 2, 2, 3, 5, 2551] (by decide +kernel) (by
    simp only [List.forall_mem_cons]
    exact ⟨(by norm_num), (by norm_num), (by norm_num), (by norm_num), (by norm_num), (by norm_num), (by norm_num), (by norm_num), by simp⟩)

theorem prime_1923133 : Nat.Prime 1923133 :=
  prime_of_check _ 2 [2, 2, 3, 43, 3727] (by decide +kernel) (by
    simp only [List.forall_mem_cons]
    exact ⟨(by norm_num), (by norm_num), (by norm_num), (by norm_num), (by norm_num), by simp⟩)

theorem prime_8574133 : Nat.Prime 8574133 :=
  prime_of_check _ 2 [2, 2, 3, 7, 103, 991] (by decide +kernel) (by
    simp only [List.forall_mem_cons]
    exact ⟨(by norm_num), (by norm_num), (by norm_num), (by norm_num), (by norm_num), (by norm_num), by simp⟩)

theorem prime_14741173 : Nat.Prime 14741173 :=
  prime_of_check _ 2 [2, 2, 3, 3, 409477] (by decide +kernel) (by
    simp only [List.forall_mem_cons]
    exact ⟨(by norm_num), (by norm_num), (by norm_num), (by norm_num), prime_409477, by simp⟩)

theorem prime_58964693 : Nat.Prime 58964693 :=
  prime_of_check _ 2 [2, 2, 14741173] (by decide +kernel) (by
    simp only [List.forall_mem_cons]
    exact ⟨(by norm_num), (by norm_num), prime_14741173, by simp⟩)

theorem prime_292386187 : Nat.Prime 292386187 :=
  prime_of_check _ 2 [2, 3, 3, 3, 3, 307, 5879] (by decide +kernel) (by
    simp only [List.forall_mem_cons]
    exact ⟨(by norm_num), (by norm_num), (by norm_num), (by norm_num), (by norm_num), (by norm_num), (by norm_num), by simp⟩)

theorem prime_2773320623 : Nat.Prime 2773320623 :=
  prime_of_check _ 5 [2, 2437, 569003] (by decide +kernel) (by
    simp only [List.forall_mem_cons]
    exact ⟨(by norm_num), (by norm_num), prime_569003, by simp⟩)

theorem prime_72106336199 : Nat.Prime 72106336199 :=
  prime_of_check _ 7 [2, 13, 2773320623] (by decide +kernel) (by
    simp only [List.forall_mem_cons]
    exact ⟨(by norm_num), (by norm_num), prime_2773320623, by simp⟩)

theorem prime_213441916511 : Nat.Prime 213441916511 :=
  prime_of_check _ 13 [2, 5, 73, 292386187] (by decide +kernel) (by
    simp only [List.forall_mem_cons]
    exact ⟨(by norm_num), (by norm_num), (by norm_num), prime_292386187, by simp⟩)

theorem prime_1257559732178653 : Nat.Prime 1257559732178653 :=
  prime_of_check _ 2 [2, 2, 3, 7, 23, 531581, 1224481] (by decide +kernel) (by
    simp only [List.forall_mem_cons]
    exact ⟨(by norm_num), (by norm_num), (by norm_num), (by norm_num), (by norm_num), prime_531581, prime_1224481, by simp⟩)

theorem prime_1919519569386763 : Nat.Prime 1919519569386763 :=
  prime_of_check _ 2 [2, 3, 7, 19, 47, 47, 127, 8574133] (by decide +kernel) (by
    simp only [List.forall_mem_cons]
    exact ⟨(by norm_num), (by norm_num), (by norm_num), (by norm_num), (by norm_num), (by norm_num), (by norm_num), prime_8574133, by simp⟩)

theorem prime_31757755568855353 : Nat.Prime 31757755568855353 :=
  prime_of_check _ 10 [2, 2, 2, 3, 31, 107, 223, 4153, 430751] (by decide +kernel) (by
    simp only [List.forall_mem_cons]
    exact ⟨(by norm_num), (by norm_num), (by norm_num), (by norm_num), (by norm_num), (by norm_num), (by norm_num), (by norm_num), prime_430751, by simp⟩)

theorem prime_4434155615661930479 : Nat.Prime 4434155615661930479 :=
  prime_of_check _ 17 [2, 41, 43, 1257559732178653] (by decide +kernel) (by
    simp only [List.forall_mem_cons]
    exact ⟨(by norm_num), (by norm_num), (by norm_num), prime_1257559732178653, by simp⟩)

theorem prime_3044861653679985063343 : Nat.Prime 3044861653679985063343 :=
  prime_of_check _ 5 [2, 3, 11, 30703, 82163, 132667, 137849] (by decide +kernel) (by
    simp only [List.forall_mem_cons]
    exact ⟨(by norm_num), (by norm_num), (by norm_num), (by norm_num), (by norm_num), prime_132667, prime_137849, by simp⟩)

theorem prime_172054593956031949258510691 : Nat.Prime 172054593956031949258510691 :=
  prime_of_check _ 2 [2, 5, 1361, 2851, 4434155615661930479] (by decide +kernel) (by
    simp only [List.forall_mem_cons]
    exact ⟨(by norm_num), (by norm_num), (by norm_num), (by norm_num), prime_4434155615661930479, by simp⟩)

theorem prime_198211423230930754013084525763697 : Nat.Prime 198211423230930754013084525763697 :=
  prime_of_check _ 5 [2, 2, 2, 2, 3, 23, 58964693, 3044861653679985063343] (by decide +kernel) (by
    simp only [List.forall_mem_cons]
    exact ⟨(by norm_num), (by norm_num), (by norm_num), (by norm_num), (by norm_num), (by norm_num), prime_58964693, prime_3044861653679985063343, by simp⟩)

theorem prime_75445702479781427272750846543864801 : Nat.Prime 75445702479781427272750846543864801 :=
  prime_of_check _ 7 [2, 2, 2, 2, 2, 3, 3, 5, 5, 75707, 72106336199, 1919519569386763] (by decide +kernel) (by
    simp only [List.forall_mem_cons]
    exact ⟨(by norm_num), (by norm_num), (by norm_num), (by norm_num), (by norm_num), (by norm_num), (by norm_num), (by norm_num), (by norm_num), (by norm_num), prime_72106336199, prime_1919519569386763, by simp⟩)

theorem prime_19757330305831588566944191468367130476339 : Nat.Prime 19757330305831588566944191468367130476339 :=
  prime_of_check _ 2 [2, 269, 213441916511, 172054593956031949258510691] (by decide +kernel) (by
    simp only [List.forall_mem_cons]
    exact ⟨(by norm_num), (by norm_num), prime_213441916511, prime_172054593956031949258510691, by simp⟩)

theorem prime_276602624281642239937218680557139826668747 : Nat.Prime 276602624281642239937218680557139826668747 :=
  prime_of_check _ 2 [2, 7, 19757330305831588566944191468367130476339] (by decide +kernel) (by
    simp only [List.forall_mem_cons]
    exact ⟨(by norm_num), (by norm_num), prime_19757330305831588566944191468367130476339, by simp⟩)

theorem prime_74058212732561358302231226437062788676166966415465897661863160754340907 : Nat.Prime 74058212732561358302231226437062788676166966415465897661863160754340907 :=
  prime_of_check _ 2 [2, 3, 353, 57467, 132049, 1923133, 31757755568855353, 75445702479781427272750846543864801] (by decide +kernel) (by
    simp only [List.forall_mem_cons]
    exact ⟨(by norm_num), (by norm_num), (by norm_num), (by norm_num), prime_132049, prime_1923133, prime_31757755568855353, prime_75445702479781427272750846543864801, by simp⟩)

theorem prime_n : Nat.Prime W25519.n :=
  prime_of_check _ 2 [2, 2, 3, 11, 198211423230930754013084525763697, 276602624281642239937218680557139826668747] (by decide +kernel) (by
    simp only [List.forall_mem_cons]
    exact ⟨(by norm_num), (by norm_num), (by norm_num), (by norm_num), prime_198211423230930754013084525763697, prime_276602624281642239937218680557139826668747, by simp⟩)

theorem prime_p : Nat.Prime W25519.p :=
  prime_of_check _ 2 [2, 2, 3, 65147, 74058212732561358302231226437062788676166966415465897661863160754340907] (by decide +kernel) (by
    simp only [List.forall_mem_cons]
    exact ⟨(by norm_num), (by norm_num), (by norm_num), (by norm_num), prime_74058212732561358302231226437062788676166966415465897661863160754340907, by simp⟩)

end LCT.W25519
