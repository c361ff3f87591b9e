import Verif.Lemmas.BigInt.Memory

/-!
# C83: results do not depend on what memory held before

The functions of `Verif.Model.BigInt.Memory` get the contents of their output buffers and scratch memory as arguments, and write to them place after
place.  `dirty` and `dirty'` are two histories of that memory: the same number of places, anything in them.
-/

namespace LCT.Props
open LCT.BigInt
variable {ε : Type} (m : Build) (w : Nat)

/-- C83, addition: the outcome, with the final contents of the buffer, is the same whatever the buffer held. -/
theorem C83_add (a b dirty dirty' : List Nat) (h : dirty.length = dirty'.length) :
    (addDigitsIn m w a b dirty : Out ε _) = addDigitsIn m w a b dirty' := by
  rw [addDigitsIn_eq, addDigitsIn_eq, h]

/-- C83, subtraction. -/
theorem C83_sub (a b dirty dirty' : List Nat) (h : dirty.length = dirty'.length) :
    (subDigitsIn m w a b dirty : Out ε _) = subDigitsIn m w a b dirty' := by
  rw [subDigitsIn_eq, subDigitsIn_eq, h]

/-- C83, multiplication. -/
theorem C83_mul (a b dirty dirty' : List Nat) (h : dirty.length = dirty'.length) :
    (mulDigitsIn m w a b dirty : Out ε _) = mulDigitsIn m w a b dirty' := by
  rw [mulDigitsIn_eq, mulDigitsIn_eq, h]

/-- C83, division: the quotient's and the remainder's buffers. -/
theorem C83_div (a b dirtyQ dirtyQ' dirtyR dirtyR' : List Nat) (hq : dirtyQ.length = dirtyQ'.length) (hr : dirtyR.length = dirtyR'.length) :
    (divRemDigitsIn m w a b dirtyQ dirtyR : Out ε _) = divRemDigitsIn m w a b dirtyQ' dirtyR' := by
  unfold divRemDigitsIn
  rw [fill0_eq, fill0_eq, fill0_eq, fill0_eq, hq, hr]

/-- C83, greatest common divisor: the eight scratch buffers that all iterations of the loop use in turn (see `Scratch.Fits` for their lengths). -/
theorem C83_gcd (fuel : Nat) (a b : List Nat) (dirty dirty' : Scratch) (h : dirty.Fits a.length b.length) (h' : dirty'.Fits a.length b.length) :
    (gcdDigitsIn m w fuel a b dirty : Out ε _) = gcdDigitsIn m w fuel a b dirty' := by
  rw [gcdDigitsIn_eq m w fuel a b dirty h, gcdDigitsIn_eq m w fuel a b dirty' h']

/-- C83, the link to the other properties: written place after place into memory with any contents, the arithmetic has the outcomes that the functions of
the value model have, about which C01 to C12 and C80 are proved.  For the division the buffer must have room for the dividend's digits, as its
documentation demands and its debug build asserts. -/
theorem C83_refines (a b : List Nat) :
    (∀ buf, (addDigitsIn m w a b buf : Out ε _) = addDigits m w a b buf.length) ∧
    (∀ buf, (subDigitsIn m w a b buf : Out ε _) = subDigits m w a b buf.length) ∧
    (∀ buf, (mulDigitsIn m w a b buf : Out ε _) = mulDigits m w a b buf.length) ∧
    (∀ q r, a.length ≤ q.length → (divRemDigitsIn m w a b q r : Out ε _) = divRemDigits m w a b q.length r.length) ∧
    (∀ fuel z, Scratch.Fits a.length b.length z → (gcdDigitsIn m w fuel a b z : Out ε _) = gcdDigits m w fuel a b) ∧
    (∀ fuel, (gcdDigitsIn m w fuel a b (Scratch.fresh a.length b.length) : Out ε _) = gcdDigits m w fuel a b) :=
  ⟨addDigitsIn_eq m w a b, subDigitsIn_eq m w a b, mulDigitsIn_eq m w a b, divRemDigitsIn_eq m w a b, fun fuel z h => gcdDigitsIn_eq m w fuel a b z h,
    fun fuel => gcdDigitsIn_eq m w fuel a b _ (Scratch.fresh_fits _ _)⟩

/-! ## Cases -/

/-- `255 + 1` into memory that holds `7`s. -/
example : (addDigitsIn .debug 8 [255] [1] [7, 7, 7] : Out ε _) = .ok ([0, 1, 0], 2) := rfl

/-- `256 - 1`. -/
example : (subDigitsIn .debug 8 [0, 1] [1] [7, 7] : Out ε _) = .ok ([255, 0], 1) := rfl

/-- `513 * 255`. -/
example : (mulDigitsIn .debug 8 [1, 2] [255] [7, 7, 7] : Out ε _) = .ok ([255, 254, 1], 3) := rfl

/-- `65535 = 255 * 257 + 0` and `65535 = 63 * 1027 + 834`, by one digit and by two digits. -/
example : (divRemDigitsIn .debug 8 [255, 255] [255] [7, 7] [7] : Out ε _) = .ok (([1, 1], 2), ([0], 1)) ∧
    (divRemDigitsIn .debug 8 [255, 255] [3, 4] [7, 7] [7, 7] : Out ε _) = .ok (([63, 0], 1), ([66, 3], 2)) := ⟨rfl, rfl⟩

/-- Scratch memory full of `7`s meets the hypothesis, and the greatest common divisor of `4660` and `1000` is `20`. -/
example : Scratch.Fits 2 2 ⟨[7, 7, 7], [7, 7, 7], [7, 7, 7], [7, 7, 7], [7, 7], [7, 7, 7, 7], [7, 7, 7, 7], [7, 7]⟩ ∧
    (gcdDigitsIn .debug 8 20 [52, 18] [232, 3] ⟨[7, 7, 7], [7, 7, 7], [7, 7, 7], [7, 7, 7], [7, 7], [7, 7, 7, 7], [7, 7, 7, 7], [7, 7]⟩ : Out Unit _) =
      .ok (([14, 0], 1, .positive), ([20, 0], 1)) := by
  refine ⟨by constructor <;> rfl, ?_⟩
  decide +kernel

end LCT.Props
