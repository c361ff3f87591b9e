import Verif.Spec.Numerals

/-!
# Texts of unsigned numbers (specification)
-/

namespace LCT.Spec

/-- The text is `0x` (48, 120) followed by a positive, even number of hex digits of `n`, or consists of decimal digits of `n`; no sign. -/
def UnsignedText (s : List UInt8) (n : Nat) : Prop :=
  (∃ body ds, s = 48 :: 120 :: body ∧ DigitText 16 body ds ∧ body.length % 2 = 0 ∧ n = horner 16 ds) ∨
    ∃ ds, DigitText 10 s ds ∧ n = horner 10 ds

/-- The ids registered for the seven chains that the crate names. -/
def registeredIds : List Nat := [1, 2, 3, 4, 5, 42, 1337]

end LCT.Spec
