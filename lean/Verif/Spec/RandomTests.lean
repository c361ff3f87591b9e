import Verif.Spec.Hex
import Verif.Spec.Numerals

/-!
# What the project's random tests can draw (specification)
-/

namespace LCT.Spec

/-- `HexString` of `/repo/src/testing_tools/quickcheck.rs:31-52`: a positive, even number of hex digits of either case. -/
def DrawnHex (s : List UInt8) : Prop := s ≠ [] ∧ s.length % 2 = 0 ∧ ∀ c ∈ s, IsHexDigit c

/-- `BigIntHexString` of `/repo/src/testing_tools/quickcheck.rs:54-78`: such a text after `+` (43) or `-` (45). -/
def DrawnSignedHex (s : List UInt8) : Prop := ∃ body, DrawnHex body ∧ (s = 43 :: body ∨ s = 45 :: body)

/-- The number that the text of digits stands for. -/
def drawnValue (s : List UInt8) : Nat := hexNumber s

/-- The number that the text with a sign stands for. -/
def drawnSigned : List UInt8 → Int
  | 45 :: body => -(hexNumber body : Int)
  | _ :: body => hexNumber body
  | [] => 0

example : DrawnHex [48, 65] ∧ drawnValue [48, 65] = 10 ∧ DrawnSignedHex [45, 48, 97] ∧ drawnSigned [45, 48, 97] = -10 :=
  ⟨⟨by decide, by decide, by decide⟩, by decide, ⟨[48, 97], ⟨by decide, by decide, by decide⟩, .inr rfl⟩, by decide⟩

end LCT.Spec
