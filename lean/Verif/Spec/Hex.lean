/-!
# Hexadecimal notation (specification)

Text is a list of byte-sized character codes.
-/

namespace LCT.Spec

/-- The sixteen lower-case digits `0123456789abcdef`, as ASCII codes. -/
def lowerDigits : List UInt8 :=
  [48, 49, 50, 51, 52, 53, 54, 55, 56, 57, 97, 98, 99, 100, 101, 102]

example : lowerDigits = "0123456789abcdef".toList.map (fun c => c.toNat.toUInt8) := by decide

/-- The digit for a value below 16. -/
def hexDigit (n : Nat) : UInt8 := lowerDigits.getD n 0

/-- The value of a hex digit of either case; `none` for any other character. -/
def hexVal (c : UInt8) : Option Nat :=
  if 48 ≤ c.toNat ∧ c.toNat ≤ 57 then some (c.toNat - 48)           -- '0'..'9'
  else if 97 ≤ c.toNat ∧ c.toNat ≤ 102 then some (c.toNat - 97 + 10) -- 'a'..'f'
  else if 65 ≤ c.toNat ∧ c.toNat ≤ 70 then some (c.toNat - 65 + 10)  -- 'A'..'F'
  else none

/-- `c` is one of `0-9a-fA-F`. -/
def IsHexDigit (c : UInt8) : Prop := (hexVal c).isSome

instance (c : UInt8) : Decidable (IsHexDigit c) := inferInstanceAs (Decidable (_ = true))

/-- ASCII lower-casing. -/
def lowerChar (c : UInt8) : UInt8 := if 65 ≤ c.toNat ∧ c.toNat ≤ 90 then c + 32 else c

/-- Two lower-case digits per byte, most significant first. -/
def hexOf (bs : List UInt8) : List UInt8 :=
  bs.flatMap fun b => [hexDigit (b.toNat / 16), hexDigit (b.toNat % 16)]

/-- Value of a whole numeral in base 16 (characters that are not digits count as 0). -/
def hexNumber (s : List UInt8) : Nat := s.foldl (fun acc c => acc * 16 + (hexVal c).getD 0) 0

end LCT.Spec
