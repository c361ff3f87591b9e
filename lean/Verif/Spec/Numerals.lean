import Verif.Spec.Hex
import Verif.Spec.Bytes

/-!
# Numerals (specification)
-/

namespace LCT.Spec

/-- Number of binary digits: 0 for 0, otherwise the `k` with `2^(k-1) ≤ n < 2^k`. -/
def bitLength (n : Nat) : Nat := if n = 0 then 0 else Nat.log2 n + 1

/-- The value of a digit character in bases up to 36: `0-9`, then `a-z` or `A-Z`. -/
def digitVal (c : UInt8) : Option Nat :=
  if 48 ≤ c.toNat ∧ c.toNat ≤ 57 then some (c.toNat - 48)
  else if 97 ≤ c.toNat ∧ c.toNat ≤ 122 then some (c.toNat - 97 + 10)
  else if 65 ≤ c.toNat ∧ c.toNat ≤ 90 then some (c.toNat - 65 + 10)
  else none

/-- Horner's rule: the number written with these digits, most significant first. -/
def horner (base : Nat) (ds : List Nat) : Nat := ds.foldl (fun acc d => acc * base + d) 0

/-- The text is a non-empty sequence of digit characters, each of value below `bound`, with digit values `ds`. -/
def DigitText (bound : Nat) (body : List UInt8) (ds : List Nat) : Prop :=
  body ≠ [] ∧ body.map digitVal = ds.map some ∧ ∀ d ∈ ds, d < bound

/-- A sign prefix: nothing, `+` (43) or `-` (45), and the factor it stands for. -/
inductive SignText : List UInt8 → Int → Prop where
  | none : SignText [] 1
  | plus : SignText [43] 1
  | minus : SignText [45] (-1)

/-- The text is an optional sign followed by at least one digit below `bound`, and denotes `z` in base `base`. -/
def SignedNumeral (base bound : Nat) (s : List UInt8) (z : Int) : Prop :=
  ∃ pre body ds sg, s = pre ++ body ∧ SignText pre sg ∧ DigitText bound body ds ∧ z = sg * (horner base ds : Int)

/-- The text is an optional sign followed by a positive, even number of hex digits, and denotes `z`. -/
def HexNumeral (s : List UInt8) (z : Int) : Prop :=
  ∃ pre body ds sg, s = pre ++ body ∧ SignText pre sg ∧ DigitText 16 body ds ∧ body.length % 2 = 0 ∧ z = sg * (horner 16 ds : Int)

/-- Canonical hex text of an integer: `00` for zero, otherwise two lower-case digits for each byte of the shortest big-endian
form of the absolute value, after `-` (45) if negative. -/
def hexText (z : Int) : List UInt8 :=
  if z = 0 then [48, 48]
  else if z < 0 then 45 :: hexOf (minBE z.natAbs)
  else hexOf (minBE z.natAbs)

end LCT.Spec
