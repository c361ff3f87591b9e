import Verif.Spec.Numerals
import Mathlib.Data.Int.Init

/-!
# What programs with `BigUint` compute, in the integers
-/

namespace LCT.Spec

/-- How a program obtains a `BigUint`: from a number, from a text, or from others. -/
inductive UnsignedExpr where
  | number (n : Nat)
  | hex (s : List UInt8)
  | radix (s : List UInt8) (r : Nat)
  | text (s : List UInt8)
  | add (e f : UnsignedExpr)
  | sub (e f : UnsignedExpr)
  | mul (e f : UnsignedExpr)
  | shr (e : UnsignedExpr) (n : Nat)

/-- The texts that the hex parser accepts, with their values: no minus sign. -/
def HexValue (s : List UInt8) (z : Int) : Prop := (s = [] ∧ z = 0) ∨ (HexNumeral s z ∧ s.head? ≠ some 45)

/-- The texts that the parser for a radix accepts (C08), with their values: a minus sign is possible. -/
def RadixValue (r : Nat) (s : List UInt8) (z : Int) : Prop := (s = [] ∧ z = 0) ∨ SignedNumeral r (r + 1) s z

/-- The program computes `z` in the integers. -/
inductive UnsignedExpr.Computes : UnsignedExpr → Int → Prop where
  | number (n : Nat) : Computes (.number n) n
  | hex {s z} : HexValue s z → Computes (.hex s) z
  | radix {s r z} : RadixValue r s z → Computes (.radix s r) z
  | hexText {t z} : HexValue t z → Computes (.text (48 :: 120 :: t)) z
  | decimalText {s z} : RadixValue 10 s z → Computes (.text s) z
  | add {e f a b} : Computes e a → Computes f b → Computes (.add e f) (a + b)
  | sub {e f a b} : Computes e a → Computes f b → Computes (.sub e f) (a - b)
  | mul {e f a b} : Computes e a → Computes f b → Computes (.mul e f) (a * b)
  | shr {e a} (n : Nat) : Computes e a → Computes (.shr e n) (a.tdiv (2 ^ n))

/-- The numbers come from primitive types, and the radixes are allowed. -/
def UnsignedExpr.Legal : UnsignedExpr → Prop
  | .number n => n < 2 ^ 128
  | .radix _ r => 2 ≤ r ∧ r ≤ 36
  | .hex _ | .text _ => True
  | .add e f | .sub e f | .mul e f => e.Legal ∧ f.Legal
  | .shr e _ => e.Legal

end LCT.Spec
