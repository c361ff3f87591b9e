import Verif.Model.BigInt.BigInt
import Verif.Spec.Digits

/-!
# Which integer a stored `BigInt` denotes (specification)
-/

namespace LCT.Spec
open LCT.BigInt

/-- The integer denoted by a stored number: the sign and the first `len` digits of the storage. -/
def toInt (w : Nat) (x : BInt) : Int :=
  match x.sign with
  | .positive => val w (x.storage.take x.len)
  | .negative => -(val w (x.storage.take x.len) : Int)

/-- The representation invariant: at least one digit is in use, the digits in use have no leading zero (except for the number
zero itself), and the unused rest of the storage is zero. -/
structure WF (w : Nat) (x : BInt) : Prop where
  digits : ∀ d ∈ x.storage, d < 2 ^ w
  len_pos : 1 ≤ x.len
  len_le : x.len ≤ x.storage.length
  top : x.len = 1 ∨ x.storage.getD (x.len - 1) 0 ≠ 0
  slack : ∀ d ∈ x.storage.drop x.len, d = 0

/-- `x` is a well-formed representation of the integer `z`. -/
def Denotes (w : Nat) (x : BInt) (z : Int) : Prop := WF w x ∧ toInt w x = z

/-- A digit width the code is meant for: a positive number of whole bytes.  (`/repo/src/bigint/digit.rs:17-25` offers `u8` and
`u64`.) -/
class DigitWidth (w : Nat) : Prop where
  bytes : ∃ k, 1 ≤ k ∧ w = 8 * k

instance : DigitWidth 8 := ⟨1, by decide, rfl⟩
instance : DigitWidth 64 := ⟨8, by decide, rfl⟩

end LCT.Spec
