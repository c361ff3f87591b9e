import Verif.Spec.Rlp

/-!
# What a decoder that keeps only the low bits of a declared length accepts
-/

namespace LCT.Spec

/-- `data` begins with a long header of which all length bytes are there, and they declare the length `n`; `k` is the number of length bytes. -/
inductive Declares : List UInt8 → Nat → Nat → Prop where
  | string (l rest : List UInt8) (h1 : 1 ≤ l.length) (h8 : l.length ≤ 8) :
      Declares (UInt8.ofNat (183 + l.length) :: l ++ rest) l.length (ofBE l)
  | list (l rest : List UInt8) (h1 : 1 ≤ l.length) (h8 : l.length ≤ 8) :
      Declares (UInt8.ofNat (247 + l.length) :: l ++ rest) l.length (ofBE l)

/-- The byte strings that carry one item with the given payload if only the low `pw` bits of a declared length count. -/
inductive TruncatedItem (pw : Nat) : LCT.Rlp.ItemType → List UInt8 → List UInt8 → Prop where
  | single (b : UInt8) (h : b.toNat < 128) : TruncatedItem pw .SingleValue [b] [b]
  | short (p : List UInt8) (h : p.length ≤ 55) : TruncatedItem pw .SingleValue p (UInt8.ofNat (128 + p.length) :: p)
  | long (l p : List UInt8) (h1 : 1 ≤ l.length) (h8 : l.length ≤ 8) (hl : ofBE l % 2 ^ pw = p.length) :
      TruncatedItem pw .SingleValue p (UInt8.ofNat (183 + l.length) :: l ++ p)
  | listShort (p : List UInt8) (h : p.length ≤ 55) : TruncatedItem pw .List p (UInt8.ofNat (192 + p.length) :: p)
  | listLong (l p : List UInt8) (h1 : 1 ≤ l.length) (h8 : l.length ≤ 8) (hl : ofBE l % 2 ^ pw = p.length) :
      TruncatedItem pw .List p (UInt8.ofNat (247 + l.length) :: l ++ p)

/-- A concatenation of such byte strings. -/
inductive TruncatedSeq (pw : Nat) : List (LCT.Rlp.ItemType × List UInt8) → List UInt8 → Prop where
  | nil : TruncatedSeq pw [] []
  | cons (t : LCT.Rlp.ItemType) (p d : List UInt8) (xs : List (LCT.Rlp.ItemType × List UInt8)) (ds : List UInt8)
      (h : TruncatedItem pw t p d) (hs : TruncatedSeq pw xs ds) : TruncatedSeq pw ((t, p) :: xs) (d ++ ds)

/-- The low `pw` bits of the length that `data` declares, and the length of the header, add up to `2^pw` or more. -/
def OverflowsTarget (pw : Nat) (data : List UInt8) : Prop := ∃ k n, Declares data k n ∧ 2 ^ pw ≤ 1 + k + n % 2 ^ pw

end LCT.Spec
