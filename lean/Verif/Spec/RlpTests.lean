import Verif.Model.RlpTests
import Verif.Spec.Hex
import Verif.Spec.Rlp

/-!
# What published RLP encodings claim (specification)

An entry gives an item, as a JSON value of arrays and hex texts, and its encoding, as a hex text.
-/

namespace LCT.Spec
open LCT.Rlp (Item)
open LCT.RlpTests (Json Entry)

/-- `0x`, and two hex digits for each byte, in upper or lower case. -/
def PrefixedHex (t bs : List UInt8) : Prop :=
  ∃ u, t = 48 :: 120 :: u ∧ u.length % 2 = 0 ∧ (∀ c ∈ u, IsHexDigit c) ∧ u.map lowerChar = hexOf bs

mutual
/-- The JSON value describes the item: a hex text a byte string, an array a list. -/
inductive Describes : Json → Item → Prop where
  | string (t bs : List UInt8) (h : PrefixedHex t bs) : Describes (.string t) (.bytes bs)
  | array (vs : List Json) (xs : List Item) (h : DescribeAll vs xs) : Describes (.array vs) (.list xs)
/-- One value for each item. -/
inductive DescribeAll : List Json → List Item → Prop where
  | nil : DescribeAll [] []
  | cons (v : Json) (x : Item) (vs : List Json) (xs : List Item) (h : Describes v x) (hs : DescribeAll vs xs) : DescribeAll (v :: vs) (x :: xs)
end

mutual
/-- The JSON value that describes the item in lower case. -/
def jsonFor : Item → Json
  | .bytes bs => .string (48 :: 120 :: hexOf bs)
  | .list xs => .array (jsonsFor xs)
def jsonsFor : List Item → List Json
  | [] => []
  | x :: xs => jsonFor x :: jsonsFor xs
end

/-- The text is the encoding of the item that the value describes, in lower case. -/
def RightEncoding (v : Entry) : Prop := ∃ x, Describes v.decoded x ∧ v.encoded = some (48 :: 120 :: hexOf (rlp x))

/-- The text stands for the item (not necessarily in the shortest way) that the value describes in lower case. -/
def RightDecoding (v : Entry) : Prop :=
  ∃ t bs x, v.encoded = some t ∧ PrefixedHex t bs ∧ RelaxedTree x bs ∧ v.decoded = jsonFor x

end LCT.Spec
