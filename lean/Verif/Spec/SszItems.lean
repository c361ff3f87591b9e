import Verif.Spec.Ssz

/-!
# The elements of an SSZ container (specification)

What a reader of the consensus specification finds in the data of a container when they know the sizes of the elements (`none` for an element
of variable size), without any demand that the offsets leave no gaps.
-/

namespace LCT.Spec.Ssz

/-- `Elements data sizes pos items first last`: reading the headers from position `pos` on, the elements are `items`; the first element of
variable size begins at `first`, and the last one ends at `last`.  An element of fixed size stands in its header; the header of an element of
variable size is its offset in four bytes, little-endian, and it reaches up to the beginning of the next one. -/
inductive Elements (data : List UInt8) : List (Option Nat) → Nat → List (List UInt8) → Nat → Nat → Prop where
  | nil (pos last : Nat) : Elements data [] pos [] last last
  | fixed (n : Nat) (sizes : List (Option Nat)) (pos : Nat) (items : List (List UInt8)) (first last : Nat)
      (h : Elements data sizes (pos + n) items first last) :
      Elements data (some n :: sizes) pos ((data.drop pos).take n :: items) first last
  | var (offset : Nat) (sizes : List (Option Nat)) (pos : Nat) (items : List (List UInt8)) (next last : Nat)
      (h : Elements data sizes (pos + 4) items next last) (ho : (data.drop pos).take 4 = le 4 offset) (hle : offset ≤ next) :
      Elements data (none :: sizes) pos ((data.drop offset).take (next - offset) :: items) offset last

/-- The length of all headers. -/
def headersTotal : List (Option Nat) → Nat
  | [] => 0
  | some n :: sizes => n + headersTotal sizes
  | none :: sizes => 4 + headersTotal sizes

end LCT.Spec.Ssz
