import Verif.Spec.Ethereum
import Verif.Model.RlpTypes

/-!
# RLP types that users define (specification)
-/

namespace LCT.Spec
open LCT.Rlp LCT.Ethereum LCT.Spec.Eth

/-- The UTF-8 bytes of a string. -/
def utf8 (s : String) : List UInt8 := s.toByteArray.data.toList

mutual
  /-- The RLP item for a value: numbers as shortest big-endian byte strings, vectors and records as lists. -/
  def itemOf : (t : Ty) → t.Val → Item
    | .u64, n => num (UInt64.toNat n)
    | .big, n => num n
    | .str, s => .bytes (utf8 s)
    | .bytes, b => .bytes b
    | .address, a => .bytes (Address.data a)
    | .key, k => .bytes (StorageKey.data k)
    | .vec t, vs => .list (List.map (itemOf t) vs)
    | .record fs, v => .list (itemsOf fs v)
  def itemsOf : (fs : List Ty) → Vals fs → List Item
    | [], _ => []
    | t :: fs, v => itemOf t v.1 :: itemsOf fs v.2
end

mutual
  /-- The item can be read as this value: as `itemOf`, but numbers may have leading zero bytes (a `u64` at most eight bytes in all). -/
  def ReadsAs : (t : Ty) → Item → t.Val → Prop
    | .u64, x, n => LaxU64 (UInt64.toNat n) x
    | .big, x, n => LaxNum n x
    | .str, x, s => x = .bytes (utf8 s)
    | .bytes, x, b => x = .bytes b
    | .address, x, a => x = .bytes (Address.data a)
    | .key, x, k => x = .bytes (StorageKey.data k)
    | .vec t, x, vs => ∃ xs, x = .list xs ∧ List.Forall₂ (ReadsAs t) xs vs
    | .record fs, x, v => ∃ xs, x = .list xs ∧ ReadAs fs xs v
  /-- Item by item, and no item left over. -/
  def ReadAs : (fs : List Ty) → List Item → Vals fs → Prop
    | [], xs, _ => xs = []
    | t :: fs, xs, v => ∃ x rest, xs = x :: rest ∧ ReadsAs t x v.1 ∧ ReadAs fs rest v.2
end

end LCT.Spec
