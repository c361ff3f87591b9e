import Verif.Spec.Rlp
import Verif.Spec.Ssz

/-!
# The size of decoded values (specification)
-/

namespace LCT.Spec
open LCT.Rlp (Item)

mutual
  /-- The number of byte strings and lists in an item, itself included. -/
  def nodes : Item → Nat
    | .bytes _ => 1
    | .list xs => 1 + nodesAll xs
  def nodesAll : List Item → Nat
    | [] => 0
    | x :: xs => nodes x + nodesAll xs
end

mutual
  /-- The number of bytes in the byte strings of an item. -/
  def volume : Item → Nat
    | .bytes b => b.length
    | .list xs => volumeAll xs
  def volumeAll : List Item → Nat
    | [] => 0
    | x :: xs => volume x + volumeAll xs
end

mutual
  /-- How deep lists are nested. -/
  def depth : Item → Nat
    | .bytes _ => 0
    | .list xs => 1 + depthAll xs
  def depthAll : List Item → Nat
    | [] => 0
    | x :: xs => max (depth x) (depthAll xs)
end

namespace Ssz

mutual
  /-- How many vectors or containers with parts of variable size stand inside one another, and one more. -/
  def Ty.levels : Ty → Nat
    | .bool => 1
    | .uint _ => 1
    | .vec _ t => if t.isVariable then t.levels + 1 else 1
    | .list t => if t.isVariable then t.levels else 1
    | .container fs => if anyVariable fs then maxLevels fs + 1 else 1
  /-- The greatest number among the fields of variable size; at least one. -/
  def maxLevels : List Ty → Nat
    | [] => 1
    | t :: fs => if t.isVariable then max t.levels (maxLevels fs) else maxLevels fs
end

/-- A container with `k` bytes and a field of variable size, `d` times inside one another; innermost is a list of bytes. -/
def russianDoll (k : Nat) : Nat → Ty
  | 0 => .list (.uint .w8)
  | d + 1 => .container [.vec k (.uint .w8), russianDoll k d]

end Ssz

end LCT.Spec

namespace LCT.Spec
open LCT.Rlp (Item)

/-- The empty list, inside `d` lists. -/
def nest : Nat → Item
  | 0 => .list []
  | d + 1 => .list [nest d]

end LCT.Spec
