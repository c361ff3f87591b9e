import Verif.Spec.Rlp
import Verif.Model.RlpWriter

/-!
# Writing RLP data by hand (specification)

An encoding item stands for the sequence of the RLP items written into it so far.  Only the names of the calls are shared with the model.
-/

namespace LCT.Spec
open LCT.Rlp (Item WriteOp)

/-- The sequences of RLP items that a history of calls takes out of the encoding items. -/
def takenItems (s : Nat → List Item) : List WriteOp → List (List Item)
  | [] => []
  | .make i :: ops => takenItems (fun k => if k = i then [] else s k) ops
  | .bytes i b :: ops => takenItems (fun k => if k = i then s i ++ [.bytes b] else s k) ops
  | .u64 i n :: ops => takenItems (fun k => if k = i then s i ++ [.bytes (minBE n.toNat)] else s k) ops
  | .big i n :: ops => takenItems (fun k => if k = i then s i ++ [.bytes (minBE n)] else s k) ops
  | .text i t :: ops => takenItems (fun k => if k = i then s i ++ [.bytes t.toByteArray.data.toList] else s k) ops
  | .list i j :: ops => takenItems (fun k => if k = i then s i ++ [.list (s j)] else s k) ops
  | .take i :: ops => s i :: takenItems (fun k => if k = i then [] else s k) ops

end LCT.Spec
