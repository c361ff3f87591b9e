import Verif.Model.Rlp

/-!
# Writing RLP data by hand with several encoding items (model)

A user who writes their own `Encodable`, as the transaction types do
(`/repo/src/blockchain/ethereum/transaction/types/transaction_legacy_rlp.rs:14-31`), makes encoding items, writes values into them, writes one of
them into another as a list, and takes the data.
-/

namespace LCT.Rlp

/-- The calls a user can make; the numbers name the encoding items.  Simplified: an item that was not made yet is empty, and an item may be
written into itself, which Rust's borrow checker rules out. -/
inductive WriteOp where
  /-- `let mut item = RlpEncodingItem::new()` -/
  | make (i : Nat)
  /-- `item.encode_bytes(bytes)` -/
  | bytes (i : Nat) (b : List UInt8)
  /-- `number.encode_to(&mut item)` of a `u64` -/
  | u64 (i : Nat) (n : UInt64)
  /-- `number.encode_to(&mut item)` of a `BigUint` -/
  | big (i : Nat) (n : Nat)
  /-- `text.encode_to(&mut item)` of a `&str` -/
  | text (i : Nat) (s : String)
  /-- `item.encode_list_payload(&mut other)` -/
  | list (i j : Nat)
  /-- `item.take_data()` -/
  | take (i : Nat)

/-- The encoding items with one of them replaced. -/
def setItem (s : Nat → EncItem) (i : Nat) (e : EncItem) : Nat → EncItem := fun k => if k = i then e else s k

/-- A history of calls; the results of the `take_data` calls are collected.  `/repo/src/blockchain/ethereum/rlp/encoder.rs:20-68`. -/
def runWrites (s : Nat → EncItem) : List WriteOp → List (List UInt8)
  | [] => []
  | .make i :: ops => runWrites (setItem s i EncItem.new) ops
  | .bytes i b :: ops => runWrites (setItem s i ((s i).encodeBytes b)) ops
  | .u64 i n :: ops => runWrites (setItem s i (encU64 n (s i))) ops
  | .big i n :: ops => runWrites (setItem s i (encBigUint n (s i))) ops
  | .text i t :: ops => runWrites (setItem s i (encStr t (s i))) ops
  | .list i j :: ops => runWrites (setItem s i ((s i).encodeListPayload (s j))) ops
  | .take i :: ops => (s i).takeData.1 :: runWrites (setItem s i (s i).takeData.2) ops

end LCT.Rlp
