import Verif.Model.Ethereum.Transaction

/-!
# RLP types that users of the crate define

The crate implements `Encodable<RlpEncodingItem>` and `Decodable<RlpDecodingItem>` for a few types and for `Vec<T>`; users implement the traits for
their own records in the way of `/repo/src/blockchain/ethereum/types/access_list_rlp.rs:15-45` and of the transactions
(`/repo/src/blockchain/ethereum/transaction/types/transaction_eip_1559_rlp.rs:18-87`): encode every field into a new item and add that as a list;
check the kind of the item and the number of its parts and decode the parts in order.  `Ty` is the universe of the types that can be built so.
-/

namespace LCT.Rlp
open LCT.Ethereum

/-- The types: `u64`, `BigUint`, strings, `Vec<u8>`, `Address`, `StorageKey`, `Vec<T>` and records. -/
inductive Ty where
  | u64
  | big
  | str
  | bytes
  | address
  | key
  | vec (t : Ty)
  | record (fields : List Ty)

mutual
  /-- The values of a type.  A `BigUint` is given by its value (see `C38_wei_chain_id` for the level of digits). -/
  def Ty.Val : Ty → Type
    | .u64 => UInt64
    | .big => Nat
    | .str => String
    | .bytes => List UInt8
    | .address => Address
    | .key => StorageKey
    | .vec t => List t.Val
    | .record fs => Vals fs
  /-- The values of the fields of a record. -/
  def Vals : List Ty → Type
    | [] => Unit
    | t :: fs => t.Val × Vals fs
end

mutual
  /-- `encode_to`: `/repo/src/blockchain/ethereum/rlp/encoder.rs:48-88`, `/repo/src/blockchain/ethereum/types/address_rlp.rs:14-18`,
  `/repo/src/blockchain/ethereum/types/storage_key_rlp.rs:13-17`; for records as in
  `/repo/src/blockchain/ethereum/types/access_list_rlp.rs:15-23`. -/
  def encTy : (t : Ty) → t.Val → EncItem → EncItem
    | .u64, v, e => encU64 v e
    | .big, v, e => encBigUint v e
    | .str, v, e => encStr v e
    | .bytes, v, e => encVecU8 v e
    | .address, v, e => encAddress v e
    | .key, v, e => encStorageKey v e
    | .vec t, v, e => encVec (encTy t) v e
    | .record fs, v, e => e.encodeListPayload (encFields fs v EncItem.new)
  /-- The fields, one after another, into one item. -/
  def encFields : (fs : List Ty) → Vals fs → EncItem → EncItem
    | [], _, e => e
    | t :: fs, v, e => encFields fs v.2 (encTy t v.1 e)
end

mutual
  /-- `decode_from`: `/repo/src/blockchain/ethereum/rlp/decoder.rs:52-125`, `/repo/src/blockchain/ethereum/types/address_rlp.rs:20-32`,
  `/repo/src/blockchain/ethereum/types/storage_key_rlp.rs:19-28`; for records as in
  `/repo/src/blockchain/ethereum/types/access_list_rlp.rs:25-45`. -/
  def decTy (m : Build) : (t : Ty) → DecItem → Out RlpErr t.Val
    | .u64, d => decU64 d
    | .big, d => decBigUint d
    | .str, d => decString d
    | .bytes, d => decVecU8 d
    | .address, d => decAddress d
    | .key, d => decStorageKey d
    | .vec t, d => decVec m (decTy m t) d
    | .record fs, d =>
      match d.itemType with
      | .SingleValue => .err .InvalidFormat
      | .List => do
        let items ← d.decodeAsItems m
        if items.length ≠ fs.length then .err .InvalidFormat else decFields m fs items
  /-- `iter.next().unwrap()` and `decode_from`, field by field. -/
  def decFields (m : Build) : (fs : List Ty) → List DecItem → Out RlpErr (Vals fs)
    | [], _ => return ()
    | t :: fs, items => do
      let (i, items) ← nextItem items
      let v ← decTy m t i
      let vs ← decFields m fs items
      return (v, vs)
end

end LCT.Rlp
