import Verif.Model.Bytes
import Verif.Spec.Bytes

/-!
# RLP

Models `/repo/src/blockchain/ethereum/rlp/{core,encoding,decoding,encoder,decoder}.rs` and the generic `encode`/`decode` of
`/repo/src/tools/codable/core.rs` for RLP.  `usize` and `u64` are 64-bit; the additions that can overflow are modelled with
`addU64`, which depends on the build profile.
-/

namespace LCT.Rlp

/-- `/repo/src/blockchain/ethereum/rlp/core.rs:18-22` `RlpItemType`. -/
inductive ItemType where
  | SingleValue
  | List
  deriving Repr, DecidableEq

/-- `/repo/src/blockchain/ethereum/rlp/decoding.rs:162-167` `RlpDataDecodingError`. -/
inductive RlpErr where
  | InvalidFormat
  | TransactionTypeMismatch
  deriving Repr, DecidableEq

/-! ## Encoding -/

/-- `/repo/src/blockchain/ethereum/rlp/encoding.rs:35-89` `encode_payload_length`.  The `panic!` at l.76-79 needs more than 8
length bytes and is unreachable since `to_be_bytes` of a `usize` has 8 bytes; it is left out. -/
def encodePayloadLength (t : ItemType) (payload : List UInt8) : List UInt8 :=
  if t = .SingleValue ∧ payload.length = 1 ∧ payload.headD 0 < 0x80 then
    []
  else if payload.length < 56 then
    match t with
    | .SingleValue => [0x80 + UInt8.ofNat payload.length]
    | .List => [0xc0 + UInt8.ofNat payload.length]
  else
    let base : UInt8 := match t with
      | .SingleValue => 0xb7
      | .List => 0xf7
    let lengthBytes := stripLeadingZeros (toBEk 8 payload.length)
    (base + UInt8.ofNat lengthBytes.length) :: lengthBytes

/-- `/repo/src/blockchain/ethereum/rlp/encoding.rs:20-27` `encode_item`. -/
def encodeItem (t : ItemType) (payload : List UInt8) : List UInt8 :=
  encodePayloadLength t payload ++ payload

/-- `/repo/src/blockchain/ethereum/rlp/encoding.rs:14-16` `encode_single_value`. -/
def encodeSingleValue (payload : List UInt8) : List UInt8 := encodeItem .SingleValue payload

/-- `/repo/src/blockchain/ethereum/rlp/encoder.rs:16-18` `RlpEncodingItem`. -/
structure EncItem where
  encodedData : List UInt8
  deriving Repr, DecidableEq

/-- `/repo/src/blockchain/ethereum/rlp/encoder.rs:37-41` `RlpEncodingItem::new`. -/
def EncItem.new : EncItem := ⟨[]⟩

/-- `/repo/src/blockchain/ethereum/rlp/encoder.rs:21-23` `extend_encoded_data`. -/
def EncItem.extend (e : EncItem) (bs : List UInt8) : EncItem := ⟨e.encodedData ++ bs⟩

/-- `/repo/src/blockchain/ethereum/rlp/encoder.rs:25-27` `encode_bytes`. -/
def EncItem.encodeBytes (e : EncItem) (bs : List UInt8) : EncItem := e.extend (encodeSingleValue bs)

/-- `/repo/src/blockchain/ethereum/rlp/encoder.rs:29-33` `encode_list_payload`. -/
def EncItem.encodeListPayload (e item : EncItem) : EncItem :=
  (e.extend (encodePayloadLength .List item.encodedData)).extend item.encodedData

/-- `/repo/src/blockchain/ethereum/rlp/encoder.rs:43-45` `take_data`: returns the data and leaves the item empty. -/
def EncItem.takeData (e : EncItem) : List UInt8 × EncItem := (e.encodedData, ⟨[]⟩)

/-- The calls a user can make on one encoding item (`/repo/src/blockchain/ethereum/rlp/encoder.rs:20-46`). -/
inductive EncOp where
  | bytes (b : List UInt8)
  | list (payload : List UInt8)
  | take

/-- A history of calls on one encoding item; the results of the `take_data` calls are collected. -/
def EncItem.run (e : EncItem) : List EncOp → EncItem × List (List UInt8)
  | [] => (e, [])
  | .bytes b :: ops => EncItem.run (e.encodeBytes b) ops
  | .list p :: ops => EncItem.run (e.encodeListPayload ⟨p⟩) ops
  | .take :: ops =>
    let (d, e') := e.takeData
    let (e'', ds) := EncItem.run e' ops
    (e'', d :: ds)

/-- The `Encodable<RlpEncodingItem>` trait: `encode_to(&self, &mut item)`. -/
abbrev Enc (α : Type) := α → EncItem → EncItem

/-- `/repo/src/tools/codable/core.rs:13-18` `encode`, at the RLP encoding item. -/
def encode {α : Type} (enc : Enc α) (v : α) : List UInt8 := (enc v EncItem.new).takeData.1

/-- `/repo/src/blockchain/ethereum/rlp/encoder.rs:48-54` `Encodable for u64`. -/
def encU64 : Enc UInt64 := fun n e => e.extend (encodeSingleValue (stripLeadingZeros (toBEk 8 n.toNat)))

/-- `/repo/src/blockchain/ethereum/rlp/encoder.rs:56-62` `Encodable for BigUint`.  The number is given by its big-endian bytes
(`BigUint::to_be_bytes`); `Verif/Model/BigInt` proves that these are the minimal bytes of the value. -/
def encBigUintBytes : Enc (List UInt8) := fun be e => e.extend (encodeSingleValue (stripLeadingZeros be))

/-- `Encodable for BigUint` seen at the level of the denoted number: `BigUint::to_be_bytes` of a value `n` is `minBE n`
(proved for the digit-level model of `/repo/src/bigint/bytes.rs` as property C06). -/
def encBigUint : Enc Nat := fun n e => encBigUintBytes (Spec.minBE n) e

/-- `/repo/src/blockchain/ethereum/rlp/encoder.rs:64-68` `Encodable for &str`. -/
def encStr : Enc String := fun s e => e.extend (encodeSingleValue s.toByteArray.data.toList)

/-- `/repo/src/blockchain/ethereum/rlp/encoder.rs:84-88` `Encodable for Vec<u8>`. -/
def encVecU8 : Enc (List UInt8) := fun bs e => e.encodeBytes bs

/-- `/repo/src/blockchain/ethereum/rlp/encoder.rs:71-82` `Encodable for Vec<T>`. -/
def encVec {α : Type} (enc : Enc α) : Enc (List α) := fun vs e =>
  e.encodeListPayload (vs.foldl (fun acc v => enc v acc) EncItem.new)

/-! ## Decoding -/

/-- `/repo/src/blockchain/ethereum/rlp/decoding.rs:96-117` (and, with `List` and `0xf7`, 136-157): long-form header. -/
def decodeLongHeader (m : Build) (t : ItemType) (lenLen : Nat) (data : List UInt8) :
    Out RlpErr (ItemType × Nat × Nat) :=
  if data.length < 1 + lenLen then .err .InvalidFormat
  else
    let payloadLen := fromBE (List.replicate (8 - lenLen) 0 ++ (data.drop 1).take lenLen)
    (addU64 m (1 + lenLen) payloadLen).bind fun total =>
      if data.length < total then .err .InvalidFormat
      else .ok (t, 1 + lenLen, payloadLen)

/-- `/repo/src/blockchain/ethereum/rlp/decoding.rs:60-160` `decode_data_header`: item type, header length, payload length. -/
def decodeDataHeader (m : Build) (data : List UInt8) : Out RlpErr (ItemType × Nat × Nat) :=
  match data with
  | [] => .err .InvalidFormat
  | first :: _ =>
    if first ≤ 0x7f then .ok (.SingleValue, 0, 1)
    else if first ≤ 0xb7 then .ok (.SingleValue, 1, (first - 0x80).toNat)
    else if first ≤ 0xbf then decodeLongHeader m .SingleValue (first - 0xb7).toNat data
    else if first ≤ 0xf7 then .ok (.List, 1, (first - 0xc0).toNat)
    else decodeLongHeader m .List (first - 0xf7).toNat data

/-- Rust's `&s[i..]`: panics when `i > s.len()`. -/
def sliceFrom {ε : Type} (s : List UInt8) (i : Nat) : Out ε (List UInt8) :=
  if i ≤ s.length then .ok (s.drop i) else .panic

/-- `/repo/src/blockchain/ethereum/rlp/decoding.rs:18-25` `decode_data`. -/
def decodeData (m : Build) (data : List UInt8) : Out RlpErr (ItemType × List UInt8) :=
  (decodeDataHeader m data).bind fun (t, h, p) =>
    (addU64 m h p).bind fun total =>
      if data.length ≠ total then .err .InvalidFormat
      else (sliceFrom data h).bind fun payload => .ok (t, payload)

/-- `/repo/src/blockchain/ethereum/rlp/decoding.rs:33-49`: the loop of `decode_list_payload`, with fuel.
`split_at(total)` cannot panic because of the check before it (l.40-44). -/
def decodeListLoop (m : Build) : Nat → List UInt8 → Out RlpErr (List (ItemType × List UInt8))
  | 0, _ => .hang
  | fuel + 1, remaining =>
    if remaining.isEmpty then .ok []
    else
      (decodeDataHeader m remaining).bind fun (t, h, p) =>
        (addU64 m h p).bind fun total =>
          if remaining.length < total then .err .InvalidFormat
          else
            (sliceFrom (remaining.take total) h).bind fun payload =>
              (decodeListLoop m fuel (remaining.drop total)).bind fun items =>
                .ok ((t, payload) :: items)

/-- `/repo/src/blockchain/ethereum/rlp/decoding.rs:28-52` `decode_list_payload`.  One unit of fuel per remaining byte, plus one
for the final test, is always enough (`decodeListLoop_ne_hang`). -/
def decodeListPayload (m : Build) (payload : List UInt8) : Out RlpErr (List (ItemType × List UInt8)) :=
  decodeListLoop m (payload.length + 1) payload

/-- `/repo/src/blockchain/ethereum/rlp/decoder.rs:15-18` `RlpDecodingItem`. -/
structure DecItem where
  itemType : ItemType
  payload : List UInt8
  deriving Repr, DecidableEq

/-- `/repo/src/blockchain/ethereum/rlp/decoder.rs:46-49` `new_from_data`. -/
def DecItem.newFromData (m : Build) (data : List UInt8) : Out RlpErr DecItem :=
  (decodeData m data).bind fun (t, p) => .ok ⟨t, p⟩

/-- `/repo/src/blockchain/ethereum/rlp/decoder.rs:21-26` `decode_as_bytes`. -/
def DecItem.decodeAsBytes (d : DecItem) : Out RlpErr (List UInt8) :=
  if d.itemType ≠ .SingleValue then .err .InvalidFormat else .ok d.payload

/-- `/repo/src/blockchain/ethereum/rlp/decoder.rs:28-40` `decode_as_items`. -/
def DecItem.decodeAsItems (m : Build) (d : DecItem) : Out RlpErr (List DecItem) :=
  if d.itemType ≠ .List then .err .InvalidFormat
  else (decodeListPayload m d.payload).bind fun items => .ok (items.map fun x => ⟨x.1, x.2⟩)

/-- The `Decodable<RlpDecodingItem>` trait: `decode_from(&item)`. -/
abbrev Dec (α : Type) := DecItem → Out RlpErr α

/-- `/repo/src/tools/codable/core.rs:21-26` `decode`, at the RLP decoding item. -/
def decode {α : Type} (m : Build) (dec : Dec α) (data : List UInt8) : Out RlpErr α :=
  (DecItem.newFromData m data).bind dec

/-- `/repo/src/blockchain/ethereum/rlp/decoder.rs:52-69` `Decodable for u64`. -/
def decU64 : Dec UInt64 := fun d =>
  if d.itemType ≠ .SingleValue then .err .InvalidFormat
  else if d.payload.length > 8 then .err .InvalidFormat
  else .ok (UInt64.ofNat (fromBE (List.replicate (8 - d.payload.length) 0 ++ d.payload)))

/-- `/repo/src/blockchain/ethereum/rlp/decoder.rs:71-82` `Decodable for String` (`String::from_utf8`). -/
def decString : Dec String := fun d =>
  if d.itemType ≠ .SingleValue then .err .InvalidFormat
  else match String.fromUTF8? ⟨d.payload.toArray⟩ with
    | some s => .ok s
    | none => .err .InvalidFormat

/-- `/repo/src/blockchain/ethereum/rlp/decoder.rs:84-92` `Decodable for Vec<u8>`. -/
def decVecU8 : Dec (List UInt8) := fun d =>
  if d.itemType ≠ .SingleValue then .err .InvalidFormat else .ok d.payload

/-- `/repo/src/blockchain/ethereum/rlp/decoder.rs:94-107` `Decodable for BigUint`; the number is represented by the byte string
handed to `BigUint::from_be_bytes` (never empty). -/
def decBigUintBytes : Dec (List UInt8) := fun d =>
  if d.itemType ≠ .SingleValue then .err .InvalidFormat
  else .ok (if d.payload.isEmpty then [0] else d.payload)

/-- `Decodable for BigUint` at the level of the denoted number (`BigUint::from_be_bytes`, property C06). -/
def decBigUint : Dec Nat := fun d => (decBigUintBytes d).bind fun be => .ok (fromBE be)

/-- The loop `for item in items { values.push(T::decode_from(&item)?) }`. -/
def decAll {α : Type} (dec : Dec α) : List DecItem → Out RlpErr (List α)
  | [] => .ok []
  | d :: ds => (dec d).bind fun v => (decAll dec ds).bind fun vs => .ok (v :: vs)

/-- `/repo/src/blockchain/ethereum/rlp/decoder.rs:110-125` `Decodable for Vec<T>`, with its `debug_assert!` (l.115). -/
def decVec {α : Type} (m : Build) (dec : Dec α) : Dec (List α) := fun d =>
  (dassert m (d.itemType == .List)).bind fun _ =>
    (d.decodeAsItems m).bind (decAll dec)

/-! ## Arbitrary nested items

`Item` is the universe of RLP items.  A user type that is either a byte string or a vector of itself is encoded by dispatching to
`Vec<u8>` / `Vec<Self>` and decoded by dispatching on `item_type`, as the crate's own tests do
(`/repo/src/blockchain/ethereum/rlp/encoder.rs:128-152`, `/repo/src/blockchain/ethereum/rlp/decoder.rs:204-238`). -/

inductive Item where
  | bytes (b : List UInt8)
  | list (xs : List Item)

mutual
/-- Encoding of an item tree through `Vec<u8>::encode_to` and `Vec<T>::encode_to`. -/
def encTree : Item → EncItem → EncItem
  | .bytes b, e => encVecU8 b e
  | .list xs, e => e.encodeListPayload (encTrees xs EncItem.new)
/-- The `for value in self` loop of `Vec<T>::encode_to`. -/
def encTrees : List Item → EncItem → EncItem
  | [], e => e
  | x :: xs, e => encTrees xs (encTree x e)
end

/-- Decoding of an item tree; `fuel` bounds the nesting depth. -/
def decTree (m : Build) : Nat → Dec Item
  | 0 => fun _ => .hang
  | fuel + 1 => fun d =>
    match d.itemType with
    | .SingleValue => (decVecU8 d).bind fun b => .ok (.bytes b)
    | .List => (decVec m (decTree m fuel) d).bind fun xs => .ok (.list xs)

/-- `decode::<Tree>(data)`; nesting deeper than the number of bytes is impossible. -/
def decodeTree (m : Build) (data : List UInt8) : Out RlpErr Item := decode m (decTree m (data.length + 1)) data

end LCT.Rlp
