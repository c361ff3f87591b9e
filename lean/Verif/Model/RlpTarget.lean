import Verif.Model.Rlp

/-!
# RLP decoding on targets with other pointer widths

Models the functions of `/repo/src/blockchain/ethereum/rlp/decoding.rs` and `decoder.rs` that compute with `usize`, with the number `pw` of bits of a
`usize` as a parameter.  The declared length of a payload is a `u64` on every target (`/repo/src/blockchain/ethereum/rlp/core.rs:32`); it is cast to
`usize` by `as`, which drops the high bits.
-/

namespace LCT.Rlp

/-- `a + b` on a `usize` of `pw` bits: overflow panics in debug builds and wraps in release builds. -/
def addUsize {ε : Type} (pw : Nat) (m : Build) (a b : Nat) : Out ε Nat :=
  if a + b < 2 ^ pw then .ok (a + b)
  else match m with
    | .debug => .panic
    | .release => .ok ((a + b) % 2 ^ pw)

/-- `/repo/src/blockchain/ethereum/rlp/decoding.rs:96-117` (and, with `List` and `0xf7`, 136-157): long-form header.  The cast of l.106 (146) is the
remainder modulo `2^pw`. -/
def decodeLongHeaderT (pw : Nat) (m : Build) (t : ItemType) (lenLen : Nat) (data : List UInt8) :
    Out RlpErr (ItemType × Nat × Nat) :=
  if data.length < 1 + lenLen then .err .InvalidFormat
  else
    let payloadLen := fromBE (List.replicate (8 - lenLen) 0 ++ (data.drop 1).take lenLen) % 2 ^ pw
    (addUsize pw m (1 + lenLen) payloadLen).bind fun total =>
      if data.length < total then .err .InvalidFormat
      else .ok (t, 1 + lenLen, payloadLen)

/-- `/repo/src/blockchain/ethereum/rlp/decoding.rs:60-160` `decode_data_header`: item type, header length, payload length. -/
def decodeDataHeaderT (pw : Nat) (m : Build) (data : List UInt8) : Out RlpErr (ItemType × Nat × Nat) :=
  match data with
  | [] => .err .InvalidFormat
  | first :: _ =>
    if first ≤ 0x7f then .ok (.SingleValue, 0, 1)
    else if first ≤ 0xb7 then .ok (.SingleValue, 1, (first - 0x80).toNat)
    else if first ≤ 0xbf then decodeLongHeaderT pw m .SingleValue (first - 0xb7).toNat data
    else if first ≤ 0xf7 then .ok (.List, 1, (first - 0xc0).toNat)
    else decodeLongHeaderT pw m .List (first - 0xf7).toNat data

/-- `/repo/src/blockchain/ethereum/rlp/decoding.rs:18-25` `decode_data`. -/
def decodeDataT (pw : Nat) (m : Build) (data : List UInt8) : Out RlpErr (ItemType × List UInt8) :=
  (decodeDataHeaderT pw m data).bind fun (t, h, p) =>
    (addUsize pw m h p).bind fun total =>
      if data.length ≠ total then .err .InvalidFormat
      else (sliceFrom data h).bind fun payload => .ok (t, payload)

/-- `/repo/src/blockchain/ethereum/rlp/decoding.rs:33-49`: the loop of `decode_list_payload`, with fuel. -/
def decodeListLoopT (pw : Nat) (m : Build) : Nat → List UInt8 → Out RlpErr (List (ItemType × List UInt8))
  | 0, _ => .hang
  | fuel + 1, remaining =>
    if remaining.isEmpty then .ok []
    else
      (decodeDataHeaderT pw m remaining).bind fun (t, h, p) =>
        (addUsize pw m h p).bind fun total =>
          if remaining.length < total then .err .InvalidFormat
          else
            (sliceFrom (remaining.take total) h).bind fun payload =>
              (decodeListLoopT pw m fuel (remaining.drop total)).bind fun items =>
                .ok ((t, payload) :: items)

/-- `/repo/src/blockchain/ethereum/rlp/decoding.rs:28-52` `decode_list_payload`. -/
def decodeListPayloadT (pw : Nat) (m : Build) (payload : List UInt8) : Out RlpErr (List (ItemType × List UInt8)) :=
  decodeListLoopT pw m (payload.length + 1) payload

/-- `/repo/src/tools/codable/core.rs:21-26` `decode` with `/repo/src/blockchain/ethereum/rlp/decoder.rs:46-49` `new_from_data`. -/
def decodeT {α : Type} (pw : Nat) (m : Build) (dec : Dec α) (data : List UInt8) : Out RlpErr α :=
  (decodeDataT pw m data).bind fun (t, p) => dec ⟨t, p⟩

/-- `/repo/src/blockchain/ethereum/rlp/decoder.rs:110-125` `Decodable for Vec<T>` with `decode_as_items` (l.28-40). -/
def decVecT {α : Type} (pw : Nat) (m : Build) (dec : Dec α) : Dec (List α) := fun d =>
  (dassert m (d.itemType == .List)).bind fun _ =>
    if d.itemType ≠ .List then .err .InvalidFormat
    else (decodeListPayloadT pw m d.payload).bind fun items => decAll dec (items.map fun x => ⟨x.1, x.2⟩)

/-- Decoding of an item tree, as `decTree`. -/
def decTreeT (pw : Nat) (m : Build) : Nat → Dec Item
  | 0 => fun _ => .hang
  | fuel + 1 => fun d =>
    match d.itemType with
    | .SingleValue => (decVecU8 d).bind fun b => .ok (.bytes b)
    | .List => (decVecT pw m (decTreeT pw m fuel) d).bind fun xs => .ok (.list xs)

/-- `decode::<Tree>(data)`. -/
def decodeTreeT (pw : Nat) (m : Build) (data : List UInt8) : Out RlpErr Item := decodeT pw m (decTreeT pw m (data.length + 1)) data

end LCT.Rlp
