import Verif.Model.Codecs
import Verif.Model.RandomTests
import Verif.Model.Rlp

/-!
# The tests with published RLP encodings

`/repo/tests/blockchain/ethereum/rlp_ethers_js.rs`.  A failed assertion is a panic.  Reading the file is not modelled: an entry arrives as the JSON value
under `decoded` and, if the one under `encoded` is a string, that string.
-/

namespace LCT.RlpTests
open LCT.Out LCT.Codecs LCT.Rlp LCT.RandomTests

/-- `serde_json::Value`.  The tests treat `Null`, `Bool`, `Number` and `Object` alike, and so they are one case here. -/
inductive Json where
  | string (s : List UInt8)
  | array (vs : List Json)
  | other

/-- An entry of the file. -/
structure Entry where
  decoded : Json
  encoded : Option (List UInt8)

/-- `str::strip_prefix("0x")` with `unwrap`. -/
def strip0x : List UInt8 → Out Unit (List UInt8)
  | 48 :: 120 :: u => .ok u
  | _ => .panic

mutual
/-- `/repo/tests/blockchain/ethereum/rlp_ethers_js.rs:85-111` `encode_json_value`. -/
def encodeJson : Json → EncItem → Out Unit EncItem
  | .string s, e => do
    let u ← strip0x s
    let bytes ← unwrapped (hexToBytes u)
    return e.encodeBytes bytes
  | .array vs, e => do
    let item ← encodeJsons vs EncItem.new
    return e.encodeListPayload item
  | .other, _ => .panic
/-- The loop of `encode_json_value`, `/repo/tests/blockchain/ethereum/rlp_ethers_js.rs:102-104`. -/
def encodeJsons : List Json → EncItem → Out Unit EncItem
  | [], e => .ok e
  | v :: vs, e => do
    let e ← encodeJson v e
    encodeJsons vs e
end

/-- `/repo/tests/blockchain/ethereum/rlp_ethers_js.rs:113-130` `decode_json_value`; `fuel` bounds the nesting depth. -/
def decodeJson (m : Build) : Nat → Dec Json
  | 0 => fun _ => .hang
  | fuel + 1 => fun d =>
    match d.itemType with
    | .SingleValue => do
      let s ← d.decodeAsBytes
      return .string ([48, 120] ++ bytesToLowerHex s)
    | .List => do
      let items ← d.decodeAsItems m
      let values ← decAll (decodeJson m fuel) items
      return .array values

mutual
/-- `PartialEq` of `serde_json::Value`, for a left value that `decode_json_value` returns. -/
def Json.beq : Json → Json → Bool
  | .string s, .string t => s == t
  | .array vs, .array ws => beqs vs ws
  | _, _ => false
/-- `PartialEq` of `Vec<Value>`. -/
def Json.beqs : List Json → List Json → Bool
  | [], [] => true
  | v :: vs, w :: ws => v.beq w && beqs vs ws
  | _, _ => false
end

/-- `/repo/tests/blockchain/ethereum/rlp_ethers_js.rs:34-43`, with `encode` of `/repo/src/tools/codable/core.rs`. -/
def encodingCase (v : Entry) : Out Unit Unit := do
  let encodedHex ← unwrap v.encoded
  let encodedHex ← strip0x encodedHex
  let item ← encodeJson v.decoded EncItem.new
  rassert (bytesToLowerHex item.takeData.1 == encodedHex)

/-- `/repo/tests/blockchain/ethereum/rlp_ethers_js.rs:56-64`. -/
def decodingCase (m : Build) (v : Entry) : Out Unit Unit := do
  let encodedHex ← unwrap v.encoded
  let encodedHex ← strip0x encodedHex
  let data ← unwrapped (hexToBytes encodedHex)
  let json ← unwrapped (decode m (decodeJson m (data.length + 1)) data)
  rassert (json.beq v.decoded)

/-- The loop of both tests, `/repo/tests/blockchain/ethereum/rlp_ethers_js.rs:32-44,54-66`, which counts the entries. -/
def entries (f : Entry → Out Unit Unit) : Nat → List Entry → Out Unit Nat
  | count, [] => .ok count
  | count, v :: vs => do
    f v
    entries f (count + 1) vs

/-- `/repo/tests/blockchain/ethereum/rlp_ethers_js.rs:26-46` `test_encoding`. -/
def testEncoding (vs : List Entry) : Out Unit Unit := do
  let count ← entries encodingCase 0 vs
  rassert (decide (60 < count))

/-- `/repo/tests/blockchain/ethereum/rlp_ethers_js.rs:48-68` `test_decoding`. -/
def testDecoding (m : Build) (vs : List Entry) : Out Unit Unit := do
  let count ← entries (decodingCase m) 0 vs
  rassert (decide (60 < count))

end LCT.RlpTests
