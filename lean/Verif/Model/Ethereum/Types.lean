import Verif.Model.Codecs
import Verif.Model.Rlp
import Verif.Model.Hash.Sha3
import Verif.Model.BigInt.BigInt

/-!
# Ethereum value types and their RLP forms

Models `/repo/src/blockchain/ethereum/types/*.rs`.  Text is a list of bytes (the UTF-8 bytes of a `str`).  Numbers of type `BigUint` are the
digit-level numbers of `Verif/Model/BigInt`, so encoding them can in principle panic.
-/

namespace LCT.Ethereum
open LCT.BigInt LCT.Rlp LCT.Codecs
variable {ε : Type}

/-- `/repo/src/blockchain/ethereum/types/address.rs:16-20` `Address`, a `[u8; 20]`. -/
structure Address where
  data : List UInt8
  len : data.length = 20
  deriving DecidableEq

/-- `/repo/src/blockchain/ethereum/types/address.rs:24-26` `null`. -/
def Address.null : Address := ⟨List.replicate 20 0, by decide⟩

/-- `/repo/src/blockchain/ethereum/types/address.rs:28-34` `from_bytes` (`<[u8; 20]>::try_from` succeeds exactly for slices of length 20). -/
def Address.fromBytes (bytes : List UInt8) : Option Address :=
  if h : bytes.length = 20 then some ⟨bytes, h⟩ else none

/-- `/repo/src/blockchain/ethereum/types/address.rs:36-42` `from_hex`. -/
def Address.fromHex (hex : List UInt8) : Option Address :=
  match hexToBytes hex with
  | .ok bytes => Address.fromBytes bytes
  | _ => none

/-- `/repo/src/blockchain/ethereum/types/address.rs:46-48` `to_lower_hex`. -/
def Address.toLowerHex (a : Address) : List UInt8 := bytesToLowerHex a.data

/-- The loop of `/repo/src/blockchain/ethereum/types/address.rs:98-112`. -/
def checksumLoop : List UInt8 → List UInt8 → Out ε (List UInt8)
  | c1 :: cs, c2 :: hs => do
    let c ← (if 48 ≤ c1 ∧ c1 ≤ 57 then pure c1
      else if 97 ≤ c1 ∧ c1 ≤ 102 then (if c2 > 55 then pure (c1 - 32) else pure c1)
      else .panic : Out ε UInt8)
    let rest ← checksumLoop cs hs
    return c :: rest
  | _, _ => return []

/-- `/repo/src/blockchain/ethereum/types/address.rs:94-116` `eip_55_checksum_encode`. -/
def eip55ChecksumEncode (m : Build) (lowerHex : List UInt8) : Out ε (List UInt8) := do
  let (hash, _) ← Hash.Sha3.Keccak256.digest m Hash.Sha3.Keccak256.fresh lowerHex
  let out ← checksumLoop lowerHex (bytesToLowerHex hash)
  rassert (out.length == 40)
  return out

/-- `/repo/src/blockchain/ethereum/types/address.rs:50-53` `to_checksummed_hex`.  `String::from_utf8(..).unwrap()` is modelled as requiring
ASCII, which is stricter than the code. -/
def Address.toChecksummedHex (m : Build) (a : Address) : Out ε (List UInt8) := do
  let out ← eip55ChecksumEncode m a.toLowerHex
  rassert (out.all (· < 128))
  return out

/-- `/repo/src/blockchain/ethereum/types/address.rs:56-61` `Display` (48, 120 is `0x`). -/
def Address.display (m : Build) (a : Address) : Out ε (List UInt8) := do
  let hex ← a.toChecksummedHex m
  return 48 :: 120 :: hex

/-- `/repo/src/blockchain/ethereum/types/address.rs:69-83` `TryFrom<&str>`. -/
def Address.tryFromStr (value : List UInt8) : Out ParseIntError Address :=
  match value with
  | 48 :: 120 :: s =>
    match Address.fromHex s with
    | some a => .ok a
    | none => .err .InvalidInput
  | _ => .err .InvalidInput

/-- `/repo/src/blockchain/ethereum/types/address_rlp.rs:14-18` `encode_to`. -/
def encAddress : Enc Address := fun a e => e.encodeBytes a.data

/-- `/repo/src/blockchain/ethereum/types/address_rlp.rs:20-34` `decode_from`. -/
def decAddress : Dec Address := fun d =>
  match d.itemType with
  | .SingleValue => do
    let bytes ← d.decodeAsBytes
    match Address.fromBytes bytes with
    | some a => .ok a
    | none => .err .InvalidFormat
  | .List => .err .InvalidFormat

/-- `/repo/src/blockchain/ethereum/types/storage_key.rs:12-15` `StorageKey`, a `[u8; 32]`. -/
structure StorageKey where
  data : List UInt8
  len : data.length = 32
  deriving DecidableEq

/-- `/repo/src/blockchain/ethereum/types/storage_key.rs:18-24` `from_bytes`. -/
def StorageKey.fromBytes (bytes : List UInt8) : Option StorageKey :=
  if h : bytes.length = 32 then some ⟨bytes, h⟩ else none

/-- `/repo/src/blockchain/ethereum/types/storage_key.rs:26-32` `from_hex`. -/
def StorageKey.fromHex (hex : List UInt8) : Option StorageKey :=
  match hexToBytes hex with
  | .ok bytes => StorageKey.fromBytes bytes
  | _ => none

/-- `/repo/src/blockchain/ethereum/types/storage_key.rs:35-46` `to_lower_hex` and `Display`. -/
def StorageKey.display (k : StorageKey) : List UInt8 := 48 :: 120 :: bytesToLowerHex k.data

/-- `/repo/src/blockchain/ethereum/types/storage_key.rs:54-68` `TryFrom<&str>`. -/
def StorageKey.tryFromStr (value : List UInt8) : Out ParseIntError StorageKey :=
  match value with
  | 48 :: 120 :: s =>
    match StorageKey.fromHex s with
    | some a => .ok a
    | none => .err .InvalidInput
  | _ => .err .InvalidInput

/-- `/repo/src/blockchain/ethereum/types/storage_key_rlp.rs:13-17` `encode_to`. -/
def encStorageKey : Enc StorageKey := fun k e => e.encodeBytes k.data

/-- `/repo/src/blockchain/ethereum/types/storage_key_rlp.rs:19-27` `decode_from`. -/
def decStorageKey : Dec StorageKey := fun d => do
  let bytes ← d.decodeAsBytes
  match StorageKey.fromBytes bytes with
  | none => .err .InvalidFormat
  | some k => .ok k

/-! ## Numbers -/

/-- `/repo/src/blockchain/ethereum/types/currency_unit.rs:21` `Wei`, a wrapped `BigUint`. -/
abbrev Wei := BInt

/-- `/repo/src/blockchain/ethereum/types/chain_id.rs:13-19` `ChainId`, a wrapped `BigUint`. -/
abbrev ChainId := BInt

/-- `/repo/src/blockchain/ethereum/types/currency_unit.rs:27-29` `from_hex`. -/
def Wei.fromHex (w : Nat) (hex : List UInt8) : Out ParseIntError Wei := BUint.fromHex w hex

/-- `/repo/src/blockchain/ethereum/types/currency_unit.rs:32-34` `from_decimal`. -/
def Wei.fromDecimal (m : Build) (w : Nat) (s : List UInt8) : Out ParseIntError Wei := BUint.fromStrRadix m w s 10

/-- `/repo/src/blockchain/ethereum/types/currency_unit.rs:47-54` `TryFrom<&str>`. -/
def Wei.tryFromStr (m : Build) (w : Nat) (s : List UInt8) : Out ParseIntError Wei := BUint.tryFromStr m w s

/-- `/repo/src/blockchain/ethereum/types/currency_unit.rs:56-61` `Display`. -/
def Wei.display (m : Build) (w : Nat) (x : Wei) : Out ε (List UInt8) := do
  let hex ← x.toLowerHex m w
  return 48 :: 120 :: hex

/-- `/repo/src/blockchain/ethereum/types/chain_id.rs:21-25` `From<u64>`. -/
def ChainId.fromU64 (w : Nat) (n : UInt64) : Out ε ChainId := BUint.ofNat w n.toNat

/-- `/repo/src/blockchain/ethereum/types/chain_id.rs:33-43` `Chain`. -/
inductive Chain where
  | EthereumMainnet
  | ExpanseMainnet
  | Ropsten
  | Rinkeby
  | Goerli
  | Kovan
  | GethPrivateChains
  deriving DecidableEq

/-- `self as u64`: the discriminants at `/repo/src/blockchain/ethereum/types/chain_id.rs:36-42`. -/
def Chain.toU64 : Chain → UInt64
  | .EthereumMainnet => 1
  | .ExpanseMainnet => 2
  | .Ropsten => 3
  | .Rinkeby => 4
  | .Goerli => 5
  | .Kovan => 42
  | .GethPrivateChains => 1337

/-- `/repo/src/blockchain/ethereum/types/chain_id.rs:45-49` `Chain::id`. -/
def Chain.chainId (w : Nat) (c : Chain) : Out ε ChainId := BUint.ofNat w c.toU64.toNat

/-- `/repo/src/blockchain/ethereum/rlp/encoder.rs:56-62` `Encodable for BigUint`, at the level of digits; also `Wei`
(`/repo/src/blockchain/ethereum/types/currency_unit_rlp.rs:14-18`) and `ChainId` (`chain_id_rlp.rs:14-18`). -/
def encBig (m : Build) (w : Nat) (x : BInt) (e : EncItem) : Out ε EncItem := do
  let be ← x.toBeBytes m w
  return encBigUintBytes be e

/-- `/repo/src/blockchain/ethereum/rlp/decoder.rs:94-107` `Decodable for BigUint`, at the level of digits; also `Wei`
(`/repo/src/blockchain/ethereum/types/currency_unit_rlp.rs:20-25`) and `ChainId` (`chain_id_rlp.rs:20-25`). -/
def decBig (w : Nat) : Dec BInt := fun d => do
  let be ← decBigUintBytes d
  BUint.fromBeBytes w be

/-- `/repo/src/blockchain/ethereum/types/eoa_nonce.rs:22` `EoaNonce`. -/
structure EoaNonce where
  value : UInt64
  deriving DecidableEq

/-- `/repo/src/blockchain/ethereum/types/eoa_nonce.rs:25-31` `from_u64`; `try_from` (l.38-47) is the same with an error for `None`. -/
def EoaNonce.fromU64 (n : UInt64) : Option EoaNonce :=
  if n = 0xffffffffffffffff then none else some ⟨n⟩

/-- The standard library's `{:x}` of a `u64` (used at `/repo/src/blockchain/ethereum/types/eoa_nonce.rs:52`): lower-case hex digits, at
least one, no leading zeros. -/
def lowerHexU64 (n : Nat) : List UInt8 :=
  let d : UInt8 := if n % 16 < 10 then 48 + UInt8.ofNat (n % 16) else 87 + UInt8.ofNat (n % 16)
  if n < 16 then [d] else lowerHexU64 (n / 16) ++ [d]
termination_by n

/-- `/repo/src/blockchain/ethereum/types/eoa_nonce.rs:49-54` `Display`: `{n:#x}`, which is `{:x}` after `0x` (48, 120). -/
def EoaNonce.display (n : EoaNonce) : List UInt8 := 48 :: 120 :: lowerHexU64 n.value.toNat

/-- `/repo/src/blockchain/ethereum/types/eoa_nonce_rlp.rs:13-17` `encode_to`. -/
def encNonce : Enc EoaNonce := fun n e => encU64 n.value e

/-- `/repo/src/blockchain/ethereum/types/eoa_nonce_rlp.rs:19-27` `decode_from`. -/
def decNonce : Dec EoaNonce := fun d => do
  let n ← decU64 d
  match EoaNonce.fromU64 n with
  | some nonce => .ok nonce
  | none => .err .InvalidFormat

/-! ## Access lists -/

/-- `/repo/src/blockchain/ethereum/types/access_list.rs:11-14` `AccessListItem`. -/
structure AccessListItem where
  address : Address
  storageKeys : List StorageKey
  deriving DecidableEq

/-- `/repo/src/blockchain/ethereum/types/access_list.rs:29-30` `AccessList`. -/
abbrev AccessList := List AccessListItem

/-- `iter.next().unwrap()`. -/
def nextItem : List DecItem → Out ε (DecItem × List DecItem)
  | [] => .panic
  | d :: ds => .ok (d, ds)

/-- `/repo/src/blockchain/ethereum/types/access_list_rlp.rs:15-23` `encode_to`. -/
def encAccessListItem : Enc AccessListItem := fun it e =>
  let item := EncItem.new
  let item := encAddress it.address item
  let item := encVec encStorageKey it.storageKeys item
  e.encodeListPayload item

/-- `/repo/src/blockchain/ethereum/types/access_list_rlp.rs:25-45` `decode_from`. -/
def decAccessListItem (m : Build) : Dec AccessListItem := fun d =>
  match d.itemType with
  | .SingleValue => .err .InvalidFormat
  | .List => do
    let items ← d.decodeAsItems m
    if items.length ≠ 2 then .err .InvalidFormat
    else do
      let (i, items) ← nextItem items
      let address ← decAddress i
      let (i, _) ← nextItem items
      let storageKeys ← decVec m decStorageKey i
      return ⟨address, storageKeys⟩

/-- `/repo/src/blockchain/ethereum/types/access_list_rlp.rs:47-51` `encode_to`. -/
def encAccessList : Enc AccessList := encVec encAccessListItem

/-- `/repo/src/blockchain/ethereum/types/access_list_rlp.rs:53-63` `decode_from`. -/
def decAccessList (m : Build) : Dec AccessList := fun d =>
  match d.itemType with
  | .SingleValue => .err .InvalidFormat
  | .List => decVec m (decAccessListItem m) d

end LCT.Ethereum
