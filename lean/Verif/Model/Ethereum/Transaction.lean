import Verif.Model.Ethereum.Types
import Verif.Model.Crypto.Signing
import Verif.Model.Hash.Sha2

/-!
# Ethereum transactions: builder, payloads, signing, encoding and decoding

Models `/repo/src/blockchain/ethereum/transaction`.  The `Display` implementations are in `Verif.Model.Ethereum.Display`.  `Vec::with_capacity` is not modelled
(allocation never fails in the model).
-/

namespace LCT.Ethereum
open LCT.BigInt LCT.Rlp LCT.Crypto LCT.Random LCT.Hash
variable {ε : Type}

/-- `/repo/src/crypto/ecdsa/ecdsa_signing.rs:28-34` `sign_with_options`: the nonce generator uses HMAC with a new SHA-256 hasher. -/
def signDefault (m : Build) (w fuel nonceFuel : Nat) (rand : Nat → Out RandomError (List UInt8)) (hash : List UInt8) (key : PrivateKey)
    (o : SigningOptions) : Out SigningError (Signature × RecoveryId) :=
  signWithOptions m w Hash.Sha2.Sha256 fuel nonceFuel Hash.Sha2.Sha256.fresh rand hash key o

/-! ## The builder -/

/-- `/repo/src/blockchain/ethereum/transaction/builder.rs:15-20` `TransactionBuildingError`. -/
inductive BuildingError where
  | MissingFields
  | SigningError (e : SigningError)
  deriving Repr, DecidableEq

/-- `/repo/src/blockchain/ethereum/transaction/builder.rs:33-44` `TransactionBuilder`. -/
structure Builder where
  chainId : Option ChainId
  nonce : Option EoaNonce
  gasPrice : Option Wei
  maxPriorityFeePerGas : Option Wei
  maxFeePerGas : Option Wei
  gasLimit : Option UInt64
  destination : Option Address
  amount : Option Wei
  data : Option (List UInt8)
  accessList : Option AccessList

namespace Builder

/-- `/repo/src/blockchain/ethereum/transaction/builder.rs:47-60` `new`. -/
def new : Builder := ⟨none, none, none, none, none, none, none, none, none, none⟩

/-- `/repo/src/blockchain/ethereum/transaction/builder.rs:62-65`. -/
def withChainId (b : Builder) (x : ChainId) : Builder := { b with chainId := some x }
/-- `/repo/src/blockchain/ethereum/transaction/builder.rs:67-70`. -/
def withNonce (b : Builder) (x : EoaNonce) : Builder := { b with nonce := some x }
/-- `/repo/src/blockchain/ethereum/transaction/builder.rs:72-75`. -/
def withGasPrice (b : Builder) (x : Wei) : Builder := { b with gasPrice := some x }
/-- `/repo/src/blockchain/ethereum/transaction/builder.rs:77-83`. -/
def withMaxPriorityFeePerGas (b : Builder) (x : Wei) : Builder := { b with maxPriorityFeePerGas := some x }
/-- `/repo/src/blockchain/ethereum/transaction/builder.rs:85-88`. -/
def withMaxFeePerGas (b : Builder) (x : Wei) : Builder := { b with maxFeePerGas := some x }
/-- `/repo/src/blockchain/ethereum/transaction/builder.rs:90-93`. -/
def withGasLimit (b : Builder) (x : UInt64) : Builder := { b with gasLimit := some x }
/-- `/repo/src/blockchain/ethereum/transaction/builder.rs:95-98`. -/
def withDestination (b : Builder) (x : Address) : Builder := { b with destination := some x }
/-- `/repo/src/blockchain/ethereum/transaction/builder.rs:100-103`. -/
def withAmount (b : Builder) (x : Wei) : Builder := { b with amount := some x }
/-- `/repo/src/blockchain/ethereum/transaction/builder.rs:105-108`. -/
def withData (b : Builder) (x : List UInt8) : Builder := { b with data := some x }
/-- `/repo/src/blockchain/ethereum/transaction/builder.rs:110-113`. -/
def withAccessList (b : Builder) (x : AccessList) : Builder := { b with accessList := some x }

end Builder

/-! ## Payloads -/

/-- `/repo/src/blockchain/ethereum/transaction/payload/legacy.rs:17-24`. -/
structure PayloadLegacy where
  nonce : EoaNonce
  gasPrice : Wei
  gasLimit : UInt64
  destination : Address
  amount : Wei
  data : List UInt8

/-- `/repo/src/blockchain/ethereum/transaction/payload/eip_155.rs:15-23`. -/
structure PayloadEip155 where
  chainId : ChainId
  nonce : EoaNonce
  gasPrice : Wei
  gasLimit : UInt64
  destination : Address
  amount : Wei
  data : List UInt8

/-- `/repo/src/blockchain/ethereum/transaction/payload/eip_2930.rs:13-22`. -/
structure PayloadEip2930 where
  chainId : ChainId
  nonce : EoaNonce
  gasPrice : Wei
  gasLimit : UInt64
  destination : Address
  amount : Wei
  data : List UInt8
  accessList : AccessList

/-- `/repo/src/blockchain/ethereum/transaction/payload/eip_1559.rs:13-23`. -/
structure PayloadEip1559 where
  chainId : ChainId
  nonce : EoaNonce
  maxPriorityFeePerGas : Wei
  maxFeePerGas : Wei
  gasLimit : UInt64
  destination : Address
  amount : Wei
  data : List UInt8
  accessList : AccessList

namespace Builder

/-- `/repo/src/blockchain/ethereum/transaction/payload/legacy.rs:27-54` `take_and_build_payload_legacy`: the returned `Result` and the builder
afterwards. -/
def takeAndBuildLegacy (b : Builder) : Out ε (Except BuildingError PayloadLegacy × Builder) :=
  if b.nonce.isNone || b.gasPrice.isNone || b.gasLimit.isNone || b.destination.isNone || b.amount.isNone then
    return (.error .MissingFields, b)
  else do
    let nonce ← unwrap b.nonce
    let b := { b with nonce := none }
    let gasPrice ← unwrap b.gasPrice
    let b := { b with gasPrice := none }
    let gasLimit ← unwrap b.gasLimit
    let b := { b with gasLimit := none }
    let destination ← unwrap b.destination
    let b := { b with destination := none }
    let amount ← unwrap b.amount
    let b := { b with amount := none }
    let data := b.data.getD []
    let b := { b with data := none }
    return (.ok ⟨nonce, gasPrice, gasLimit, destination, amount, data⟩, b)

/-- `/repo/src/blockchain/ethereum/transaction/payload/eip_155.rs:26-56` `take_and_build_payload_eip_155`. -/
def takeAndBuildEip155 (b : Builder) : Out ε (Except BuildingError PayloadEip155 × Builder) :=
  if b.chainId.isNone || b.nonce.isNone || b.gasPrice.isNone || b.gasLimit.isNone || b.destination.isNone || b.amount.isNone then
    return (.error .MissingFields, b)
  else do
    let chainId ← unwrap b.chainId
    let b := { b with chainId := none }
    let nonce ← unwrap b.nonce
    let b := { b with nonce := none }
    let gasPrice ← unwrap b.gasPrice
    let b := { b with gasPrice := none }
    let gasLimit ← unwrap b.gasLimit
    let b := { b with gasLimit := none }
    let destination ← unwrap b.destination
    let b := { b with destination := none }
    let amount ← unwrap b.amount
    let b := { b with amount := none }
    let data := b.data.getD []
    let b := { b with data := none }
    return (.ok ⟨chainId, nonce, gasPrice, gasLimit, destination, amount, data⟩, b)

/-- `/repo/src/blockchain/ethereum/transaction/payload/eip_2930.rs:25-57` `take_and_build_payload_eip_2930`. -/
def takeAndBuildEip2930 (b : Builder) : Out ε (Except BuildingError PayloadEip2930 × Builder) :=
  if b.chainId.isNone || b.nonce.isNone || b.gasPrice.isNone || b.gasLimit.isNone || b.destination.isNone || b.amount.isNone then
    return (.error .MissingFields, b)
  else do
    let chainId ← unwrap b.chainId
    let b := { b with chainId := none }
    let nonce ← unwrap b.nonce
    let b := { b with nonce := none }
    let gasPrice ← unwrap b.gasPrice
    let b := { b with gasPrice := none }
    let gasLimit ← unwrap b.gasLimit
    let b := { b with gasLimit := none }
    let destination ← unwrap b.destination
    let b := { b with destination := none }
    let amount ← unwrap b.amount
    let b := { b with amount := none }
    let data := b.data.getD []
    let b := { b with data := none }
    let accessList := b.accessList.getD []
    let b := { b with accessList := none }
    return (.ok ⟨chainId, nonce, gasPrice, gasLimit, destination, amount, data, accessList⟩, b)

/-- `/repo/src/blockchain/ethereum/transaction/payload/eip_1559.rs:26-61` `take_and_build_payload_eip_1559`. -/
def takeAndBuildEip1559 (b : Builder) : Out ε (Except BuildingError PayloadEip1559 × Builder) :=
  if b.chainId.isNone || b.nonce.isNone || b.maxPriorityFeePerGas.isNone || b.maxFeePerGas.isNone || b.gasLimit.isNone ||
      b.destination.isNone || b.amount.isNone then
    return (.error .MissingFields, b)
  else do
    let chainId ← unwrap b.chainId
    let b := { b with chainId := none }
    let nonce ← unwrap b.nonce
    let b := { b with nonce := none }
    let maxPriorityFeePerGas ← unwrap b.maxPriorityFeePerGas
    let b := { b with maxPriorityFeePerGas := none }
    let maxFeePerGas ← unwrap b.maxFeePerGas
    let b := { b with maxFeePerGas := none }
    let gasLimit ← unwrap b.gasLimit
    let b := { b with gasLimit := none }
    let destination ← unwrap b.destination
    let b := { b with destination := none }
    let amount ← unwrap b.amount
    let b := { b with amount := none }
    let data := b.data.getD []
    let b := { b with data := none }
    let accessList := b.accessList.getD []
    let b := { b with accessList := none }
    return (.ok ⟨chainId, nonce, maxPriorityFeePerGas, maxFeePerGas, gasLimit, destination, amount, data, accessList⟩, b)

end Builder

/-- `encode(&value)` (`/repo/src/tools/codable/core.rs:13-18`) for a type whose `encode_to` can panic. -/
def encodeM {α : Type} (enc : α → EncItem → Out ε EncItem) (v : α) : Out ε (List UInt8) := do
  let e ← enc v EncItem.new
  return e.takeData.1

/-- `/repo/src/blockchain/ethereum/transaction/payload/legacy_rlp.rs:11-23` `encode_to`. -/
def PayloadLegacy.encodeTo (m : Build) (w : Nat) (p : PayloadLegacy) (e : EncItem) : Out ε EncItem := do
  let l := EncItem.new
  let l := encNonce p.nonce l
  let l ← encBig m w p.gasPrice l
  let l := encU64 p.gasLimit l
  let l := encAddress p.destination l
  let l ← encBig m w p.amount l
  let l := encVecU8 p.data l
  return e.encodeListPayload l

/-- `/repo/src/blockchain/ethereum/transaction/payload/eip_155_rlp.rs:17-32` `encode_to`. -/
def PayloadEip155.encodeTo (m : Build) (w : Nat) (p : PayloadEip155) (e : EncItem) : Out ε EncItem := do
  let l := EncItem.new
  let l := encNonce p.nonce l
  let l ← encBig m w p.gasPrice l
  let l := encU64 p.gasLimit l
  let l := encAddress p.destination l
  let l ← encBig m w p.amount l
  let l := encVecU8 p.data l
  let l ← encBig m w p.chainId l
  let l := encU64 0 l
  let l := encU64 0 l
  return e.encodeListPayload l

/-- `/repo/src/blockchain/ethereum/transaction/payload/eip_2930_rlp.rs:13-28` `encode_to`. -/
def PayloadEip2930.encodeTo (m : Build) (w : Nat) (p : PayloadEip2930) (e : EncItem) : Out ε EncItem := do
  let l := EncItem.new
  let l ← encBig m w p.chainId l
  let l := encNonce p.nonce l
  let l ← encBig m w p.gasPrice l
  let l := encU64 p.gasLimit l
  let l := encAddress p.destination l
  let l ← encBig m w p.amount l
  let l := encVecU8 p.data l
  let l := encAccessList p.accessList l
  return e.encodeListPayload l

/-- `/repo/src/blockchain/ethereum/transaction/payload/eip_1559_rlp.rs:13-30` `encode_to`. -/
def PayloadEip1559.encodeTo (m : Build) (w : Nat) (p : PayloadEip1559) (e : EncItem) : Out ε EncItem := do
  let l := EncItem.new
  let l ← encBig m w p.chainId l
  let l := encNonce p.nonce l
  let l ← encBig m w p.maxPriorityFeePerGas l
  let l ← encBig m w p.maxFeePerGas l
  let l := encU64 p.gasLimit l
  let l := encAddress p.destination l
  let l ← encBig m w p.amount l
  let l := encVecU8 p.data l
  let l := encAccessList p.accessList l
  return e.encodeListPayload l

/-! ## Signed transactions -/

/-- `/repo/src/blockchain/ethereum/transaction/types/transaction_legacy.rs:16-21`. -/
structure TransactionLegacy where
  payload : PayloadLegacy
  v : UInt8
  r : BInt
  s : BInt

/-- `/repo/src/blockchain/ethereum/transaction/types/transaction_eip_155.rs:16-21`. -/
structure TransactionEip155 where
  payload : PayloadEip155
  v : BInt
  r : BInt
  s : BInt

/-- `/repo/src/blockchain/ethereum/transaction/types/transaction_eip_2930.rs:18-23`. -/
structure TransactionEip2930 where
  payload : PayloadEip2930
  yParity : YParity
  r : BInt
  s : BInt

/-- `/repo/src/blockchain/ethereum/transaction/types/transaction_eip_1559.rs:18-23`. -/
structure TransactionEip1559 where
  payload : PayloadEip1559
  yParity : YParity
  r : BInt
  s : BInt

/-- `/repo/src/blockchain/ethereum/transaction/types/transaction_eip_2930.rs:26-28` `transaction_type`. -/
def TransactionEip2930.transactionType : UInt8 := 0x1

/-- `/repo/src/blockchain/ethereum/transaction/types/transaction_eip_1559.rs:26-28` `transaction_type`. -/
def TransactionEip1559.transactionType : UInt8 := 0x2

/-- `Keccak256::new().digest(message)`. -/
def keccak (m : Build) (message : List UInt8) : Out ε (List UInt8) := do
  let (hash, _) ← Hash.Sha3.Keccak256.digest m Hash.Sha3.Keccak256.fresh message
  return hash

section
variable (m : Build) (w fuel nonceFuel : Nat) (rand : Nat → Out RandomError (List UInt8)) (key : PrivateKey) (o : SigningOptions)

/-- `/repo/src/blockchain/ethereum/transaction/types/transaction_legacy.rs:30-54` `take_and_sign_with_options`.  `27 + parity` cannot
overflow a `u8`. -/
def PayloadLegacy.sign (p : PayloadLegacy) : Out BuildingError TransactionLegacy := do
  let rlpData ← encodeM (PayloadLegacy.encodeTo m w) p
  let hash ← keccak m rlpData
  let (signature, id) ← (signDefault m w fuel nonceFuel rand hash key o).mapErr .SigningError
  let r ← unwrap (BUint.fromBigint signature.r)
  let s ← unwrap (BUint.fromBigint signature.s)
  let v := 27 + id.yParity.toU8
  return ⟨p, v, r, s⟩

/-- `/repo/src/blockchain/ethereum/transaction/types/transaction_eip_155.rs:30-56` `take_and_sign_with_options`. -/
def PayloadEip155.sign (p : PayloadEip155) : Out BuildingError TransactionEip155 := do
  let rlpData ← encodeM (PayloadEip155.encodeTo m w) p
  let hash ← keccak m rlpData
  let (signature, id) ← (signDefault m w fuel nonceFuel rand hash key o).mapErr .SigningError
  let r ← unwrap (BUint.fromBigint signature.r)
  let s ← unwrap (BUint.fromBigint signature.s)
  let parity ← BUint.ofNat w id.yParity.toU8.toNat
  let two ← BUint.ofNat w 2
  let c ← BInt.mul m w p.chainId two
  let v ← BInt.add m w parity c
  let n35 ← BUint.ofNat w 35
  let v ← BInt.add m w v n35
  return ⟨p, v, r, s⟩

/-- `/repo/src/blockchain/ethereum/transaction/types/transaction_eip_2930.rs:32-61` `take_and_sign_with_options`. -/
def PayloadEip2930.sign (p : PayloadEip2930) : Out BuildingError TransactionEip2930 := do
  let rlpData ← encodeM (PayloadEip2930.encodeTo m w) p
  let hash ← keccak m (TransactionEip2930.transactionType :: rlpData)
  let (signature, id) ← (signDefault m w fuel nonceFuel rand hash key o).mapErr .SigningError
  let yParity := id.yParity
  let r ← unwrap (BUint.fromBigint signature.r)
  let s ← unwrap (BUint.fromBigint signature.s)
  return ⟨p, yParity, r, s⟩

/-- `/repo/src/blockchain/ethereum/transaction/types/transaction_eip_1559.rs:32-56` `take_and_sign_with_options`. -/
def PayloadEip1559.sign (p : PayloadEip1559) : Out BuildingError TransactionEip1559 := do
  let rlpData ← encodeM (PayloadEip1559.encodeTo m w) p
  let hash ← keccak m (TransactionEip1559.transactionType :: rlpData)
  let (signature, id) ← (signDefault m w fuel nonceFuel rand hash key o).mapErr .SigningError
  let yParity := id.yParity
  let r ← unwrap (BUint.fromBigint signature.r)
  let s ← unwrap (BUint.fromBigint signature.s)
  return ⟨p, yParity, r, s⟩

end

/-! ## Encoding of signed transactions -/

/-- `/repo/src/blockchain/ethereum/transaction/types/transaction_legacy_rlp.rs:17-32` `encode_to`. -/
def TransactionLegacy.encodeTo (m : Build) (w : Nat) (t : TransactionLegacy) (e : EncItem) : Out ε EncItem := do
  let l := EncItem.new
  let l := encNonce t.payload.nonce l
  let l ← encBig m w t.payload.gasPrice l
  let l := encU64 t.payload.gasLimit l
  let l := encAddress t.payload.destination l
  let l ← encBig m w t.payload.amount l
  let l := encVecU8 t.payload.data l
  let l := encU64 t.v.toUInt64 l
  let l ← encBig m w t.r l
  let l ← encBig m w t.s l
  return e.encodeListPayload l

/-- `/repo/src/blockchain/ethereum/transaction/types/transaction_eip_155_rlp.rs:17-32` `encode_to`. -/
def TransactionEip155.encodeTo (m : Build) (w : Nat) (t : TransactionEip155) (e : EncItem) : Out ε EncItem := do
  let l := EncItem.new
  let l := encNonce t.payload.nonce l
  let l ← encBig m w t.payload.gasPrice l
  let l := encU64 t.payload.gasLimit l
  let l := encAddress t.payload.destination l
  let l ← encBig m w t.payload.amount l
  let l := encVecU8 t.payload.data l
  let l ← encBig m w t.v l
  let l ← encBig m w t.r l
  let l ← encBig m w t.s l
  return e.encodeListPayload l

/-- `/repo/src/blockchain/ethereum/transaction/types/transaction_eip_2930_rlp.rs:18-36` `encode_to`. -/
def TransactionEip2930.encodeTo (m : Build) (w : Nat) (t : TransactionEip2930) (e : EncItem) : Out ε EncItem := do
  let l := EncItem.new
  let l ← encBig m w t.payload.chainId l
  let l := encNonce t.payload.nonce l
  let l ← encBig m w t.payload.gasPrice l
  let l := encU64 t.payload.gasLimit l
  let l := encAddress t.payload.destination l
  let l ← encBig m w t.payload.amount l
  let l := encVecU8 t.payload.data l
  let l := encAccessList t.payload.accessList l
  let l := encU64 t.yParity.toU8.toUInt64 l
  let l ← encBig m w t.r l
  let l ← encBig m w t.s l
  return e.encodeListPayload l

/-- `/repo/src/blockchain/ethereum/transaction/types/transaction_eip_1559_rlp.rs:18-41` `encode_to`. -/
def TransactionEip1559.encodeTo (m : Build) (w : Nat) (t : TransactionEip1559) (e : EncItem) : Out ε EncItem := do
  let l := EncItem.new
  let l ← encBig m w t.payload.chainId l
  let l := encNonce t.payload.nonce l
  let l ← encBig m w t.payload.maxPriorityFeePerGas l
  let l ← encBig m w t.payload.maxFeePerGas l
  let l := encU64 t.payload.gasLimit l
  let l := encAddress t.payload.destination l
  let l ← encBig m w t.payload.amount l
  let l := encVecU8 t.payload.data l
  let l := encAccessList t.payload.accessList l
  let l := encU64 t.yParity.toU8.toUInt64 l
  let l ← encBig m w t.r l
  let l ← encBig m w t.s l
  return e.encodeListPayload l

/-- `/repo/src/blockchain/ethereum/transaction/types/transaction_legacy.rs:23-27` `encode`. -/
def TransactionLegacy.encode (m : Build) (w : Nat) (t : TransactionLegacy) : Out ε (List UInt8) :=
  encodeM (TransactionLegacy.encodeTo m w) t

/-- `/repo/src/blockchain/ethereum/transaction/types/transaction_eip_155.rs:23-27` `encode`. -/
def TransactionEip155.encode (m : Build) (w : Nat) (t : TransactionEip155) : Out ε (List UInt8) :=
  encodeM (TransactionEip155.encodeTo m w) t

/-- `/repo/src/blockchain/ethereum/transaction/types/transaction_eip_2930.rs:64-74` `encode`. -/
def TransactionEip2930.encode (m : Build) (w : Nat) (t : TransactionEip2930) : Out ε (List UInt8) := do
  let rlpData ← encodeM (TransactionEip2930.encodeTo m w) t
  return TransactionEip2930.transactionType :: rlpData

/-- `/repo/src/blockchain/ethereum/transaction/types/transaction_eip_1559.rs:59-69` `encode`. -/
def TransactionEip1559.encode (m : Build) (w : Nat) (t : TransactionEip1559) : Out ε (List UInt8) := do
  let rlpData ← encodeM (TransactionEip1559.encodeTo m w) t
  return TransactionEip1559.transactionType :: rlpData

/-! ## Decoding of signed transactions -/

/-- `builder.take_and_build_..().map_err(|_| RlpDataDecodingError::InvalidFormat)?`. -/
def built {α : Type} (x : Out RlpErr (Except BuildingError α × Builder)) : Out RlpErr α := do
  let (r, _) ← x
  match r with
  | .ok p => .ok p
  | .error _ => .err .InvalidFormat

/-- `u8::try_from(n).map_err(|_| RlpDataDecodingError::InvalidFormat)?`. -/
def u8FromU64 (n : UInt64) : Out RlpErr UInt8 :=
  if n.toNat < 256 then .ok (UInt8.ofNat n.toNat) else .err .InvalidFormat

/-- `YParity::from_u8(n)` with `None` mapped to `InvalidFormat`. -/
def yParityFromU8 (n : UInt8) : Out RlpErr YParity :=
  match YParity.fromU8 n with
  | none => .err .InvalidFormat
  | some y => .ok y

/-- `/repo/src/blockchain/ethereum/transaction/types/transaction_legacy_rlp.rs:34-64` `decode_from`. -/
def decTransactionLegacy (m : Build) (w : Nat) : Dec TransactionLegacy := fun d =>
  match d.itemType with
  | .SingleValue => .err .InvalidFormat
  | .List => do
    let items ← d.decodeAsItems m
    if items.length ≠ 9 then .err .InvalidFormat
    else do
      let b := Builder.new
      let (i, items) ← nextItem items
      let b ← (do return b.withNonce (← decNonce i) : Out RlpErr Builder)
      let (i, items) ← nextItem items
      let b ← (do return b.withGasPrice (← decBig w i) : Out RlpErr Builder)
      let (i, items) ← nextItem items
      let b ← (do return b.withGasLimit (← decU64 i) : Out RlpErr Builder)
      let (i, items) ← nextItem items
      let b ← (do return b.withDestination (← decAddress i) : Out RlpErr Builder)
      let (i, items) ← nextItem items
      let b ← (do return b.withAmount (← decBig w i) : Out RlpErr Builder)
      let (i, items) ← nextItem items
      let b ← (do return b.withData (← decVecU8 i) : Out RlpErr Builder)
      let payload ← built b.takeAndBuildLegacy
      let (i, items) ← nextItem items
      let v ← decU64 i
      let v ← u8FromU64 v
      let (i, items) ← nextItem items
      let r ← decBig w i
      let (i, _) ← nextItem items
      let s ← decBig w i
      return ⟨payload, v, r, s⟩

/-- `/repo/src/blockchain/ethereum/transaction/types/transaction_eip_155_rlp.rs:34-79` `decode_from`. -/
def decTransactionEip155 (m : Build) (w : Nat) : Dec TransactionEip155 := fun d =>
  match d.itemType with
  | .SingleValue => .err .InvalidFormat
  | .List => do
    let items ← d.decodeAsItems m
    if items.length ≠ 9 then .err .InvalidFormat
    else do
      let (i, items) ← nextItem items
      let nonce ← decNonce i
      let (i, items) ← nextItem items
      let gasPrice ← decBig w i
      let (i, items) ← nextItem items
      let gasLimit ← decU64 i
      let (i, items) ← nextItem items
      let destination ← decAddress i
      let (i, items) ← nextItem items
      let amount ← decBig w i
      let (i, items) ← nextItem items
      let data ← decVecU8 i
      let (i, items) ← nextItem items
      let v ← decBig w i
      let (i, items) ← nextItem items
      let r ← decBig w i
      let (i, _) ← nextItem items
      let s ← decBig w i
      let n35 ← BUint.ofNat w 35
      let small ← BInt.lt m v n35
      if small then .err .TransactionTypeMismatch
      else do
        let chainIdN ← BInt.sub m w v n35
        let chainIdN ← BInt.shr m w chainIdN 2
        let payload ← built (((((((Builder.new.withChainId chainIdN).withNonce nonce).withGasPrice gasPrice).withGasLimit gasLimit
          ).withDestination destination).withAmount amount).withData data).takeAndBuildEip155
        return ⟨payload, v, r, s⟩

/-- `/repo/src/blockchain/ethereum/transaction/types/transaction_eip_2930_rlp.rs:38-81` `decode_from`. -/
def decTransactionEip2930 (m : Build) (w : Nat) : Dec TransactionEip2930 := fun d =>
  match d.itemType with
  | .SingleValue => .err .InvalidFormat
  | .List => do
    let items ← d.decodeAsItems m
    if items.length ≠ 11 then .err .InvalidFormat
    else do
      let b := Builder.new
      let (i, items) ← nextItem items
      let b ← (do return b.withChainId (← decBig w i) : Out RlpErr Builder)
      let (i, items) ← nextItem items
      let b ← (do return b.withNonce (← decNonce i) : Out RlpErr Builder)
      let (i, items) ← nextItem items
      let b ← (do return b.withGasPrice (← decBig w i) : Out RlpErr Builder)
      let (i, items) ← nextItem items
      let b ← (do return b.withGasLimit (← decU64 i) : Out RlpErr Builder)
      let (i, items) ← nextItem items
      let b ← (do return b.withDestination (← decAddress i) : Out RlpErr Builder)
      let (i, items) ← nextItem items
      let b ← (do return b.withAmount (← decBig w i) : Out RlpErr Builder)
      let (i, items) ← nextItem items
      let b ← (do return b.withData (← decVecU8 i) : Out RlpErr Builder)
      let (i, items) ← nextItem items
      let b ← (do return b.withAccessList (← decAccessList m i) : Out RlpErr Builder)
      let payload ← built b.takeAndBuildEip2930
      let (i, items) ← nextItem items
      let n ← decU64 i
      let n ← u8FromU64 n
      let yParity ← yParityFromU8 n
      let (i, items) ← nextItem items
      let r ← decBig w i
      let (i, _) ← nextItem items
      let s ← decBig w i
      return ⟨payload, yParity, r, s⟩

/-- `/repo/src/blockchain/ethereum/transaction/types/transaction_eip_1559_rlp.rs:43-87` `decode_from`. -/
def decTransactionEip1559 (m : Build) (w : Nat) : Dec TransactionEip1559 := fun d =>
  match d.itemType with
  | .SingleValue => .err .InvalidFormat
  | .List => do
    let items ← d.decodeAsItems m
    if items.length ≠ 12 then .err .InvalidFormat
    else do
      let b := Builder.new
      let (i, items) ← nextItem items
      let b ← (do return b.withChainId (← decBig w i) : Out RlpErr Builder)
      let (i, items) ← nextItem items
      let b ← (do return b.withNonce (← decNonce i) : Out RlpErr Builder)
      let (i, items) ← nextItem items
      let b ← (do return b.withMaxPriorityFeePerGas (← decBig w i) : Out RlpErr Builder)
      let (i, items) ← nextItem items
      let b ← (do return b.withMaxFeePerGas (← decBig w i) : Out RlpErr Builder)
      let (i, items) ← nextItem items
      let b ← (do return b.withGasLimit (← decU64 i) : Out RlpErr Builder)
      let (i, items) ← nextItem items
      let b ← (do return b.withDestination (← decAddress i) : Out RlpErr Builder)
      let (i, items) ← nextItem items
      let b ← (do return b.withAmount (← decBig w i) : Out RlpErr Builder)
      let (i, items) ← nextItem items
      let b ← (do return b.withData (← decVecU8 i) : Out RlpErr Builder)
      let (i, items) ← nextItem items
      let b ← (do return b.withAccessList (← decAccessList m i) : Out RlpErr Builder)
      let payload ← built b.takeAndBuildEip1559
      let (i, items) ← nextItem items
      let n ← decU64 i
      let n ← u8FromU64 n
      let yParity ← yParityFromU8 n
      let (i, items) ← nextItem items
      let r ← decBig w i
      let (i, _) ← nextItem items
      let s ← decBig w i
      return ⟨payload, yParity, r, s⟩

end LCT.Ethereum
