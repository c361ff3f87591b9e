import Verif.Model.RandomTests
import Verif.Model.TestingTools
import Verif.Spec.WalletClient

/-!
# The tests with published transactions

`/repo/tests/blockchain/ethereum/transaction_signing_ethers_js.rs`.  Reading the JSON files is not modelled: a vector arrives with the strings and
numbers that the tests take out of it, `none` where `as_str` or `as_u64` gives nothing.  The private key, the type and the expected text are always
there (the tests panic otherwise).  Texts are byte strings, which is exact for ASCII texts: `&t[2..]` is then the text without its first two bytes.
A failed assertion is a panic.
-/

namespace LCT.TransactionTests
open LCT.BigInt LCT.Out LCT.Crypto LCT.Hash LCT.Codecs LCT.Random LCT.Ethereum LCT.RandomTests LCT.TestingTools LCT.Spec.Eth

variable {ε : Type}

/-- `&t[2..]`: panics if there are fewer than two bytes. -/
def slice2 : List UInt8 → Out ε (List UInt8)
  | _ :: _ :: u => .ok u
  | _ => .panic

/-- The strings that `/repo/tests/blockchain/ethereum/transaction_signing_ethers_js.rs:28-34,88` (`108-114,169`) take out of a vector. -/
structure Untyped where
  key : List UInt8
  nonce : Option (List UInt8)
  gasPrice : Option (List UInt8)
  gasLimit : Option (List UInt8)
  recipient : Option (List UInt8)
  value : Option (List UInt8)
  data : Option (List UInt8)
  /-- `signedTransaction` in the first test, `signedTransactionChainId5` in the second -/
  signed : List UInt8

/-- What `/repo/tests/blockchain/ethereum/transaction_signing_ethers_js.rs:188-202,263` (`282-298,365`) take out of a vector; the access list is a
list of addresses with their storage keys (l.374-410). -/
structure Typed where
  type : Nat
  key : List UInt8
  chainId : Option UInt64
  nonce : Option UInt64
  gasPrice : Option (List UInt8)
  maxPriorityFee : Option (List UInt8)
  maxFee : Option (List UInt8)
  gasLimit : Option (List UInt8)
  recipient : Option (List UInt8)
  value : Option (List UInt8)
  data : Option (List UInt8)
  accessList : Option (List (List UInt8 × List (List UInt8)))
  signed : List UInt8

/-- `/repo/tests/blockchain/ethereum/transaction_signing_ethers_js.rs:47-57`: the gas limit, or `none` if the vector is to be ignored. -/
def gasLimitOf (t : List UInt8) : Out ε (Option UInt64) := do
  let u ← slice2 t
  match stdParseHex 0 (2 ^ 64) u with
  | some n => return some (UInt64.ofNat n.toNat)
  | none => return if u = [] then some 0 else none

/-- `/repo/tests/blockchain/ethereum/transaction_signing_ethers_js.rs:60-61`. -/
def keyOf (m : Build) (w : Nat) (cp : Params) (t : List UInt8) : Out ε PrivateKey := do
  let u ← slice2 t
  let d ← unwrapped (BInt.fromHex w u)
  unwrap (← PrivateKey.new m w d cp)

/-- `/repo/tests/blockchain/ethereum/transaction_signing_ethers_js.rs:65-70`. -/
def nonceOf (t : List UInt8) : Out ε EoaNonce := do
  let u ← slice2 t
  unwrap (EoaNonce.fromU64 (UInt64.ofNat ((stdParseHex 0 (2 ^ 64) u).getD 0).toNat))

/-- `/repo/tests/blockchain/ethereum/transaction_signing_ethers_js.rs:74`. -/
def dataOf (t : List UInt8) : Out ε (List UInt8) := do
  let u ← slice2 t
  unwrapped (hexToBytes u)

/-- `/repo/tests/blockchain/ethereum/transaction_signing_ethers_js.rs:401-404`, the loop over storage keys. -/
def storageKeysOf : List (List UInt8) → Out ε (List StorageKey)
  | [] => .ok []
  | t :: ts => do
    let k ← unwrapped (StorageKey.tryFromStr t)
    let ks ← storageKeysOf ts
    return k :: ks

/-- `/repo/tests/blockchain/ethereum/transaction_signing_ethers_js.rs:385-410` `json_object_to_access_list` and `json_object_to_access_list_item`. -/
def accessListOf : List (List UInt8 × List (List UInt8)) → Out ε AccessList
  | [] => .ok []
  | (a, ks) :: rest => do
    let address ← unwrapped (Address.tryFromStr a)
    let storageKeys ← storageKeysOf ks
    let rest ← accessListOf rest
    return ⟨address, storageKeys⟩ :: rest

/-- `/repo/tests/blockchain/ethereum/transaction_signing_ethers_js.rs:75-89` (and `156-170`, `250-264`, `352-366`): the payload is built and signed
without extra random data, and the text of the transaction is compared. -/
def finish (m : Build) (w f nf : Nat) (rand : Nat → Out RandomError (List UInt8)) (kind : Kind) (b : Builder) (key : PrivateKey)
    (signed : List UInt8) : Out Unit Unit := do
  let (p, _) ← buildAny b kind
  let p ← unwrap p
  let t ← unwrapped (p.sign m w f nf rand key { SigningOptions.default with employExtraRandomData := false })
  let bytes ← t.encode m w
  let u ← slice2 signed
  rassert (bytesToLowerHex bytes == u)

/-- `/repo/tests/blockchain/ethereum/transaction_signing_ethers_js.rs:63` (legacy) and `143-144` (EIP-155). -/
def startBuilder (w : Nat) : Option UInt64 → Out Unit Builder
  | none => .ok Builder.new
  | some c => do return Builder.new.withChainId (← ChainId.fromU64 w c)

/-- `/repo/tests/blockchain/ethereum/transaction_signing_ethers_js.rs:59-74` (`139-155`): key and builder from the texts. -/
def readUntyped (m : Build) (w : Nat) (chain : Option UInt64) (key nonce gasPrice recipient value data : List UInt8) (gasLimit : UInt64) :
    Out Unit (PrivateKey × Builder) := do
  let cp ← secp256k1 w
  let key ← keyOf m w cp key
  let b ← startBuilder w chain
  let nonce ← nonceOf nonce
  let gasPrice ← unwrapped (Wei.tryFromStr m w gasPrice)
  let recipient ← unwrapped (Address.tryFromStr recipient)
  let value ← unwrapped (Wei.tryFromStr m w value)
  let data ← dataOf data
  return (key, (((((b.withNonce nonce).withGasPrice gasPrice).withGasLimit gasLimit).withDestination recipient).withAmount value).withData data)

/-- `/repo/tests/blockchain/ethereum/transaction_signing_ethers_js.rs:27-92` (legacy, `chain = none`) and `107-173` (EIP-155, `chain = some 5`): one
round of the loop; says whether the vector counts. -/
def untypedCase (m : Build) (w f nf : Nat) (rand : Nat → Out RandomError (List UInt8)) (chain : Option UInt64) (v : Untyped) : Out Unit Bool :=
  match v.nonce, v.gasPrice, v.gasLimit, v.recipient, v.value, v.data with
  | some nonce, some gasPrice, some gasLimit, some recipient, some value, some data => do
    match ← gasLimitOf gasLimit with
    | none => return false
    | some limit => do
      let (key, b) ← readUntyped m w chain v.key nonce gasPrice recipient value data limit
      finish m w f nf rand (if chain.isSome then .eip155 else .legacy) b key v.signed
      return true
  | _, _, _, _, _, _ => .ok false

/-- `/repo/tests/blockchain/ethereum/transaction_signing_ethers_js.rs:227-249`: access list, key and builder. -/
def read2930 (m : Build) (w : Nat) (v : Typed) (chainId nonce : UInt64) (gasPrice recipient value data : List UInt8) (gasLimit : UInt64) :
    Out Unit (PrivateKey × Builder) := do
  let list ← accessListOf (v.accessList.getD [])
  let cp ← secp256k1 w
  let key ← keyOf m w cp v.key
  let chainId ← ChainId.fromU64 w chainId
  let nonce ← unwrap (EoaNonce.fromU64 nonce)
  let gasPrice ← unwrapped (Wei.tryFromStr m w (byteAlignedHex gasPrice))
  let recipient ← unwrapped (Address.tryFromStr recipient)
  let value ← unwrapped (Wei.tryFromStr m w value)
  let data ← dataOf data
  return (key, (((((((Builder.new.withChainId chainId).withNonce nonce).withGasPrice gasPrice).withGasLimit gasLimit).withDestination
    recipient).withAmount value).withData data).withAccessList list)

/-- `/repo/tests/blockchain/ethereum/transaction_signing_ethers_js.rs:187-267`: one round of the loop for EIP-2930. -/
def case2930 (m : Build) (w f nf : Nat) (rand : Nat → Out RandomError (List UInt8)) (v : Typed) : Out Unit Bool :=
  if v.type ≠ 1 then .ok false else
  match v.chainId, v.nonce, v.gasPrice, v.gasLimit, v.recipient, v.value, v.data with
  | some chainId, some nonce, some gasPrice, some gasLimit, some recipient, some value, some data => do
    match ← gasLimitOf gasLimit with
    | none => return false
    | some limit => do
      let (key, b) ← read2930 m w v chainId nonce gasPrice recipient value data limit
      finish m w f nf rand .eip2930 b key v.signed
      return true
  | _, _, _, _, _, _, _ => .ok false

/-- `/repo/tests/blockchain/ethereum/transaction_signing_ethers_js.rs:323-351`: access list, key and builder. -/
def read1559 (m : Build) (w : Nat) (v : Typed) (chainId nonce : UInt64) (maxPriorityFee maxFee recipient value data : List UInt8) (gasLimit : UInt64) :
    Out Unit (PrivateKey × Builder) := do
  let list ← accessListOf (v.accessList.getD [])
  let cp ← secp256k1 w
  let key ← keyOf m w cp v.key
  let chainId ← ChainId.fromU64 w chainId
  let nonce ← unwrap (EoaNonce.fromU64 nonce)
  let maxPriorityFee ← unwrapped (Wei.tryFromStr m w (byteAlignedHex maxPriorityFee))
  let maxFee ← unwrapped (Wei.tryFromStr m w (byteAlignedHex maxFee))
  let recipient ← unwrapped (Address.tryFromStr recipient)
  let value ← unwrapped (Wei.tryFromStr m w value)
  let data ← dataOf data
  return (key, ((((((((Builder.new.withChainId chainId).withNonce nonce).withMaxPriorityFeePerGas maxPriorityFee).withMaxFeePerGas
    maxFee).withGasLimit gasLimit).withDestination recipient).withAmount value).withData data).withAccessList list)

/-- `/repo/tests/blockchain/ethereum/transaction_signing_ethers_js.rs:281-369`: one round of the loop for EIP-1559. -/
def case1559 (m : Build) (w f nf : Nat) (rand : Nat → Out RandomError (List UInt8)) (v : Typed) : Out Unit Bool :=
  if v.type ≠ 2 then .ok false else
  match v.chainId, v.nonce, v.maxPriorityFee, v.maxFee, v.gasLimit, v.recipient, v.value, v.data with
  | some chainId, some nonce, some maxPriorityFee, some maxFee, some gasLimit, some recipient, some value, some data => do
    match ← gasLimitOf gasLimit with
    | none => return false
    | some limit => do
      let (key, b) ← read1559 m w v chainId nonce maxPriorityFee maxFee recipient value data limit
      finish m w f nf rand .eip1559 b key v.signed
      return true
  | _, _, _, _, _, _, _, _ => .ok false

/-- The loops over the vectors of a file, which count.  Here and below `one` is the round. -/
def countLoop {V : Type} (one : V → Out Unit Bool) : Nat → List V → Out Unit Nat
  | count, [] => .ok count
  | count, v :: vs => do
    let b ← one v
    countLoop one (if b then count + 1 else count) vs

/-- A test: the loop, and `assert!(count > threshold)` at the end. -/
def fileTest {V : Type} (one : V → Out Unit Bool) (threshold : Nat) (vs : List V) : Out Unit Unit := do
  let count ← countLoop one 0 vs
  rassert (threshold < count)

/-- `/repo/tests/blockchain/ethereum/transaction_signing_ethers_js.rs:19-95` `test_signing_transaction_legacy`. -/
def legacyTest (m : Build) (w f nf : Nat) (rand : Nat → Out RandomError (List UInt8)) : List Untyped → Out Unit Unit :=
  fileTest (untypedCase m w f nf rand none) 900

/-- `/repo/tests/blockchain/ethereum/transaction_signing_ethers_js.rs:97-176` `test_signing_transaction_eip_155_with_chain_id_5`. -/
def eip155Test (m : Build) (w f nf : Nat) (rand : Nat → Out RandomError (List UInt8)) : List Untyped → Out Unit Unit :=
  fileTest (untypedCase m w f nf rand (some 5)) 900

/-- `/repo/tests/blockchain/ethereum/transaction_signing_ethers_js.rs:178-270` `test_signing_transaction_eip_2930`. -/
def eip2930Test (m : Build) (w f nf : Nat) (rand : Nat → Out RandomError (List UInt8)) : List Typed → Out Unit Unit :=
  fileTest (case2930 m w f nf rand) 500

/-- `/repo/tests/blockchain/ethereum/transaction_signing_ethers_js.rs:272-372` `test_signing_transaction_eip_1559`. -/
def eip1559Test (m : Build) (w f nf : Nat) (rand : Nat → Out RandomError (List UInt8)) : List Typed → Out Unit Unit :=
  fileTest (case1559 m w f nf rand) 500

end LCT.TransactionTests
