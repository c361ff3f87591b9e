import Verif.Model.Ethereum.Transaction

/-!
# Printing transactions

Models the `Display` implementations of `/repo/src/blockchain/ethereum/types/access_list.rs`,
`/repo/src/blockchain/ethereum/transaction/{payload,types}` and `YParity` (`/repo/src/crypto/ecdsa/ecdsa_core.rs`).  Text is the list of its
bytes.  A function `display…` gives what is written to the formatter.  Writing to the formatter is taken never to fail, as is the case for
`to_string()` (`println!` panics if it fails).
-/

namespace LCT.Ethereum
open LCT.BigInt LCT.Crypto LCT.Codecs
variable {ε : Type}

/-- The bytes of a literal in a format string; all of them are ASCII. -/
def lit (s : String) : List UInt8 := s.toList.map fun c => c.toNat.toUInt8

/-- `writeln!(f, "{}", text)`. -/
def writeln (text : List UInt8) : List UInt8 := text ++ [10]

/-- The standard library's `{}` of an unsigned integer: decimal digits, at least one, no leading zeros
(used at `/repo/src/blockchain/ethereum/transaction/types/transaction_legacy.rs:71` and `/repo/src/crypto/ecdsa/ecdsa_core.rs:247,250`). -/
def decimalText (n : Nat) : List UInt8 :=
  let d : UInt8 := 48 + UInt8.ofNat (n % 10)
  if n < 10 then [d] else decimalText (n / 10) ++ [d]
termination_by n

/-- `/repo/src/crypto/ecdsa/ecdsa_core.rs:243-254` `Display for YParity`. -/
def YParity.display : YParity → List UInt8
  | .Even => decimalText YParity.Even.toU8.toNat ++ lit " (even)"
  | .Odd => decimalText YParity.Odd.toU8.toNat ++ lit " (odd)"

/-- `/repo/src/blockchain/ethereum/types/access_list.rs:16-27` `Display for AccessListItem`. -/
def AccessListItem.display (m : Build) (it : AccessListItem) : Out ε (List UInt8) := do
  let address ← it.address.display m
  let f := writeln (address ++ lit ": ")
  let f := f ++ writeln (lit "  [")
  let f := it.storageKeys.foldl (fun f storageKey => f ++ writeln (lit "    " ++ storageKey.display ++ lit ",")) f
  return f ++ writeln (lit "  ]")

/-- The loop at `/repo/src/blockchain/ethereum/types/access_list.rs:35-37`. -/
def displayItems (m : Build) : List AccessListItem → List UInt8 → Out ε (List UInt8)
  | [], f => .ok f
  | it :: l, f => do
    let item ← it.display m
    displayItems m l (f ++ writeln (lit "  " ++ item))

/-- `/repo/src/blockchain/ethereum/types/access_list.rs:32-42` `Display for AccessList`. -/
def AccessList.display (m : Build) (l : AccessList) : Out ε (List UInt8) := do
  let f := writeln (lit "[")
  let f ← displayItems m l f
  return f ++ lit "]"

/-- `/repo/src/blockchain/ethereum/types/chain_id.rs:27-31` and `/repo/src/bigint/biguint.rs:138-142`: `Display` of the wrapped number. -/
def displayUint (m : Build) (w : Nat) (n : BInt) : Out ε (List UInt8) := n.display m w

/-- `/repo/src/blockchain/ethereum/transaction/payload/legacy.rs:57-68` `Display for PayloadLegacy`. -/
def PayloadLegacy.display (m : Build) (w : Nat) (p : PayloadLegacy) : Out ε (List UInt8) := do
  let f := writeln (lit "nonce: " ++ p.nonce.display)
  let gasPrice ← Wei.display m w p.gasPrice
  let f := f ++ writeln (lit "gas_price: " ++ gasPrice)
  let f := f ++ writeln (lit "gas_limit: 0x" ++ lowerHexU64 p.gasLimit.toNat)
  let destination ← p.destination.display m
  let f := f ++ writeln (lit "destination: " ++ destination)
  let amount ← Wei.display m w p.amount
  let f := f ++ writeln (lit "amount: " ++ amount)
  return f ++ writeln (lit "data: 0x" ++ bytesToLowerHex p.data)

/-- `/repo/src/blockchain/ethereum/transaction/payload/eip_155.rs:59-71` `Display for PayloadEip155`. -/
def PayloadEip155.display (m : Build) (w : Nat) (p : PayloadEip155) : Out ε (List UInt8) := do
  let chainId ← displayUint m w p.chainId
  let f := writeln (lit "chain_id: " ++ chainId)
  let f := f ++ writeln (lit "nonce: " ++ p.nonce.display)
  let gasPrice ← Wei.display m w p.gasPrice
  let f := f ++ writeln (lit "gas_price: " ++ gasPrice)
  let f := f ++ writeln (lit "gas_limit: 0x" ++ lowerHexU64 p.gasLimit.toNat)
  let destination ← p.destination.display m
  let f := f ++ writeln (lit "destination: " ++ destination)
  let amount ← Wei.display m w p.amount
  let f := f ++ writeln (lit "amount: " ++ amount)
  return f ++ writeln (lit "data: 0x" ++ bytesToLowerHex p.data)

/-- `/repo/src/blockchain/ethereum/transaction/payload/eip_2930.rs:60-73` `Display for PayloadEip2930`. -/
def PayloadEip2930.display (m : Build) (w : Nat) (p : PayloadEip2930) : Out ε (List UInt8) := do
  let chainId ← displayUint m w p.chainId
  let f := writeln (lit "chain_id: " ++ chainId)
  let f := f ++ writeln (lit "nonce: " ++ p.nonce.display)
  let gasPrice ← Wei.display m w p.gasPrice
  let f := f ++ writeln (lit "gas_price: " ++ gasPrice)
  let f := f ++ writeln (lit "gas_limit: 0x" ++ lowerHexU64 p.gasLimit.toNat)
  let destination ← p.destination.display m
  let f := f ++ writeln (lit "destination: " ++ destination)
  let amount ← Wei.display m w p.amount
  let f := f ++ writeln (lit "amount: " ++ amount)
  let f := f ++ writeln (lit "data: 0x" ++ bytesToLowerHex p.data)
  let accessList ← p.accessList.display m
  return f ++ writeln (lit "access_list: " ++ accessList)

/-- `/repo/src/blockchain/ethereum/transaction/payload/eip_1559.rs:64-82` `Display for PayloadEip1559`. -/
def PayloadEip1559.display (m : Build) (w : Nat) (p : PayloadEip1559) : Out ε (List UInt8) := do
  let chainId ← displayUint m w p.chainId
  let f := writeln (lit "chain_id: " ++ chainId)
  let f := f ++ writeln (lit "nonce: " ++ p.nonce.display)
  let maxPriorityFeePerGas ← Wei.display m w p.maxPriorityFeePerGas
  let f := f ++ writeln (lit "max_priority_fee_per_gas: " ++ maxPriorityFeePerGas)
  let maxFeePerGas ← Wei.display m w p.maxFeePerGas
  let f := f ++ writeln (lit "max_fee_per_gas: " ++ maxFeePerGas)
  let f := f ++ writeln (lit "gas_limit: 0x" ++ lowerHexU64 p.gasLimit.toNat)
  let destination ← p.destination.display m
  let f := f ++ writeln (lit "destination: " ++ destination)
  let amount ← Wei.display m w p.amount
  let f := f ++ writeln (lit "amount: " ++ amount)
  let f := f ++ writeln (lit "data: 0x" ++ bytesToLowerHex p.data)
  let accessList ← p.accessList.display m
  return f ++ writeln (lit "access_list: " ++ accessList)

/-- `/repo/src/blockchain/ethereum/transaction/types/transaction_legacy.rs:57-76` `Display for TransactionLegacy`. -/
def TransactionLegacy.display (m : Build) (w : Nat) (t : TransactionLegacy) : Out ε (List UInt8) := do
  let f := writeln (lit "==================")
  let f := f ++ writeln (lit "Transaction Legacy")
  let f := f ++ writeln (lit "==================")
  let f := f ++ writeln []
  let f := f ++ writeln (lit "-------")
  let f := f ++ writeln (lit "Payload")
  let f := f ++ writeln (lit "-------")
  let payload ← t.payload.display m w
  let f := f ++ writeln payload
  let f := f ++ writeln (lit "---------")
  let f := f ++ writeln (lit "Signature")
  let f := f ++ writeln (lit "---------")
  let f := f ++ writeln (lit "v: 0x" ++ lowerHexU64 t.v.toNat ++ lit " (" ++ decimalText t.v.toNat ++ lit ")")
  let r ← displayUint m w t.r
  let f := f ++ writeln (lit "r: " ++ r)
  let s ← displayUint m w t.s
  return f ++ writeln (lit "s: " ++ s)

/-- `/repo/src/blockchain/ethereum/transaction/types/transaction_eip_155.rs:59-78` `Display for TransactionEip155`. -/
def TransactionEip155.display (m : Build) (w : Nat) (t : TransactionEip155) : Out ε (List UInt8) := do
  let f := writeln (lit "===================")
  let f := f ++ writeln (lit "Transaction EIP 155")
  let f := f ++ writeln (lit "===================")
  let f := f ++ writeln []
  let f := f ++ writeln (lit "-------")
  let f := f ++ writeln (lit "Payload")
  let f := f ++ writeln (lit "-------")
  let payload ← t.payload.display m w
  let f := f ++ writeln payload
  let f := f ++ writeln (lit "---------")
  let f := f ++ writeln (lit "Signature")
  let f := f ++ writeln (lit "---------")
  let v ← displayUint m w t.v
  let f := f ++ writeln (lit "v: " ++ v)
  let r ← displayUint m w t.r
  let f := f ++ writeln (lit "r: " ++ r)
  let s ← displayUint m w t.s
  return f ++ writeln (lit "s: " ++ s)

/-- `/repo/src/blockchain/ethereum/transaction/types/transaction_eip_2930.rs:76-95` `Display for TransactionEip2930`. -/
def TransactionEip2930.display (m : Build) (w : Nat) (t : TransactionEip2930) : Out ε (List UInt8) := do
  let f := writeln (lit "====================")
  let f := f ++ writeln (lit "Transaction EIP 2930")
  let f := f ++ writeln (lit "====================")
  let f := f ++ writeln []
  let f := f ++ writeln (lit "-------")
  let f := f ++ writeln (lit "Payload")
  let f := f ++ writeln (lit "-------")
  let payload ← t.payload.display m w
  let f := f ++ writeln payload
  let f := f ++ writeln (lit "---------")
  let f := f ++ writeln (lit "Signature")
  let f := f ++ writeln (lit "---------")
  let f := f ++ writeln (lit "y_parity: " ++ YParity.display t.yParity)
  let r ← displayUint m w t.r
  let f := f ++ writeln (lit "r: " ++ r)
  let s ← displayUint m w t.s
  return f ++ writeln (lit "s: " ++ s)

/-- `/repo/src/blockchain/ethereum/transaction/types/transaction_eip_1559.rs:71-90` `Display for TransactionEip1559`. -/
def TransactionEip1559.display (m : Build) (w : Nat) (t : TransactionEip1559) : Out ε (List UInt8) := do
  let f := writeln (lit "====================")
  let f := f ++ writeln (lit "Transaction EIP 1559")
  let f := f ++ writeln (lit "====================")
  let f := f ++ writeln []
  let f := f ++ writeln (lit "-------")
  let f := f ++ writeln (lit "Payload")
  let f := f ++ writeln (lit "-------")
  let payload ← t.payload.display m w
  let f := f ++ writeln payload
  let f := f ++ writeln (lit "---------")
  let f := f ++ writeln (lit "Signature")
  let f := f ++ writeln (lit "---------")
  let f := f ++ writeln (lit "y_parity: " ++ YParity.display t.yParity)
  let r ← displayUint m w t.r
  let f := f ++ writeln (lit "r: " ++ r)
  let s ← displayUint m w t.s
  return f ++ writeln (lit "s: " ++ s)

end LCT.Ethereum
