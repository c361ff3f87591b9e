import Verif.Spec.Rlp
import Verif.Spec.Hex
import Verif.Spec.BigInt
import Verif.Spec.Sha3
import Verif.Spec.Rfc6979
import Verif.Model.Ethereum.Transaction

/-!
# Ethereum (specification)

Addresses (EIP-55), the four kinds of transaction (Yellow Paper 4.2, EIP-155, EIP-2930, EIP-1559) as records of numbers and byte strings,
their signing preimages and their signed encodings.  Nothing of the model is used here except, in the last two sections, the records whose
meaning is being specified.
-/

namespace LCT.Spec.Eth
open LCT.Rlp (Item)

/-! ## Addresses -/

/-- The `i`-th hex digit of a byte string, as a number. -/
def nibble (bs : List UInt8) (i : Nat) : Nat := if i % 2 = 0 then (bs.getD (i / 2) 0).toNat / 16 else (bs.getD (i / 2) 0).toNat % 16

/-- Upper-case form of a letter; other characters are unchanged. -/
def upperChar (c : UInt8) : UInt8 := if 97 ≤ c.toNat ∧ c.toNat ≤ 122 then c - 32 else c

/-- EIP-55: the hex digits of the address, where the `i`-th is in upper case if the `i`-th hex digit of the hash of the lower-case text is 8
or more. -/
def eip55 (hash : List UInt8 → List UInt8) (address : List UInt8) : List UInt8 :=
  (hexOf address).mapIdx fun i c => if 8 ≤ nibble (hash (hexOf address)) i then upperChar c else c

/-- The address of an account (Yellow Paper, appendix F): the last 20 bytes of the hash of the two coordinates of the public key, 32 bytes
each. -/
def addressOf (hash : List UInt8 → List UInt8) (x y : Nat) : List UInt8 := (hash (octets 32 x ++ octets 32 y)).drop 12

/-! ## Transactions -/

/-- An entry of an access list. -/
structure Access where
  address : List UInt8
  keys : List (List UInt8)

structure Legacy where
  nonce : Nat
  gasPrice : Nat
  gasLimit : Nat
  recipient : List UInt8
  amount : Nat
  data : List UInt8

structure Eip155 where
  chainId : Nat
  nonce : Nat
  gasPrice : Nat
  gasLimit : Nat
  recipient : List UInt8
  amount : Nat
  data : List UInt8

structure Eip2930 where
  chainId : Nat
  nonce : Nat
  gasPrice : Nat
  gasLimit : Nat
  recipient : List UInt8
  amount : Nat
  data : List UInt8
  accessList : List Access

structure Eip1559 where
  chainId : Nat
  nonce : Nat
  maxPriorityFee : Nat
  maxFee : Nat
  gasLimit : Nat
  recipient : List UInt8
  amount : Nat
  data : List UInt8
  accessList : List Access

/-- A number is the string of its shortest big-endian form. -/
def num (n : Nat) : Item := .bytes (minBE n)

/-- EIP-2930: `[[address, [key, ...]], ...]`. -/
def accessItem (l : List Access) : Item := .list (l.map fun a => .list [.bytes a.address, .list (a.keys.map .bytes)])

def Legacy.fields (t : Legacy) : List Item :=
  [num t.nonce, num t.gasPrice, num t.gasLimit, .bytes t.recipient, num t.amount, .bytes t.data]

/-- The fields that a signed EIP-155 transaction shows: there is no chain id among them. -/
def Eip155.fields (t : Eip155) : List Item :=
  [num t.nonce, num t.gasPrice, num t.gasLimit, .bytes t.recipient, num t.amount, .bytes t.data]

def Eip2930.fields (t : Eip2930) : List Item :=
  [num t.chainId, num t.nonce, num t.gasPrice, num t.gasLimit, .bytes t.recipient, num t.amount, .bytes t.data, accessItem t.accessList]

def Eip1559.fields (t : Eip1559) : List Item :=
  [num t.chainId, num t.nonce, num t.maxPriorityFee, num t.maxFee, num t.gasLimit, .bytes t.recipient, num t.amount, .bytes t.data,
    accessItem t.accessList]

/-- The values that the crate's types admit: nonces below `2^64 - 1` (EIP-2681), 64-bit gas limits, 20-byte addresses and 32-byte keys. -/
def Legacy.Valid (t : Legacy) : Prop := t.nonce < 2 ^ 64 - 1 ∧ t.gasLimit < 2 ^ 64 ∧ t.recipient.length = 20

def Eip155.Valid (t : Eip155) : Prop := t.nonce < 2 ^ 64 - 1 ∧ t.gasLimit < 2 ^ 64 ∧ t.recipient.length = 20

def validAccesses (l : List Access) : Prop := ∀ a ∈ l, a.address.length = 20 ∧ ∀ k ∈ a.keys, k.length = 32

def Eip2930.Valid (t : Eip2930) : Prop :=
  t.nonce < 2 ^ 64 - 1 ∧ t.gasLimit < 2 ^ 64 ∧ t.recipient.length = 20 ∧ validAccesses t.accessList

def Eip1559.Valid (t : Eip1559) : Prop :=
  t.nonce < 2 ^ 64 - 1 ∧ t.gasLimit < 2 ^ 64 ∧ t.recipient.length = 20 ∧ validAccesses t.accessList

/-- A payload of any kind. -/
inductive Payload where
  | legacy (t : Legacy)
  | eip155 (t : Eip155)
  | eip2930 (t : Eip2930)
  | eip1559 (t : Eip1559)

/-- What is hashed and signed.  Legacy: `rlp(fields)`.  EIP-155: `rlp(fields, chainId, 0, 0)`.  EIP-2930: `0x01 || rlp(fields)`.
EIP-1559: `0x02 || rlp(fields)`. -/
def Payload.preimage : Payload → List UInt8
  | .legacy t => rlp (.list t.fields)
  | .eip155 t => rlp (.list (t.fields ++ [num t.chainId, num 0, num 0]))
  | .eip2930 t => 1 :: rlp (.list t.fields)
  | .eip1559 t => 2 :: rlp (.list t.fields)

/-- The list that a signed transaction is: the fields, `v` (or the parity of `y`), `r`, `s`. -/
def signedList (fields : List Item) (v r s : Nat) : Item := .list (fields ++ [num v, num r, num s])

/-! ## Lists with fields of the right kinds -/

/-- A byte string that denotes `n` in big-endian order, possibly with leading zero bytes. -/
def LaxNum (n : Nat) (x : Item) : Prop := ∃ b, x = .bytes b ∧ ofBE b = n

/-- The same, of at most eight bytes. -/
def LaxU64 (n : Nat) (x : Item) : Prop := ∃ b, x = .bytes b ∧ b.length ≤ 8 ∧ ofBE b = n

/-- The list has as many items as there are kinds, each of its kind. -/
def Fits : List (Item → Prop) → List Item → Prop
  | [], [] => True
  | k :: ks, x :: xs => k x ∧ Fits ks xs
  | _, _ => False

def Legacy.kinds (t : Legacy) (v r s : Nat) : List (Item → Prop) :=
  [LaxU64 t.nonce, LaxNum t.gasPrice, LaxU64 t.gasLimit, (· = .bytes t.recipient), LaxNum t.amount, (· = .bytes t.data), LaxU64 v, LaxNum r,
    LaxNum s]

def Eip155.kinds (t : Eip155) (v r s : Nat) : List (Item → Prop) :=
  [LaxU64 t.nonce, LaxNum t.gasPrice, LaxU64 t.gasLimit, (· = .bytes t.recipient), LaxNum t.amount, (· = .bytes t.data), LaxNum v, LaxNum r,
    LaxNum s]

def Eip2930.kinds (t : Eip2930) (y r s : Nat) : List (Item → Prop) :=
  [LaxNum t.chainId, LaxU64 t.nonce, LaxNum t.gasPrice, LaxU64 t.gasLimit, (· = .bytes t.recipient), LaxNum t.amount, (· = .bytes t.data),
    (· = accessItem t.accessList), LaxU64 y, LaxNum r, LaxNum s]

def Eip1559.kinds (t : Eip1559) (y r s : Nat) : List (Item → Prop) :=
  [LaxNum t.chainId, LaxU64 t.nonce, LaxNum t.maxPriorityFee, LaxNum t.maxFee, LaxU64 t.gasLimit, (· = .bytes t.recipient), LaxNum t.amount,
    (· = .bytes t.data), (· = accessItem t.accessList), LaxU64 y, LaxNum r, LaxNum s]

/-- The byte string is an RLP list (any of the header forms) whose items have the given kinds. -/
def IsListOf (kinds : List (Item → Prop)) (data : List UInt8) : Prop := ∃ xs, RelaxedTree (.list xs) data ∧ Fits kinds xs

/-! ## What the records of the crate stand for -/

section
open LCT.Ethereum LCT.BigInt
variable (w : Nat)

def accesses (l : AccessList) : List Access := l.map fun a => ⟨a.address.data, a.storageKeys.map (·.data)⟩

/-- The fields of the payload are the numbers and byte strings of `t`, and the nonce is one that `EoaNonce` admits. -/
structure LegacyOf (p : PayloadLegacy) (t : Legacy) : Prop where
  nonce : p.nonce.value.toNat = t.nonce
  nonce_max : t.nonce < 2 ^ 64 - 1
  gasPrice : Denotes w p.gasPrice t.gasPrice
  gasLimit : p.gasLimit.toNat = t.gasLimit
  recipient : p.destination.data = t.recipient
  amount : Denotes w p.amount t.amount
  data : p.data = t.data

structure Eip155Of (p : PayloadEip155) (t : Eip155) : Prop where
  chainId : Denotes w p.chainId t.chainId
  nonce : p.nonce.value.toNat = t.nonce
  nonce_max : t.nonce < 2 ^ 64 - 1
  gasPrice : Denotes w p.gasPrice t.gasPrice
  gasLimit : p.gasLimit.toNat = t.gasLimit
  recipient : p.destination.data = t.recipient
  amount : Denotes w p.amount t.amount
  data : p.data = t.data

structure Eip2930Of (p : PayloadEip2930) (t : Eip2930) : Prop where
  chainId : Denotes w p.chainId t.chainId
  nonce : p.nonce.value.toNat = t.nonce
  nonce_max : t.nonce < 2 ^ 64 - 1
  gasPrice : Denotes w p.gasPrice t.gasPrice
  gasLimit : p.gasLimit.toNat = t.gasLimit
  recipient : p.destination.data = t.recipient
  amount : Denotes w p.amount t.amount
  data : p.data = t.data
  accessList : accesses p.accessList = t.accessList

structure Eip1559Of (p : PayloadEip1559) (t : Eip1559) : Prop where
  chainId : Denotes w p.chainId t.chainId
  nonce : p.nonce.value.toNat = t.nonce
  nonce_max : t.nonce < 2 ^ 64 - 1
  maxPriorityFee : Denotes w p.maxPriorityFeePerGas t.maxPriorityFee
  maxFee : Denotes w p.maxFeePerGas t.maxFee
  gasLimit : p.gasLimit.toNat = t.gasLimit
  recipient : p.destination.data = t.recipient
  amount : Denotes w p.amount t.amount
  data : p.data = t.data
  accessList : accesses p.accessList = t.accessList

end
end LCT.Spec.Eth
