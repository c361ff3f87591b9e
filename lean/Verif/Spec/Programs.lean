import Verif.Spec.Display
import Verif.Spec.Numerals
import Verif.Model.Examples
import Verif.Spec.Ecdsa
import Verif.Lemmas.Crypto.Secp256k1

/-!
# The example programs (specification)
-/

namespace LCT.Spec.Eth
open LCT.Rlp (Item)

/-- The argument is made of the hex digits (of either case) of the byte string, possibly after `0x`. -/
def HexInput (arg bytes : List UInt8) : Prop :=
  ∃ digits, (arg = digits ∨ arg = ascii "0x" ++ digits) ∧ (∀ c ∈ digits, IsHexDigit c) ∧ digits.map lowerChar = hexOf bytes

/-- The byte string encodes the signed transaction.  EIP-2718: a typed transaction is its type followed by a list.  EIP-155: a list with
`v = 35 + 2 * chainId` or one more is a transaction for that chain, one with a smaller `v` a legacy transaction. -/
def Signed.IsEncodedBy : Signed → List UInt8 → Prop
  | .legacy t v r s, data => t.Valid ∧ v < 35 ∧ IsListOf (t.kinds v r s) data
  | .eip155 t v r s, data => t.Valid ∧ 35 ≤ v ∧ t.chainId = (v - 35) / 2 ∧ IsListOf (t.kinds v r s) data
  | .eip2930 t y r s, data => t.Valid ∧ y ≤ 1 ∧ ∃ list, data = 1 :: list ∧ IsListOf (t.kinds y r s) list
  | .eip1559 t y r s, data => t.Valid ∧ y ≤ 1 ∧ ∃ list, data = 2 :: list ∧ IsListOf (t.kinds y r s) list

/-- The encoding of a signed transaction. -/
def Signed.encoding : Signed → List UInt8
  | .legacy t v r s => rlp (signedList t.fields v r s)
  | .eip155 t v r s => rlp (signedList t.fields v r s)
  | .eip2930 t y r s => 1 :: rlp (signedList t.fields y r s)
  | .eip1559 t y r s => 2 :: rlp (signedList t.fields y r s)

/-- The values are admissible. -/
def Signed.Valid : Signed → Prop
  | .legacy t v _ _ => t.Valid ∧ v < 35
  | .eip155 t v _ _ => t.Valid ∧ 35 ≤ v ∧ t.chainId = (v - 35) / 2
  | .eip2930 t y _ _ => t.Valid ∧ y ≤ 1
  | .eip1559 t y _ _ => t.Valid ∧ y ≤ 1

/-- The same transaction, but with `(v - 35) / 4` in the place of the chain id of an EIP-155 transaction. -/
def Signed.halved : Signed → Signed
  | .eip155 t v r s => .eip155 { t with chainId := (v - 35) / 4 } v r s
  | x => x

mutual
/-- The JSON value that shows an RLP item: `0x` and the hex digits of a byte string, an array for a list. -/
def jsonOf : Item → Examples.Json
  | .bytes b => .string (bytesText b)
  | .list xs => .array (jsonsOf xs)
def jsonsOf : List Item → List Examples.Json
  | [] => []
  | x :: xs => jsonOf x :: jsonsOf xs
end

end LCT.Spec.Eth

namespace LCT.Spec.Eth

/-- The EIP-55 text (without `0x`) of the address of the private key that the bytes are.  `LCT.Secp256k1.G` is the base point of SEC 2 as a point
of Mathlib's curve. -/
noncomputable def keyAddressText (key : List UInt8) : List UInt8 :=
  eip55 Sha3.keccak256 (addressOf Sha3.keccak256 (xCoord (ofBE key • LCT.Secp256k1.G)) (yCoord (ofBE key • LCT.Secp256k1.G)))

/-- The bytes are a private key: 32 of them, a number strictly between 0 and the order of the group. -/
def IsPrivateKey (key : List UInt8) : Prop := key.length = 32 ∧ 0 < ofBE key ∧ ofBE key < Secp256k1.n

/-- What the search for an address prints when it ends. -/
noncomputable def foundText (key : List UInt8) : List UInt8 := unlines [
  ascii "=====================",
  ascii "Vanity Address Found!",
  ascii "=====================",
  ascii "public address: 0x" ++ keyAddressText key,
  ascii "private key: 0x" ++ hexOf key]

/-- What the search prints in round `count` about its progress, when `seconds` have passed: the number of keys, the percentage of the
estimated number, and the number of keys per second. -/
def progressText (estimate count : Nat) : Option Nat → List UInt8
  | none => []
  | some seconds => unlines [
    ascii "> " ++ numeral 10 count ++ ascii ", " ++ numeral 10 (count * 100 / estimate) ++ ascii "%, " ++ numeral 10 (count / seconds) ++ ascii "/s"]

end LCT.Spec.Eth
