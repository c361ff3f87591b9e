import Mathlib.Data.Nat.Digits.Defs
import Verif.Spec.Ethereum
import Verif.Spec.Numerals

/-!
# Printed transactions (specification)

The text of a signed transaction is a sequence of lines, each of which ends with a line feed (10): a title, the fields of the payload and
the signature, one line each, with a label.
-/

namespace LCT.Spec.Eth

/-- The bytes of an ASCII text. -/
def ascii (s : String) : List UInt8 := s.toList.map fun c => c.toNat.toUInt8

/-- The text with these lines. -/
def unlines (ls : List (List UInt8)) : List UInt8 := ls.flatMap (· ++ [10])

/-- The numeral of `n` in base `b`, with lower-case digits and without leading zeros; `0` for zero. -/
def numeral (b n : Nat) : List UInt8 := if n = 0 then [48] else ((Nat.digits b n).map hexDigit).reverse

/-- A number of any size: `0x` and two hex digits for each byte. -/
def bigNum (n : Nat) : List UInt8 := ascii "0x" ++ hexText n

/-- A number of 64 bits: `0x` and as few hex digits as possible. -/
def smallNum (n : Nat) : List UInt8 := ascii "0x" ++ numeral 16 n

/-- An address, with the EIP-55 checksum. -/
def addressText (a : List UInt8) : List UInt8 := ascii "0x" ++ eip55 Sha3.keccak256 a

/-- A byte string. -/
def bytesText (bs : List UInt8) : List UInt8 := ascii "0x" ++ hexOf bs

/-- An entry of an access list: the address, the keys one below the other between square brackets, and an empty line. -/
def Access.lines (a : Access) : List (List UInt8) :=
  [ascii "  " ++ addressText a.address ++ ascii ": ", ascii "  ["] ++
    a.keys.map (fun k => ascii "    " ++ bytesText k ++ ascii ",") ++ [ascii "  ]", []]

def accessLines (l : List Access) : List (List UInt8) := [ascii "access_list: ["] ++ l.flatMap Access.lines ++ [ascii "]"]

def Legacy.lines (t : Legacy) : List (List UInt8) :=
  [ascii "nonce: " ++ smallNum t.nonce, ascii "gas_price: " ++ bigNum t.gasPrice, ascii "gas_limit: " ++ smallNum t.gasLimit,
    ascii "destination: " ++ addressText t.recipient, ascii "amount: " ++ bigNum t.amount, ascii "data: " ++ bytesText t.data]

def Eip155.lines (t : Eip155) : List (List UInt8) :=
  [ascii "chain_id: " ++ bigNum t.chainId, ascii "nonce: " ++ smallNum t.nonce, ascii "gas_price: " ++ bigNum t.gasPrice,
    ascii "gas_limit: " ++ smallNum t.gasLimit, ascii "destination: " ++ addressText t.recipient, ascii "amount: " ++ bigNum t.amount,
    ascii "data: " ++ bytesText t.data]

def Eip2930.lines (t : Eip2930) : List (List UInt8) :=
  [ascii "chain_id: " ++ bigNum t.chainId, ascii "nonce: " ++ smallNum t.nonce, ascii "gas_price: " ++ bigNum t.gasPrice,
    ascii "gas_limit: " ++ smallNum t.gasLimit, ascii "destination: " ++ addressText t.recipient, ascii "amount: " ++ bigNum t.amount,
    ascii "data: " ++ bytesText t.data] ++ accessLines t.accessList

def Eip1559.lines (t : Eip1559) : List (List UInt8) :=
  [ascii "chain_id: " ++ bigNum t.chainId, ascii "nonce: " ++ smallNum t.nonce,
    ascii "max_priority_fee_per_gas: " ++ bigNum t.maxPriorityFee, ascii "max_fee_per_gas: " ++ bigNum t.maxFee,
    ascii "gas_limit: " ++ smallNum t.gasLimit, ascii "destination: " ++ addressText t.recipient, ascii "amount: " ++ bigNum t.amount,
    ascii "data: " ++ bytesText t.data] ++ accessLines t.accessList

/-- A signed transaction of any kind: the payload, `v` (or the parity of `y`), `r` and `s`. -/
inductive Signed where
  | legacy (t : Legacy) (v r s : Nat)
  | eip155 (t : Eip155) (v r s : Nat)
  | eip2930 (t : Eip2930) (y r s : Nat)
  | eip1559 (t : Eip1559) (y r s : Nat)

/-- Title, payload and signature. -/
def frame (bar title : String) (payload signature : List (List UInt8)) : List (List UInt8) :=
  [ascii bar, ascii title, ascii bar, [], ascii "-------", ascii "Payload", ascii "-------"] ++ payload ++
    [[], ascii "---------", ascii "Signature", ascii "---------"] ++ signature

/-- The parity of `y`, in digits and in words. -/
def parityText (y : Nat) : List UInt8 := numeral 10 y ++ (if y % 2 = 0 then ascii " (even)" else ascii " (odd)")

def Signed.lines : Signed → List (List UInt8)
  | .legacy t v r s => frame "==================" "Transaction Legacy" t.lines
      [ascii "v: " ++ smallNum v ++ ascii " (" ++ numeral 10 v ++ ascii ")", ascii "r: " ++ bigNum r, ascii "s: " ++ bigNum s]
  | .eip155 t v r s => frame "===================" "Transaction EIP 155" t.lines
      [ascii "v: " ++ bigNum v, ascii "r: " ++ bigNum r, ascii "s: " ++ bigNum s]
  | .eip2930 t y r s => frame "====================" "Transaction EIP 2930" t.lines
      [ascii "y_parity: " ++ parityText y, ascii "r: " ++ bigNum r, ascii "s: " ++ bigNum s]
  | .eip1559 t y r s => frame "====================" "Transaction EIP 1559" t.lines
      [ascii "y_parity: " ++ parityText y, ascii "r: " ++ bigNum r, ascii "s: " ++ bigNum s]

def Signed.text (x : Signed) : List UInt8 := unlines x.lines

end LCT.Spec.Eth
