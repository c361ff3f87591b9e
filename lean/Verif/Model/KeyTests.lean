import Verif.Model.Equality
import Verif.Model.Ethereum.Account
import Verif.Model.Ethereum.Display
import Verif.Model.TransactionTests
import Verif.Model.VectorTests

/-!
# The tests with published keys, points and addresses

`/repo/tests/crypto/secp256k1_key.rs`, `secp256k1_sec1.rs`, parts of `secp256k1_signing_verifying.rs`, and
`/repo/tests/blockchain/ethereum/eoa_private_key_to_address.rs`.  A failed assertion is a panic.  Reading the files is not modelled: the entries arrive
with the strings that the tests take out of them.
-/

namespace LCT.KeyTests
open LCT.BigInt LCT.Out LCT.Crypto LCT.Curve LCT.Hash LCT.Codecs LCT.RandomTests LCT.TransactionTests LCT.Ethereum

/-- The loop over the entries of a file, which all the tests have. -/
def each {α : Type} (f : α → Out Unit Unit) : List α → Out Unit Unit
  | [] => .ok ()
  | v :: vs => do
    f v
    each f vs

/-- `/repo/tests/crypto/secp256k1_key.rs:24-29`: one entry of `isPrivate`: the number, and whether it is a private key. -/
def isPrivate (m : Build) (w : Nat) (cp : Params) (v : List UInt8 × Bool) : Out Unit Unit := do
  let d ← unwrapped (BInt.fromHex w v.1)
  let result ← PrivateKey.new m w d cp
  rassert (result.isSome == v.2)

/-- The strings of an entry of `privateAdd`, `/repo/tests/crypto/secp256k1_key.rs:43-45`. -/
structure Sum where
  d : List UInt8
  tweak : List UInt8
  expected : Option (List UInt8)

/-- `/repo/tests/crypto/secp256k1_key.rs:52-60`: the comparison with the expected result; `format!("{hex:0>64}")` is `padHex 64`. -/
def checkSum (m : Build) (w : Nat) (expected : Option (List UInt8)) : Option PrivateKey → Out Unit Unit
  | some key => do
    let hex ← key.data.toLowerHex m w
    let expected ← unwrap expected
    rassert (padHex 64 hex == expected)
  | none => rassert expected.isNone

/-- `/repo/tests/crypto/secp256k1_key.rs:47-60`. -/
def privateAdd (m : Build) (w : Nat) (cp : Params) (v : Sum) : Out Unit Unit := do
  let a ← unwrapped (BInt.fromHex w v.d)
  let key ← unwrap (← PrivateKey.new m w a cp)
  let b ← unwrapped (BInt.fromHex w v.tweak)
  let sum ← BInt.add m w key.data b
  let c ← BInt.rem m w sum cp.order
  let key ← PrivateKey.new m w c cp
  checkSum m w v.expected key

/-- `/repo/tests/crypto/secp256k1_key.rs:74-80`: one entry of `negate`. -/
def negate (m : Build) (w : Nat) (cp : Params) (v : List UInt8 × List UInt8) : Out Unit Unit := do
  let a ← unwrapped (BInt.fromHex w v.1)
  let b ← BInt.sub m w cp.order a
  let hex ← b.toLowerHex m w
  rassert (padHex 64 hex == v.2)

/-- `line.split(':')` and twice `next().unwrap()` of the standard library: what precedes the first `:`, and what lies between it and the second. -/
def twoPieces (line : List UInt8) : Out Unit (List UInt8 × List UInt8) :=
  match line.dropWhile (· != 58) with
  | [] => .panic
  | _ :: rest => .ok (line.takeWhile (· != 58), rest.takeWhile (· != 58))

/-- `/repo/tests/crypto/secp256k1_key.rs:91-102`: one line, with a private key in decimal and the abscissa of the public key in hex. -/
def publicOfPrivate (m : Build) (w : Nat) (cp : Params) (line : List UInt8) : Out Unit Unit := do
  let (decimal, hex) ← twoPieces line
  let d ← unwrapped (BInt.fromStrRadix m w decimal 10)
  let x ← unwrapped (BInt.fromHex w hex)
  let key ← unwrap (← PrivateKey.new m w d cp)
  let publicKey ← key.publicKey m w
  rassert (← BInt.beq m publicKey.data.x x)

/-- `result.is_ok()` of a `Result`. -/
def isOk {ε α : Type} : Out ε α → Out Unit Bool
  | .ok _ => .ok true
  | .err _ => .ok false
  | .panic => .panic
  | .hang => .hang

/-- `/repo/tests/crypto/secp256k1_key.rs:115-119`: one entry of `isPoint`. -/
def isPoint (m : Build) (w : Nat) (cp : Params) (v : List UInt8 × Bool) : Out Unit Unit := do
  let result ← isOk (PublicKey.fromSec1Hex m w v.1 cp)
  rassert (result == v.2)

/-- `/repo/tests/crypto/secp256k1_key.rs:132-139`: one entry of `pointFromScalar`. -/
def pointFromScalar (m : Build) (w : Nat) (cp : Params) (v : List UInt8 × List UInt8) : Out Unit Unit := do
  let d ← unwrapped (BInt.fromHex w v.1)
  let key ← unwrap (← PrivateKey.new m w d cp)
  let publicKey ← key.publicKey m w
  let expected ← unwrapped (PublicKey.fromSec1Hex m w v.2 cp)
  rassert (← PublicKey.beq m publicKey expected)

/-- The strings of an entry of `pointCompress`, `/repo/tests/crypto/secp256k1_sec1.rs:22-24`. -/
structure Encoded where
  p : List UInt8
  compressed : Bool
  expected : List UInt8

/-- `/repo/tests/crypto/secp256k1_sec1.rs:26-28`. -/
def pointCompress (m : Build) (w : Nat) (cp : Params) (v : Encoded) : Out Unit Unit := do
  let publicKey ← unwrapped (PublicKey.fromSec1Hex m w v.p cp)
  let hex ← publicKey.toSec1Hex m w v.compressed
  rassert (hex == v.expected)

/-- The strings of an entry of `invalid.verify`, `/repo/tests/crypto/secp256k1_signing_verifying.rs:295-298`. -/
structure BadSignature where
  key : List UInt8
  hash : List UInt8
  signature : List UInt8
  strict : Bool

/-- `/repo/tests/crypto/secp256k1_signing_verifying.rs:299-323`: one entry of `invalid.verify`; `continue` is the end of the entry. -/
def invalidVerify (m : Build) (w : Nat) (cp : Params) (v : BadSignature) : Out Unit Unit :=
  match PublicKey.fromSec1Hex m w v.key cp with
  | .panic => .panic
  | .hang => .hang
  | .err _ => .ok ()
  | .ok publicKey =>
    match Signature.fromP1363Hex m w v.signature cp with
    | .panic => .panic
    | .hang => .hang
    | .err _ => .ok ()
    | .ok signature => do
      let hash ← unwrapped (hexToBytes v.hash)
      let result ← isOk (verifyWithOptions m w hash signature publicKey { VerifyingOptions.default with enforceLowS := v.strict })
      rassert (!result)

/-- The strings of an entry of `accounts.json`, `/repo/tests/blockchain/ethereum/eoa_private_key_to_address.rs:22-26`. -/
structure Account where
  privateKey : Option (List UInt8)
  checksumAddress : Option (List UInt8)

/-- `/repo/tests/blockchain/ethereum/eoa_private_key_to_address.rs:22-35`: one account; `false` stands for `continue`. -/
def account (m : Build) (w : Nat) (v : Account) : Out Unit Bool :=
  match v.privateKey with
  | none => .ok false
  | some t => do
    let checksummed ← unwrap v.checksumAddress
    let keyBytes ← dataOf t
    if len : keyBytes.length = 32 then
      let key ← EoaPrivateKey.new m w keyBytes len
      let privateKey ← unwrap key
      let publicKey ← EoaPrivateKey.publicKey m w privateKey
      let address ← EoaPublicKey.address m w publicKey
      let text ← address.display m
      rassert (text == checksummed)
      return true
    else .panic

/-- `/repo/tests/blockchain/ethereum/eoa_private_key_to_address.rs:15-39`. -/
def accounts (m : Build) (w : Nat) : List Account → Out Unit Unit := fileTest (account m w) 1000

end LCT.KeyTests
