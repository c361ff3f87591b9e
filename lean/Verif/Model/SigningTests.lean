import Verif.Model.Crypto.Recovery
import Verif.Model.KeyTests

/-!
# The tests that sign published hashes and recover the keys

Parts of `/repo/tests/crypto/secp256k1_signing_verifying.rs` and `/repo/tests/crypto/secp256k1_public_key_recovery.rs`.  A failed assertion is a
panic.  Reading the files is not modelled: the entries arrive with the strings that the tests take out of them.
-/

namespace LCT.SigningTests
open LCT.BigInt LCT.Out LCT.Crypto LCT.Codecs LCT.RandomTests LCT.TransactionTests LCT.KeyTests LCT.Ethereum LCT.Random

/-- The strings of an entry of `valid`, `/repo/tests/crypto/secp256k1_signing_verifying.rs:244-246`. -/
structure Signing where
  d : List UInt8
  hash : List UInt8
  signature : List UInt8

/-- `/repo/tests/crypto/secp256k1_signing_verifying.rs:248-259`: one entry, with the options of the test.  The same steps are in
`test_ecdsa_secp256k1_signing_cases` (lines 32-46). -/
def signing (m : Build) (w fuel nonceFuel : Nat) (rand : Nat → Out RandomError (List UInt8)) (o : SigningOptions) (cp : Params) (v : Signing) :
    Out Unit Unit := do
  let d ← unwrapped (BInt.fromHex w v.d)
  let key ← unwrap (← PrivateKey.new m w d cp)
  let hash ← unwrapped (hexToBytes v.hash)
  let (signature, _) ← unwrapped (signDefault m w fuel nonceFuel rand hash key o)
  let hex ← signature.toP1363Hex m w
  rassert (hex == v.signature)

/-- `/repo/tests/crypto/secp256k1_signing_verifying.rs:252-256`: the options of `test_valid_signing`. -/
def validOptions : SigningOptions := { SigningOptions.default with employExtraRandomData := false, isZeroHashAllowed := true }

/-- `/repo/tests/crypto/secp256k1_signing_verifying.rs:37-41`: the options of `test_ecdsa_secp256k1_signing_cases`. -/
def casesOptions : SigningOptions := { SigningOptions.default with enforceLowS := false, employExtraRandomData := false }

/-- `/repo/tests/crypto/secp256k1_signing_verifying.rs:275-286`: what `test_invalid_signing` does with the private key; `continue` is the end of the
entry. -/
def refusedBy (m : Build) (w fuel nonceFuel : Nat) (rand : Nat → Out RandomError (List UInt8)) (hash : List UInt8) : Option PrivateKey → Out Unit Unit
  | none => .ok ()
  | some key => do
    let hash ← unwrapped (hexToBytes hash)
    let result ← isOk (signDefault m w fuel nonceFuel rand hash key { SigningOptions.default with employExtraRandomData := false })
    rassert (!result)

/-- `/repo/tests/crypto/secp256k1_signing_verifying.rs:272-287`: one entry of `invalid.sign`, with the strings `d` and `m`. -/
def invalidSigning (m : Build) (w fuel nonceFuel : Nat) (rand : Nat → Out RandomError (List UInt8)) (cp : Params) (v : List UInt8 × List UInt8) :
    Out Unit Unit := do
  let d ← unwrapped (BInt.fromHex w v.1)
  let key ← PrivateKey.new m w d cp
  refusedBy m w fuel nonceFuel rand v.2 key

/-- `public_keys.contains(&public_key)` of the standard library: it compares from the front and stops at the first equal element.  The
comparison is that of the elements with the argument. -/
def contains (m : Build) (key : PublicKey) : List PublicKey → Out Unit Bool
  | [] => .ok false
  | k :: ks => do
    if ← PublicKey.beq m k key then return true
    contains m key ks

/-- `/repo/tests/crypto/secp256k1_public_key_recovery.rs:125-149`: signing and recovering. -/
def recovers (m : Build) (w fuel nonceFuel : Nat) (rand : Nat → Out RandomError (List UInt8)) (low : Bool) (cp : Params) (d hash : List UInt8) :
    Out Unit Unit := do
  let d ← unwrapped (BInt.fromHex w d)
  let key ← unwrap (← PrivateKey.new m w d cp)
  let publicKey ← key.publicKey m w
  let (signature, id) ← unwrapped (signDefault m w fuel nonceFuel rand hash key
    { SigningOptions.default with enforceLowS := low, employExtraRandomData := false })
  let keys ← unwrapped (recover m w signature hash (some id))
  rassert (← contains m publicKey keys)
  let keys' ← unwrapped (recover m w signature hash none)
  rassert (← contains m publicKey keys')
  rassert (decide (keys.length < keys'.length))

/-- `/repo/tests/crypto/secp256k1_public_key_recovery.rs:115-150`: one entry of `valid`, with the strings `d` and `m`; `continue` is the end of
the entry. -/
def recovery (m : Build) (w fuel nonceFuel : Nat) (rand : Nat → Out RandomError (List UInt8)) (low : Bool) (cp : Params)
    (v : List UInt8 × List UInt8) : Out Unit Unit := do
  let hash ← unwrapped (hexToBytes v.2)
  let number ← unwrapped (BInt.fromHex w v.2)
  if ← number.isZero m then return ()
  recovers m w fuel nonceFuel rand low cp v.1 hash

/-- `/repo/tests/crypto/secp256k1_public_key_recovery.rs:173-220` `test_recovery_with_curve`: `keyDraw` and `messageDraw` are what the two calls of
`get_os_random_bytes` return. -/
def curveRecovery (m : Build) (w fuel nonceFuel : Nat) (rand : Nat → Out RandomError (List UInt8)) (low : Bool) (cp : Params)
    (keyDraw messageDraw : Out RandomError (List UInt8)) : Out Unit Unit := do
  let keyBytes ← unwrapped keyDraw
  let d ← unwrapped (BInt.fromHex w (bytesToLowerHex keyBytes))
  let key ← unwrap (← PrivateKey.new m w d cp)
  let publicKey ← key.publicKey m w
  let message ← unwrapped messageDraw
  let (hash, _) ← Hash.Sha2.Sha256.digest m Hash.Sha2.Sha256.fresh message
  let (signature, id) ← unwrapped (signDefault m w fuel nonceFuel rand hash key
    { SigningOptions.default with enforceLowS := low, strictHashByteLength := false, employExtraRandomData := false })
  let keys ← unwrapped (recoverWithOptions m w signature hash (some id) ⟨false⟩)
  rassert (← contains m publicKey keys)
  let keys' ← unwrapped (recoverWithOptions m w signature hash none ⟨false⟩)
  rassert (← contains m publicKey keys')

end LCT.SigningTests
