import Verif.Model.Crypto.TestCurves
import Verif.Model.SigningTests

/-!
# The tests of signing and verifying on P-256

`/repo/tests/crypto/ecdsa_p256_signing_verifying.rs`.  A failed assertion is a panic.  The three tests are given for any texts of the private key and the
signature and any message.
-/

namespace LCT.P256Tests
open LCT.BigInt LCT.Out LCT.Crypto LCT.Hash LCT.Codecs LCT.RandomTests LCT.Random

/-- What a test has as literals. -/
structure Case where
  d : List UInt8
  message : List UInt8
  signature : List UInt8

/-- The steps that the tests have in common, `/repo/tests/crypto/ecdsa_p256_signing_verifying.rs:20-44,49-85,90-126`; `hasherFor` says with which hasher the nonces
are made, if `hasher` is the one that hashed the message.  (`public_key` has no error; the type of errors here is that of the next call.) -/
def signAndVerify (m : Build) (w : Nat) (H : Hasher) (hasherFor : H.State → H.State) (so : SigningOptions) (vo : VerifyingOptions) (fuel nonceFuel : Nat)
    (rand : Nat → Out RandomError (List UInt8)) (v : Case) : Out Unit Unit := do
  let cp ← nistP256 w
  let d ← unwrapped (BInt.fromHex w v.d)
  let key ← unwrap (← PrivateKey.new m w d cp)
  let (hash, hasher) ← H.digest m H.fresh v.message
  let (signature, _) ← unwrapped (signWithOptions m w H fuel nonceFuel (hasherFor hasher) rand hash key so)
  let hex ← signature.toP1363Hex m w
  rassert (hex == v.signature)
  let publicKey ← unwrapped (key.publicKey m w : Out VerifyingError PublicKey)
  let valid ← unwrapped (verifyWithOptions m w hash signature publicKey vo)
  rassert valid

/-- `/repo/tests/crypto/ecdsa_p256_signing_verifying.rs:18-45` `test_ecdsa_p256_sha256_sign`: `sign_with_options` takes a new SHA-256 hasher. -/
def sha256Sign (m : Build) (w fuel nonceFuel : Nat) (rand : Nat → Out RandomError (List UInt8)) (v : Case) : Out Unit Unit :=
  signAndVerify m w Sha2.Sha256 (fun _ => Sha2.Sha256.fresh) { SigningOptions.default with enforceLowS := false, employExtraRandomData := false } .default
    fuel nonceFuel rand v

/-- `/repo/tests/crypto/ecdsa_p256_signing_verifying.rs:47-86` `test_ecdsa_p256_sha384_sign`. -/
def sha384Sign (m : Build) (w fuel nonceFuel : Nat) (rand : Nat → Out RandomError (List UInt8)) (v : Case) : Out Unit Unit :=
  signAndVerify m w Sha2.Sha384 id
    { SigningOptions.default with enforceLowS := false, strictHashByteLength := false, employExtraRandomData := false }
    { VerifyingOptions.default with strictHashByteLength := false } fuel nonceFuel rand v

/-- `/repo/tests/crypto/ecdsa_p256_signing_verifying.rs:88-127` `test_ecdsa_p256_sha512_sign`. -/
def sha512Sign (m : Build) (w fuel nonceFuel : Nat) (rand : Nat → Out RandomError (List UInt8)) (v : Case) : Out Unit Unit :=
  signAndVerify m w Sha2.Sha512 id
    { SigningOptions.default with enforceLowS := false, strictHashByteLength := false, employExtraRandomData := false }
    { VerifyingOptions.default with strictHashByteLength := false } fuel nonceFuel rand v

end LCT.P256Tests
