import Verif.Model.Crypto.Rfc6979

/-!
# Signing

Models `/repo/src/crypto/ecdsa/ecdsa_signing.rs`.
-/

namespace LCT.Crypto
open LCT.BigInt LCT.Hash LCT.Random LCT.Modular LCT.Curve

/-- `/repo/src/crypto/ecdsa/ecdsa_signing.rs:108-113` `SigningOptions`. -/
structure SigningOptions where
  enforceLowS : Bool
  strictHashByteLength : Bool
  employExtraRandomData : Bool
  isZeroHashAllowed : Bool

/-- `/repo/src/crypto/ecdsa/ecdsa_signing.rs:115-124`: the default options. -/
def SigningOptions.default : SigningOptions := ⟨true, true, true, false⟩

/-- `/repo/src/crypto/ecdsa/ecdsa_signing.rs:127-132` `SigningError`. -/
inductive SigningError where
  | EmptyHashNotAllowed
  | ZeroHashNotAllowed
  | HashBitLengthDoesNotMatchBasePointOrder
  | FailedToGenerateNonce (e : GenerateNonceError)
  deriving Repr, DecidableEq

/-- `/repo/src/crypto/ecdsa/ecdsa_signing.rs:84-104`: what is returned for a signature. -/
def normalise (m : Build) (w : Nat) (o : SigningOptions) (sig : Signature) (id : RecoveryId) :
    Out SigningError (Signature × RecoveryId) := do
  let low ← (if o.enforceLowS then sig.isLowS m w else pure true : Out SigningError Bool)
  if !low then do
    let s ← BInt.sub m w sig.params.order sig.s
    let sig ← Signature.new m w sig.r s sig.params
    let sig ← unwrap sig
    let id ← unwrap (RecoveryId.fromU8 (id.toU8 ^^^ 1))
    return (sig, id)
  else return (sig, id)

/-- The loop `/repo/src/crypto/ecdsa/ecdsa_signing.rs:67-105`, with fuel; `i` counts the rounds, `rand i` is the outcome of the request for
random bytes made in round `i`, and `nonceFuel` is the fuel of each nonce generation. -/
def signLoop (m : Build) (w : Nat) (H : Hasher) (nonceFuel : Nat) (o : SigningOptions) (g : Rfc6979) (hash : List UInt8) (hashN : BInt)
    (key : PrivateKey) (rand : Nat → Out RandomError (List UInt8)) : Nat → Nat → H.State → Out SigningError (Signature × RecoveryId)
  | 0, _, _ => .hang
  | f + 1, i, st => do
    let (k, st) ← (g.generateNonce m w H nonceFuel hash key st (rand i)).mapErr .FailedToGenerateNonce
    let r ← key.sign m w hashN k
    match r with
    | none => signLoop m w H nonceFuel o g hash hashN key rand f (i + 1) st
    | some (sig, id) => normalise m w o sig id

/-- `/repo/src/crypto/ecdsa/ecdsa_signing.rs:36-106` `sign_with_options_and_rfc6979_hmac_hasher`. -/
def signWithOptions (m : Build) (w : Nat) (H : Hasher) (fuel nonceFuel : Nat) (st : H.State) (rand : Nat → Out RandomError (List UInt8))
    (hash : List UInt8) (key : PrivateKey) (o : SigningOptions) : Out SigningError (Signature × RecoveryId) := do
  failIf .EmptyHashNotAllowed hash.isEmpty
  let len ← (if o.strictHashByteLength then hashLengthMatches m w hash.length key.params else pure true : Out SigningError Bool)
  failIf .HashBitLengthDoesNotMatchBasePointOrder (!len)
  let nl ← BInt.bitLen m w key.params.order
  let hashN ← fromBeBytesMaxBits m w hash nl
  let z ← (if o.isZeroHashAllowed then pure false else BInt.isZero m hashN : Out SigningError Bool)
  failIf .ZeroHashNotAllowed z
  let g ← Rfc6979.new m w key.params.order o.employExtraRandomData
  signLoop m w H nonceFuel o g hash hashN key rand fuel 0 st

end LCT.Crypto
