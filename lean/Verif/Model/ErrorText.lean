import Verif.Model.Examples
import Verif.Model.Crypto.Recovery
import Verif.Model.Crypto.Encoding

/-!
# The messages of errors

Models the `Display` implementations of the error types.  `codecsMessage`, `rlpMessage` and `randomMessage` are in `Verif.Model.Examples`.
-/

namespace LCT.ErrorText
open LCT.BigInt LCT.Crypto LCT.Random LCT.Ethereum LCT.Examples

/-- `/repo/src/crypto/ecdsa/ecdsa_core.rs:256` `EMPTY_HASH_NOT_ALLOWED_ERROR_DISPLAY`. -/
def emptyHash : List UInt8 := lit "Empty hash is not allowed"

/-- `/repo/src/crypto/ecdsa/ecdsa_core.rs:257` `ZERO_HASH_NOT_ALLOWED_ERROR_DISPLAY`. -/
def zeroHash : List UInt8 := lit "Zero hash is not allowed"

/-- `/repo/src/crypto/ecdsa/ecdsa_core.rs:258-259` `HASH_BIT_LENGTH_DOES_NOT_MATCH_BASE_POINT_ORDER_ERROR_DISPLAY`. -/
def hashLength : List UInt8 := lit "Hash length in bits doesn't equal to the order of the base point in bits"

/-- `/repo/src/bigint/bigint_new.rs:157-164` `Display for ParseIntError`. -/
def parseIntMessage : ParseIntError → List UInt8
  | .CodecsError e => lit "Codecs error: " ++ codecsMessage e
  | .InvalidInput => lit "Invalid input"

/-- `/repo/src/crypto/p1363.rs:26-33` `Display for SignatureDecodingError`. -/
def p1363Message : SignatureDecodingError → List UInt8
  | .InvalidFormat => lit "Invalid format"
  | .InvalidSignature => lit "Invalid signature"

/-- `/repo/src/crypto/sec1.rs:26-36` `Display for PointDecodingError`. -/
def sec1Message : PointDecodingError → List UInt8
  | .InvalidFormat => lit "Invalid format"
  | .InvalidX => lit "Invalid x"
  | .InvalidY => lit "Invalid y"
  | .YNotFound => lit "Y not found"
  | .InvalidPoint => lit "Invalid point"

/-- `/repo/src/crypto/ecdsa/ecdsa_verifying.rs:83-104` `Display for VerifyingError`. -/
def verifyingMessage : VerifyingError → List UInt8
  | .EmptyHashNotAllowed => emptyHash
  | .ZeroHashNotAllowed => zeroHash
  | .StrictHighSFound => lit "A \"high s\" is found when \"low s\" is enforced"
  | .HashBitLengthDoesNotMatchBasePointOrder => hashLength

/-- `/repo/src/crypto/ecdsa/ecdsa_public_key_recovery.rs:176-197` `Display for RecoveryError`. -/
def recoveryMessage : RecoveryError → List UInt8
  | .EmptyHashNotAllowed => emptyHash
  | .ZeroHashNotAllowed => zeroHash
  | .HashBitLengthDoesNotMatchBasePointOrder => hashLength
  | .InvalidSignature => lit "Invalid Signature"

/-- `/repo/src/crypto/rfc6979.rs:151-159` `Display for GenerateNonceError`. -/
def nonceMessage : GenerateNonceError → List UInt8
  | .FailedToGenerateRandomBytes e => lit "Failed to generate random bytes: " ++ randomMessage e

/-- `/repo/src/crypto/ecdsa/ecdsa_signing.rs:134-155` `Display for SigningError`. -/
def signingMessage : SigningError → List UInt8
  | .EmptyHashNotAllowed => emptyHash
  | .ZeroHashNotAllowed => zeroHash
  | .HashBitLengthDoesNotMatchBasePointOrder => hashLength
  | .FailedToGenerateNonce e => lit "Failed to generate deterministic nonce: " ++ nonceMessage e

/-- `/repo/src/blockchain/ethereum/transaction/builder.rs:22-29` `Display for TransactionBuildingError`. -/
def buildingMessage : BuildingError → List UInt8
  | .MissingFields => lit "Some fields are missing"
  | .SigningError e => lit "Signing error: " ++ signingMessage e

end LCT.ErrorText
