import Verif.Model.SigningTests
import Verif.Spec.KeyClient
import Verif.Spec.KeyTests
import Verif.Spec.Signing

/-!
# What published signatures claim, and what the tests of recovery demand (specification)
-/

namespace LCT.Spec
open LCT.Hash LCT.Crypto LCT.SigningTests

section
variable {p : Nat} [Fact p.Prime] {W : WeierstrassCurve.Affine (ZMod p)}

/-- `k` is the nonce of RFC 6979 with HMAC-SHA-256 for this key and hash, without additional data, and it gives a signature. -/
def UsableNonce (n : Nat) (G : W.Point) (d : Nat) (hash : List UInt8) (k : Nat) : Prop :=
  NonceOf Sha2.Sha256 Sha2.sha256 n d hash false (.ok []) k ∧ ¬ Unusable n G d (leadingBits (bitLength n) hash) k

/-- The texts are those of a private key and of a hash that signing does not refuse. -/
def Signable (n : Nat) (o : SigningOptions) (dText hashText : List UInt8) (d : Nat) (hash : List UInt8) : Prop :=
  NumberText dText d ∧ 0 < d ∧ d < n ∧ lower hashText = hexOf hash ∧ signingComplaint n hash o = none

/-- An entry with a signature: it is the one of RFC 6979. -/
def SigningClaim (n : Nat) (G : W.Point) (o : SigningOptions) (v : Signing) : Prop :=
  ∃ d hash k, Signable n o v.d v.hash d hash ∧ UsableNonce n G d hash k ∧
    v.signature = p1363Text n (ecdsaR n G k) (lowS o.enforceLowS n (ecdsaS n G d (leadingBits (bitLength n) hash) k))

/-- An entry that must be refused: the number is not a private key, or signing refuses the hash. -/
def RefusalClaim (n : Nat) (v : List UInt8 × List UInt8) : Prop :=
  ∃ z, NumberText v.1 z ∧ (¬ (0 < z ∧ z < n) ∨
    ∃ hash, lower v.2 = hexOf hash ∧ signingComplaint n hash { SigningOptions.default with employExtraRandomData := false } ≠ none)

/-- What the test of recovery demands: the hash is zero, or it can be signed, and some other public key accepts the signature, too. -/
def RecoveryClaim (n : Nat) (G : W.Point) (low : Bool) (v : List UInt8 × List UInt8) : Prop :=
  ∃ hash, lower v.2 = hexOf hash ∧ (ofBE hash = 0 ∨
    ∃ d k, Signable n { SigningOptions.default with enforceLowS := low, employExtraRandomData := false } v.1 v.2 d hash ∧ UsableNonce n G d hash k ∧
      let e := leadingBits (bitLength n) hash
      ∃ Q : W.Point, Q ≠ 0 ∧ Q ≠ d • G ∧ EcdsaVerifies n G Q e (ecdsaR n G k) (lowS low n (ecdsaS n G d e k)))

/-- Signing succeeds at the first attempt (which nobody can guarantee, but which nobody expects to fail). -/
def HasNonce (n : Nat) (G : W.Point) (o : SigningOptions) (dText hashText : List UInt8) : Prop :=
  ∀ d hash, Signable n o dText hashText d hash → ∃ k, UsableNonce n G d hash k

end

end LCT.Spec
