import Verif.Model.P256Tests
import Verif.Spec.KeyClient
import Verif.Spec.KeyTests
import Verif.Spec.Signing

/-!
# What the tests of signing on P-256 claim (specification)

For the base point `G` of order `n`; `h` is the hash function and `H` says how long its blocks and hashes are.
-/

namespace LCT.Spec
open LCT.Hash LCT.Crypto LCT.P256Tests

/-- The text is that of a private key `d`, and the message has a hash that can be signed. -/
def MessageSignable (n : Nat) (h : List UInt8 → List UInt8) (v : Case) (d : Nat) : Prop :=
  NumberText v.d d ∧ 0 < d ∧ d < n ∧ leadingBits (bitLength n) (h v.message) ≠ 0

section
variable {p : Nat} [Fact p.Prime] {W : WeierstrassCurve.Affine (ZMod p)}

/-- `k` is the nonce of RFC 6979 with this hash function, without additional data, and it gives a signature. -/
def MessageNonce (n : Nat) (G : W.Point) (H : Hasher) (h : List UInt8 → List UInt8) (v : Case) (d k : Nat) : Prop :=
  NonceOf H h n d (h v.message) false (.ok []) k ∧ ¬ Unusable n G d (leadingBits (bitLength n) (h v.message)) k

/-- The signature is the one of RFC 6979 for the key and the message, written in hexadecimal as `r` and `s`. -/
def MessageClaim (n : Nat) (G : W.Point) (H : Hasher) (h : List UInt8 → List UInt8) (v : Case) : Prop :=
  ∃ d k, MessageSignable n h v d ∧ MessageNonce n G H h v d k ∧
    v.signature = p1363Text n (ecdsaR n G k) (ecdsaS n G d (leadingBits (bitLength n) (h v.message)) k)

end

end LCT.Spec
