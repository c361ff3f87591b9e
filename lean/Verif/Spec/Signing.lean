import Verif.Spec.Rfc6979
import Verif.Model.Random

/-!
# The sequence of nonces used by signing (specification)
-/

namespace LCT.Spec
open LCT.Hash LCT.Random LCT.Crypto

/-- The additional data used in a round: the bytes supplied by the operating system if extra random data is wanted, and nothing otherwise. -/
def Drawn (extra : Bool) (rand : Out RandomError (List UInt8)) (bytes : List UInt8) : Prop :=
  if extra then rand = .ok bytes else bytes = []

/-- `k` is the RFC 6979 nonce for the secret key `d` and the hash, with HMAC over the hash function `h` that the hasher `H` computes, when
the operating system answers the request for random bytes with `rand`. -/
def NonceOf (H : Hasher) (h : List UInt8 → List UInt8) (q d : Nat) (hash : List UInt8) (extra : Bool) (rand : Out RandomError (List UInt8))
    (k : Nat) : Prop :=
  ∃ bytes, Drawn extra rand bytes ∧
    Rfc6979.IsNonce (Spec.hmac h H.blockLen) H.outLen q (Rfc6979.seed q d hash bytes) k

/-- The nonce `k` gives no signature: one of its halves is zero. -/
def Unusable {p : Nat} [Fact p.Prime] {W : WeierstrassCurve.Affine (ZMod p)} (n : Nat) (G : W.Point) (d e k : Nat) : Prop :=
  ecdsaR n G k = 0 ∨ ecdsaS n G d e k = 0

end LCT.Spec
