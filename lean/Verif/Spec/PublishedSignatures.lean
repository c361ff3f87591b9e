import Verif.Spec.SigningTests

/-!
# What the published signatures claim, in full (specification)

The two tests over published signatures differ in what they demand: one wants the smaller of the two possible `s` and takes a hash of zeros, the other
wants the `s` that the standard computes, and no such hash.
-/

namespace LCT.Spec
open LCT.SigningTests

section
variable {p : Nat} [Fact p.Prime] {W : WeierstrassCurve.Affine (ZMod p)}

/-- A private key and a hash of the length of the order. -/
def KeyAndHash (n : Nat) (dText hashText : List UInt8) (d : Nat) (hash : List UInt8) : Prop :=
  NumberText dText d ∧ 0 < d ∧ d < n ∧ lower hashText = hexOf hash ∧ hash ≠ [] ∧ hash.length * 8 = bitLength n

/-- An entry with the signature of RFC 6979, with the smaller `s`. -/
def LowSignature (n : Nat) (G : W.Point) (v : Signing) : Prop :=
  ∃ d hash k, KeyAndHash n v.d v.hash d hash ∧ UsableNonce n G d hash k ∧
    let s := ecdsaS n G d (leadingBits (bitLength n) hash) k
    v.signature = p1363Text n (ecdsaR n G k) (if n / 2 < s then n - s else s)

/-- An entry with the signature of RFC 6979, as it is, of a hash that is not zero. -/
def PlainSignature (n : Nat) (G : W.Point) (v : Signing) : Prop :=
  ∃ d hash k, KeyAndHash n v.d v.hash d hash ∧ leadingBits (bitLength n) hash ≠ 0 ∧ UsableNonce n G d hash k ∧
    v.signature = p1363Text n (ecdsaR n G k) (ecdsaS n G d (leadingBits (bitLength n) hash) k)

end

end LCT.Spec
