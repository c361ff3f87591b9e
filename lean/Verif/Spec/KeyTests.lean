import Verif.Model.KeyTests
import Verif.Spec.Display
import Verif.Spec.TransactionTests
import Verif.Spec.VectorTests

/-!
# What published keys, points and addresses claim (specification)
-/

namespace LCT.Spec
open LCT.KeyTests

/-- A number in hex: an optional sign and an even number of digits; no text is zero. -/
def NumberText (t : List UInt8) (z : Int) : Prop := t = [] ∧ z = 0 ∨ HexNumeral t z

/-- A number in decimal, as the library reads it: it takes `a` for a digit (see C08); no text is zero. -/
def DecimalText (t : List UInt8) (z : Int) : Prop := t = [] ∧ z = 0 ∨ SignedNumeral 10 11 t z

/-- The line consists of two pieces without `:`, with `:` between them; what follows another `:` does not matter. -/
def TwoPieces (line a b : List UInt8) : Prop :=
  (∀ c ∈ a, c ≠ 58) ∧ (∀ c ∈ b, c ≠ 58) ∧ (line = a ++ 58 :: b ∨ ∃ rest, line = a ++ 58 :: (b ++ 58 :: rest))

/-- The number is a private key exactly if the entry says so. -/
def IsPrivateClaim (n : Nat) (v : List UInt8 × Bool) : Prop := ∃ z, NumberText v.1 z ∧ (v.2 = true ↔ 0 < z ∧ z < n)

/-- The sum of a private key and a number, reduced, as 64 digits; none if the sum is negative or a multiple of the order. -/
def SumClaim (n : Nat) (v : Sum) : Prop :=
  ∃ a b, NumberText v.d a ∧ 0 < a ∧ a < n ∧ NumberText v.tweak b ∧
    v.expected = if 0 ≤ a + b ∧ (a + b) % n ≠ 0 then some (fixedHex 32 ((a + b) % n).toNat) else none

/-- The difference of the order and the number, as 64 digits. -/
def NegateClaim (n : Nat) (v : List UInt8 × List UInt8) : Prop := ∃ z, NumberText v.1 z ∧ v.2 = fixedHex 32 (n - z).toNat

section
variable {p : Nat} [Fact p.Prime] {W : WeierstrassCurve.Affine (ZMod p)}

/-- A private key in decimal, and the abscissa of its public key in hex. -/
def PublicClaim (n : Nat) (G : W.Point) (line : List UInt8) : Prop :=
  ∃ s t, TwoPieces line s t ∧ ∃ d : Nat, DecimalText s d ∧ 0 < d ∧ d < n ∧ NumberText t (xCoord (d • G))

/-- The text is that of a point of the group, other than the neutral one. -/
def PointText (n : Nat) (t : List UInt8) (P : W.Point) : Prop := P ≠ 0 ∧ n • P = 0 ∧ (IsUncompressed n t P ∨ LaxCompressed n t P)

/-- A private key, and the text of its public key. -/
def ScalarClaim (n : Nat) (G : W.Point) (v : List UInt8 × List UInt8) : Prop :=
  ∃ d : Nat, NumberText v.1 d ∧ 0 < d ∧ d < n ∧ PointText n v.2 (d • G)

/-- The text of a point that the library can write (see C19), and its standard text in one of the two forms. -/
def EncodedClaim (n : Nat) (W : WeierstrassCurve.Affine (ZMod p)) (v : Encoded) : Prop :=
  ∃ P : W.Point, PointText n v.p P ∧ (0 < xCoord P ∧ xCoord P < n ∧ 0 < yCoord P ∧ yCoord P < n) ∧
    v.expected = if v.compressed then compressedText n P else uncompressedText n P

/-- What the test of invalid signatures demands.  The key or the signature is not one; or the hash is refused: it is empty, its length is not that of
the order, it is zero; or `s` is refused.  That the signature is wrong is neither necessary nor sufficient. -/
def RefusedClaim (n : Nat) (W : WeierstrassCurve.Affine (ZMod p)) (v : BadSignature) : Prop :=
  (¬ ∃ P : W.Point, PointText n v.key P) ∨ (¬ ∃ r s, SignatureText n v.signature r s) ∨
    ∃ hash, lower v.hash = hexOf hash ∧ (hash = [] ∨ (v.strict = true ∧ ∃ r s, SignatureText n v.signature r s ∧ n / 2 < s) ∨
      hash.length * 8 ≠ bitLength n ∨ leadingBits (bitLength n) hash = 0)

end

/-- A private key, and the text (with the EIP-55 checksum) of its address. -/
def AccountClaim (v : Account) : Prop :=
  ∃ t key, v.privateKey = some t ∧ Eth.DataText t key ∧ key.length = 32 ∧ 0 < ofBE key ∧ ofBE key < Secp256k1.n ∧
    v.checksumAddress = some (Eth.addressText (Eth.addressOf Sha3.keccak256 (xCoord (ofBE key • LCT.Secp256k1.G)) (yCoord (ofBE key • LCT.Secp256k1.G))))

end LCT.Spec
