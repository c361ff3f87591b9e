import Verif.Spec.Curve
import Verif.Spec.Numerals
import Verif.Model.Crypto.Ecdsa
import Mathlib.Algebra.Field.ZMod
import Mathlib.SetTheory.Cardinal.Finite

/-!
# ECDSA domain parameters, signing and verification over the group of points (specification)
-/

namespace LCT.Spec
open LCT.BigInt LCT.Crypto

/-- `cp` stores valid domain parameters: the curve `y² = x³ + a·x + b` over a prime field, non-singular, with `b ≠ 0`, a base point `G`
of odd prime order `n`, and the cofactor (the number of points divided by `n`). -/
structure Domain (w : Nat) (cp : Params) (p n : Nat) [Fact p.Prime] (a b : Int) (G : (curve (a : ZMod p) (b : ZMod p)).Point) :
    Prop where
  p_ne : p ≠ 2
  n_prime : n.Prime
  n_ne : n ≠ 2
  curve : CurveDenotes w cp.curve p a b
  disc : 4 * (a : ZMod p) ^ 3 + 27 * (b : ZMod p) ^ 2 ≠ 0
  b_ne : (b : ZMod p) ≠ 0
  base : PointDenotes w cp.basePoint G
  order : Denotes w cp.order n
  G_ne : G ≠ 0
  G_order : n • G = 0
  card : Nat.card (Spec.curve (a : ZMod p) (b : ZMod p)).Point = cp.cofactor * n

section
variable {p : Nat} {W : WeierstrassCurve.Affine (ZMod p)}

/-- The abscissa of a point as a number below `p`; zero for the point at infinity. -/
def xCoord : W.Point → Nat
  | .zero => 0
  | .some x _ _ => x.val

/-- The ordinate of a point as a number below `p`; zero for the point at infinity. -/
def yCoord : W.Point → Nat
  | .zero => 0
  | .some _ y _ => y.val

end

section
variable {p : Nat} [Fact p.Prime] {W : WeierstrassCurve.Affine (ZMod p)}

/-- `pt` stores a valid public point: a point other than the point at infinity, in the subgroup of elements of order dividing `n`. -/
def ValidPoint (w n : Nat) (pt : Curve.Point) : Prop := ∃ P : W.Point, PointDenotes w pt P ∧ P ≠ 0 ∧ n • P = 0

/-- The textbook ECDSA verification equation: with `u = e / s` and `v = r / s` modulo `n`, the point `u•G + v•Q` is not the point at
infinity and its abscissa is `r` modulo `n`. -/
def EcdsaVerifies (n : Nat) (G Q : W.Point) (e r s : Nat) : Prop :=
  let R := ((e : ZMod n) * (s : ZMod n)⁻¹).val • G + ((r : ZMod n) * (s : ZMod n)⁻¹).val • Q
  R ≠ 0 ∧ xCoord R % n = r

/-- The first half of a textbook ECDSA signature with nonce `k`: the abscissa of `k•G` modulo `n`. -/
def ecdsaR (n : Nat) (G : W.Point) (k : Nat) : Nat := xCoord (k • G) % n

/-- The second half: `(e + r·d) / k` modulo `n`. -/
def ecdsaS (n : Nat) (G : W.Point) (d e k : Nat) : Nat :=
  (((e : ZMod n) + (ecdsaR n G k : ZMod n) * (d : ZMod n)) * (k : ZMod n)⁻¹).val

end

/-- What a recovery id says about a point `R`: whether its abscissa is at least `n`, and the parity of its ordinate. -/
def idHigh : RecoveryId → Bool
  | .LowXEvenY | .LowXOddY => false
  | .HighXEvenY | .HighXOddY => true

def idOdd : RecoveryId → Bool
  | .LowXEvenY | .HighXEvenY => false
  | .LowXOddY | .HighXOddY => true

/-- The recovery id `id` describes the point `(e/s)•G + (r/s)•Q` that a verifier computes from the hash `e`, the signature `(r, s)` and the
public key `Q`. -/
def IdDescribes {p : Nat} [Fact p.Prime] {W : WeierstrassCurve.Affine (ZMod p)} (n : Nat) (G Q : W.Point) (e r s : Nat) (id : RecoveryId) :
    Prop :=
  let R := ((e : ZMod n) * (s : ZMod n)⁻¹).val • G + ((r : ZMod n) * (s : ZMod n)⁻¹).val • Q
  idHigh id = decide (n ≤ xCoord R) ∧ idOdd id = decide (yCoord R % 2 = 1)

/-- The number made of the leading `bits` bits of a byte string (all of it if it is not longer). -/
def leadingBits (bits : Nat) (bs : List UInt8) : Nat := ofBE bs / 2 ^ (bs.length * 8 - bits)

end LCT.Spec
