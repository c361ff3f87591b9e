import Verif.Spec.BigInt
import Verif.Model.Math.Curve
import Mathlib.AlgebraicGeometry.EllipticCurve.Affine.Point

/-!
# Which point of which elliptic curve a stored point denotes (specification)

The group of the points of a curve is Mathlib's `WeierstrassCurve.Affine.Point`.
-/

namespace LCT.Spec
open LCT.BigInt

/-- The curve `y² = x³ + a·x + b` over the integers modulo `p`. -/
abbrev curve {p : Nat} (a b : ZMod p) : WeierstrassCurve.Affine (ZMod p) := ⟨0, 0, 0, a, b⟩

/-- `c` stores the curve `y² = x³ + a·x + b` modulo `p`; the coefficients need not be reduced. -/
structure CurveDenotes (w : Nat) (c : Curve.Curve) (p : Nat) (a b : Int) : Prop where
  a : Denotes w c.a a
  b : Denotes w c.b b
  p : Denotes w c.p p

/-- `pt` stores the point `P`: its coordinates as numbers below `p`, or the pair `(0, 0)` for the point at infinity. -/
def PointDenotes (w : Nat) {p : Nat} {W : WeierstrassCurve.Affine (ZMod p)} (pt : Curve.Point) : W.Point → Prop
  | .zero => Denotes w pt.x 0 ∧ Denotes w pt.y 0
  | .some x y _ => Denotes w pt.x x.val ∧ Denotes w pt.y y.val

/-- One of the points `P`, `2•P`, `4•P`, …, `2^(k-1)•P` has order two. -/
def MeetsOrderTwo {A : Type} [AddMonoid A] (k : Nat) (P : A) : Prop := ∃ i < k, 2 ^ i • P ≠ 0 ∧ 2 ^ (i + 1) • P = 0

end LCT.Spec
