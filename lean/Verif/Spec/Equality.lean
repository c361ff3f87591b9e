import Verif.Spec.Widths
import Verif.Model.Equality

/-!
# Equality and interchangeability (specification)

`SameInt w w x y`, `SamePoint w w a b`, … (`Verif.Spec.Widths`, with one digit width) say that two values stand for the same integer, point, ….
A value that is the same as itself (`SameInt w w x x`, …) is one whose numbers are well formed.
-/

namespace LCT.Spec
open LCT.BigInt LCT.Curve LCT.Crypto

/-- The test `t` always answers, and it answers whether `P` holds. -/
def Answers (t : Out Unit Bool) (P : Prop) : Prop := ∃ b, t = .ok b ∧ (b = true ↔ P)

/-- `x == y` is `true`. -/
def EqualInt (m : Build) (x y : BInt) : Prop := (BInt.beq m x y : Out Unit Bool) = .ok true

/-- `a == b` is `true`. -/
def EqualPoint (m : Build) (a b : Point) : Prop := (Point.beq m a b : Out Unit Bool) = .ok true

/-- `c == d` is `true`. -/
def EqualCurve (m : Build) (c d : Curve) : Prop := (Curve.beq m c d : Out Unit Bool) = .ok true

/-- `c == d` is `true`. -/
def EqualParams (m : Build) (c d : Params) : Prop := (Params.beq m c d : Out Unit Bool) = .ok true

/-- `k == l` is `true`. -/
def EqualPublic (m : Build) (k l : PublicKey) : Prop := (PublicKey.beq m k l : Out Unit Bool) = .ok true

end LCT.Spec
