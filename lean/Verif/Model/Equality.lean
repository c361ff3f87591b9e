import Verif.Model.Crypto.Ecdsa

/-!
# Derived equality

Models `==` on the types of the library that derive `PartialEq` and hold numbers.  (`BigInt` itself implements it by hand: `BInt.beq`;
`Point` is `Point.beq`.)  `#[derive(PartialEq)]` compares the fields one after another and stops at the first difference.
-/

namespace LCT
variable {ε : Type}

/-- Rust's `&&`: the right operand is evaluated only if the left one is `true`.  Used for the derived implementations below. -/
def Out.andAlso (x y : Out ε Bool) : Out ε Bool := do
  let b ← x
  if b then y else return false

open LCT.BigInt

/-- `/repo/src/math/elliptic_curve.rs:12-17` `Curve`: derived `PartialEq`. -/
def Curve.Curve.beq (m : Build) (c d : Curve.Curve) : Out ε Bool :=
  .andAlso (BInt.beq m c.a d.a) (.andAlso (BInt.beq m c.b d.b) (BInt.beq m c.p d.p))

namespace Crypto

/-- `/repo/src/crypto/elliptic_curve_params.rs:10-16` `EllipticCurveParams`: derived `PartialEq`. -/
def Params.beq (m : Build) (c d : Params) : Out ε Bool :=
  .andAlso (Curve.Curve.beq m c.curve d.curve) (.andAlso (Curve.Point.beq m c.basePoint d.basePoint)
    (.andAlso (BInt.beq m c.order d.order) (.ok (c.cofactor == d.cofactor))))

/-- `/repo/src/crypto/ecdsa/ecdsa_key.rs:16-20` `PublicKey`: derived `PartialEq`; the parameters are behind a reference, and references are
compared by what they point to. -/
def PublicKey.beq (m : Build) (k l : PublicKey) : Out ε Bool :=
  .andAlso (Curve.Point.beq m k.data l.data) (Params.beq m k.params l.params)

end Crypto
end LCT
