import Verif.Model.Math.Curve
import Verif.Model.Codecs

/-!
# Curve parameters

Models `/repo/src/crypto/elliptic_curve_params.rs` and `/repo/src/crypto/secp256k1.rs`.
-/

namespace LCT.Crypto
open LCT.BigInt LCT.Modular LCT.Curve
variable {ε : Type}

/-- `/repo/src/crypto/elliptic_curve_params.rs:10-16` `EllipticCurveParams`.  The cofactor is a `u32`. -/
structure Params where
  curve : Curve
  basePoint : Point
  order : BInt
  cofactor : Nat

/-- `/repo/src/crypto/elliptic_curve_params.rs:52-55`: `point.x < zero || point.y < zero`. -/
def anyNegative (m : Build) (w : Nat) (pt : Point) : Out ε Bool := do
  let zero ← BInt.zero w
  let b ← BInt.lt m pt.x zero
  if b then return true else BInt.lt m pt.y zero

/-- `/repo/src/crypto/elliptic_curve_params.rs:58`: `point.x >= p || point.y >= p`. -/
def anyTooLarge (m : Build) (pt : Point) (p : BInt) : Out ε Bool := do
  let b ← BInt.ge m pt.x p
  if b then return true else BInt.ge m pt.y p

/-- The right-hand side of the curve equation, not reduced: `x * x * x + a * x + b`.
`/repo/src/crypto/elliptic_curve_params.rs:66`, `/repo/src/crypto/sec1.rs:97`,
`/repo/src/crypto/ecdsa/ecdsa_public_key_recovery.rs:92-94`. -/
def rhs (m : Build) (w : Nat) (c : Curve) (x : BInt) : Out ε BInt := do
  let x2 ← BInt.mul m w x x
  let x3 ← BInt.mul m w x2 x
  let ax ← BInt.mul m w c.a x
  let t ← BInt.add m w x3 ax
  BInt.add m w t c.b

/-- `/repo/src/crypto/elliptic_curve_params.rs:48-86` `validate_point`. -/
def Params.validatePoint (m : Build) (w : Nat) (cp : Params) (pt : Point) : Out ε Bool := do
  let neg ← anyNegative m w pt
  if neg then return false
  else do
    let big ← anyTooLarge m pt cp.curve.p
    if big then return false
    else do
      let left ← BInt.mul m w pt.y pt.y
      let left ← modulo m w left cp.curve.p
      let right ← rhs m w cp.curve pt.x
      let right ← modulo m w right cp.curve.p
      let same ← BInt.beq m left right
      if !same then return false
      else do
        let isId ← pt.isIdentity m
        if isId then return false
        else if cp.cofactor ≠ 1 then do
          let np ← mulPoint m w cp.curve pt cp.order
          np.isIdentity m
        else return true

/-- `vec![0; len - bytes.len()]` followed by `bytes`.  If `bytes` is longer the subtraction underflows: a panic in debug builds; in
release builds the wrapped length exceeds the maximal capacity of a vector, a panic as well. -/
def leftPad (len : Nat) (bytes : List UInt8) : Out ε (List UInt8) :=
  if bytes.length ≤ len then .ok (List.replicate (len - bytes.length) 0 ++ bytes) else .panic

/-- `/repo/src/crypto/elliptic_curve_params.rs:90-103` `point_to_bytes`. -/
def Params.pointToBytes (m : Build) (w : Nat) (cp : Params) (pt : Point) : Out ε (List UInt8) := do
  let len ← BInt.byteLen m w cp.order
  let bx ← BInt.toBeBytes m w pt.x
  let px ← leftPad len bx
  let yb ← BInt.toBeBytes m w pt.y
  let py ← leftPad len yb
  return px ++ py

/-- ASCII text as bytes. -/
def ascii (s : String) : List UInt8 := s.toList.map fun c => c.toNat.toUInt8

/-- `BigInt::from_hex(..).unwrap()`. -/
def fromHexUnwrap (w : Nat) (s : String) : Out ε BInt :=
  match BInt.fromHex w (ascii s) with
  | .ok x => .ok x
  | .err _ => .panic
  | .panic => .panic
  | .hang => .hang

/-- `/repo/src/crypto/secp256k1.rs:15-47` `secp256k1`.  The static variable initialised by `Once` is modelled here by its value;
Verif/Model/Crypto/Statics.lean models the variable itself and the threads that share it. -/
def secp256k1 (w : Nat) : Out ε Params := do
  let a ← BInt.ofInt w 0
  let b ← BInt.ofInt w 7
  let p ← fromHexUnwrap w "fffffffffffffffffffffffffffffffffffffffffffffffffffffffefffffc2f"
  let gx ← fromHexUnwrap w "79be667ef9dcbbac55a06295ce870b07029bfcdb2dce28d959f2815b16f81798"
  let gy ← fromHexUnwrap w "483ada7726a3c4655da4fbfc0e1108a8fd17b448a68554199c47d08ffb10d4b8"
  let n ← fromHexUnwrap w "fffffffffffffffffffffffffffffffebaaedce6af48a03bbfd25e8cd0364141"
  return { curve := ⟨a, b, p⟩, basePoint := ⟨gx, gy⟩, order := n, cofactor := 1 }

end LCT.Crypto
