import Verif.Model.Math.Modular

/-!
# Elliptic curve points

Models `/repo/src/math/elliptic_curve.rs`.
-/

namespace LCT.Curve
open LCT.BigInt LCT.Modular
variable {ε : Type}

/-- `/repo/src/math/elliptic_curve.rs:10-17` `Curve`. -/
structure Curve where
  a : BInt
  b : BInt
  p : BInt

/-- `/repo/src/math/elliptic_curve.rs:131-136` `Point`. -/
structure Point where
  x : BInt
  y : BInt

/-- `/repo/src/math/elliptic_curve.rs:143-145` `is_identity_element`. -/
def Point.isIdentity (m : Build) (pt : Point) : Out ε Bool := do
  let zx ← BInt.isZero m pt.x
  if zx then BInt.isZero m pt.y else return false

/-- `/repo/src/math/elliptic_curve.rs:148-153` `identity_element`. -/
def Point.identity (w : Nat) : Out ε Point := do
  let x ← BInt.zero w
  let y ← BInt.zero w
  return ⟨x, y⟩

/-- `/repo/src/math/elliptic_curve.rs:132`: the derived `PartialEq` of `Point`. -/
def Point.beq (m : Build) (a b : Point) : Out ε Bool := do
  let ex ← BInt.beq m a.x b.x
  if ex then BInt.beq m a.y b.y else return false

/-- The conditions `c >= 0 && c < p` in the debug assertions of `double_point` and `add_points`. -/
def inRange (m : Build) (w : Nat) (c p : BInt) : Out ε Bool := do
  let z ← BInt.zero w
  let b ← BInt.ge m c z
  if b then BInt.lt m c p else return false

/-- `self.invert(v).unwrap()` with `/repo/src/math/elliptic_curve.rs:126-128` `invert`. -/
def invertUnwrap (m : Build) (w : Nat) (v p : BInt) : Out ε BInt := do
  let o ← invert m w v p
  unwrap o

/-- The end of `double_point` and of `add_points`, `/repo/src/math/elliptic_curve.rs:44-48` and `94-98`:
`y = m * (a.x - x) - a.y` reduced modulo `p`. -/
def thirdPoint (m : Build) (w : Nat) (c : Curve) (a : Point) (mm x : BInt) : Out ε Point := do
  let d ← BInt.sub m w a.x x
  let t ← BInt.mul m w mm d
  let y ← BInt.sub m w t a.y
  let y ← modulo m w y c.p
  return ⟨x, y⟩

/-- `/repo/src/math/elliptic_curve.rs:25-49` `double_point`. -/
def doublePoint (m : Build) (w : Nat) (c : Curve) (a : Point) : Out ε Point := do
  dassertM m (inRange m w a.x c.p)
  dassertM m (inRange m w a.y c.p)
  let isId ← a.isIdentity m
  if isId then Point.identity w
  else do
    let two ← BInt.ofInt w 2
    let three ← BInt.ofInt w 3
    let t ← BInt.mul m w three a.x
    let t ← BInt.mul m w t a.x
    let num ← BInt.add m w t c.a
    let den ← BInt.mul m w two a.y
    let inv ← invertUnwrap m w den c.p
    let mm ← BInt.mul m w num inv
    let mm ← modulo m w mm c.p
    let sq ← BInt.mul m w mm mm
    let x2 ← BInt.mul m w two a.x
    let x ← BInt.sub m w sq x2
    let x ← modulo m w x c.p
    thirdPoint m w c a mm x

/-- `/repo/src/math/elliptic_curve.rs:86-98`: the chord case of `add_points`. -/
def chord (m : Build) (w : Nat) (c : Curve) (a b : Point) : Out ε Point := do
  let num ← BInt.sub m w b.y a.y
  let den ← BInt.sub m w b.x a.x
  let inv ← invertUnwrap m w den c.p
  let mm ← BInt.mul m w num inv
  let mm ← modulo m w mm c.p
  let sq ← BInt.mul m w mm mm
  let x ← BInt.sub m w sq a.x
  let x ← BInt.sub m w x b.x
  let x ← modulo m w x c.p
  thirdPoint m w c a mm x

/-- `/repo/src/math/elliptic_curve.rs:52-99` `add_points`.  The first two tests of the code, `a` and `b` both the identity and `a` the
identity, are kept separate. -/
def addPoints (m : Build) (w : Nat) (c : Curve) (a b : Point) : Out ε Point := do
  dassertM m (inRange m w a.x c.p)
  dassertM m (inRange m w a.y c.p)
  dassertM m (inRange m w b.x c.p)
  dassertM m (inRange m w b.y c.p)
  let aId ← a.isIdentity m
  let bId ← b.isIdentity m
  if aId && bId then Point.identity w
  else if aId then return b
  else if bId then return a
  else do
    let same ← Point.beq m a b
    if same then doublePoint m w c a
    else do
      let sameX ← BInt.beq m a.x b.x
      if sameX then do
        let ny ← modulo m w (BInt.neg b.y) c.p
        let opp ← BInt.beq m a.y ny
        if opp then Point.identity w else .panic
      else chord m w c a b

/-- `/repo/src/math/elliptic_curve.rs:115-120`: the double-and-add loop, over the bits of the scalar, least significant first. -/
def mulLoop (m : Build) (w : Nat) (c : Curve) : List Bool → Point → Point → Out ε Point
  | [], _, result => return result
  | bit :: bits, base, result => do
    let result ← (if bit then addPoints m w c base result else pure result : Out ε Point)
    let base ← doublePoint m w c base
    mulLoop m w c bits base result

/-- `/repo/src/math/elliptic_curve.rs:102-122` `mul_point`. -/
def mulPoint (m : Build) (w : Nat) (c : Curve) (point : Point) (n : BInt) : Out ε Point := do
  dassertM m (do let z ← BInt.zero w; BInt.ge m point.x z)
  dassertM m (do let z ← BInt.zero w; BInt.ge m point.y z)
  dassertM m (do let z ← BInt.zero w; BInt.ge m n z)
  let isZ ← BInt.isZero m n
  if isZ then Point.identity w
  else do
    let result ← Point.identity w
    let bits ← BInt.leBits m w n
    mulLoop m w c bits point result

end LCT.Curve
