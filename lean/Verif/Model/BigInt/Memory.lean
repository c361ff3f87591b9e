import Verif.Model.BigInt.Gcd

/-!
# Big integers: output buffers and scratch memory

`Verif.Model.BigInt.Digits`, `DivRem` and `Gcd` represent a `&mut [Digit]` that a function writes to by its length.  Here the same functions are
modelled with the contents of that memory, written to place after place as the code does: what the memory held before is an input.
-/

namespace LCT.BigInt
variable {ε : Type}

/-- `buf.fill(0)`. -/
def fill0 (buf : List Nat) : List Nat := buf.map fun _ => 0

/-- `buf[i..j].copy_from_slice(src)`. -/
def copyAt (buf : List Nat) (i j : Nat) (src : List Nat) : Out ε (List Nat) := do
  rassert (decide (i ≤ j ∧ j ≤ buf.length))
  rassert (decide (src.length = j - i))
  return buf.take i ++ src ++ buf.drop j

/-- `buf[i] = x`. -/
def storeAt (buf : List Nat) (i x : Nat) : Out ε (List Nat) := do
  rassert (decide (i < buf.length))
  return buf.set i x

/-! ## Addition -/

/-- `/repo/src/bigint/add.rs:52-55`: the first arguments are the digits, the next the places of the buffer that `result_iter_mut` has yet to visit;
returns the new contents of the visited places, the places not visited, and the carry. -/
def addZipIn (w : Nat) : List Nat → List Nat → List Nat → Bool → Out ε (List Nat × List Nat × Bool)
  | s :: ss, g :: gs, _ :: rest, c => do
    let (d, c) := carryingAdd w g s c
    let (done, rest, c) ← addZipIn w ss gs rest c
    return (d :: done, rest, c)
  | _ :: _, _ :: _, [], _ => .panic
  | _, _, rest, c => return ([], rest, c)

/-- `/repo/src/bigint/add.rs:61-63`, likewise. -/
def addPropIn (w : Nat) : List Nat → List Nat → Bool → Out ε (List Nat × List Nat × Bool)
  | g :: gs, _ :: rest, c => do
    let (d, c) := carryingAdd w g 0 c
    let (done, rest, c) ← addPropIn w gs rest c
    return (d :: done, rest, c)
  | _ :: _, [], _ => .panic
  | [], rest, c => return ([], rest, c)

/-- `/repo/src/bigint/add.rs:26-75` `add_digits`; returns the new contents of `result` and the length of the sum. -/
def addDigitsIn (m : Build) (w : Nat) (a b : List Nat) (result : List Nat) : Out ε (List Nat × Nat) := do
  dassert m (isValid a)
  dassert m (isValid b)
  dassert m (decide (max a.length b.length + 1 ≤ result.length))
  let result := fill0 result
  let ord ← cmpDigits m a b
  let (greater, smaller) := if ord == .lt then (b, a) else (a, b)
  let (done, rest, carry) ← addZipIn w smaller greater result false
  if carry then
    let (done2, rest, carry) ← addPropIn w (greater.drop smaller.length) rest carry
    if carry then
      match rest with
      | [] => .panic
      | _ :: rest => return (done ++ done2 ++ 1 :: rest, greater.length + 1)
    else return (done ++ done2 ++ rest, greater.length)
  else
    let result ← copyAt (done ++ rest) smaller.length greater.length (greater.drop smaller.length)
    return (result, greater.length)

/-! ## Subtraction -/

/-- `/repo/src/bigint/sub.rs:61-64`. -/
def subZipIn (w : Nat) : List Nat → List Nat → List Nat → Bool → Out ε (List Nat × List Nat × Bool)
  | s :: ss, g :: gs, _ :: rest, c => do
    let (d, c) := borrowingSub w g s c
    let (done, rest, c) ← subZipIn w ss gs rest c
    return (d :: done, rest, c)
  | _ :: _, _ :: _, [], _ => .panic
  | _, _, rest, c => return ([], rest, c)

/-- `/repo/src/bigint/sub.rs:70-72`. -/
def subPropIn (w : Nat) : List Nat → List Nat → Bool → Out ε (List Nat × List Nat × Bool)
  | g :: gs, _ :: rest, c => do
    let (d, c) := borrowingSub w g 0 c
    let (done, rest, c) ← subPropIn w gs rest c
    return (d :: done, rest, c)
  | _ :: _, [], _ => .panic
  | [], rest, c => return ([], rest, c)

/-- `/repo/src/bigint/sub.rs:32-80` `sub_digits`. -/
def subDigitsIn (m : Build) (w : Nat) (a b : List Nat) (result : List Nat) : Out ε (List Nat × Nat) := do
  dassert m (isValid a)
  dassert m (isValid b)
  dassert m (decide (max a.length b.length ≤ result.length))
  let result := fill0 result
  let ord ← cmpDigits m a b
  match ord with
  | .eq => return (result, 1)
  | .lt => .panic
  | .gt =>
    let greaterLen ← lenDigitsM a
    let smallerLen ← lenDigitsM b
    let (done, rest, borrow) ← subZipIn w b a result false
    if borrow then
      let (done2, rest, _) ← subPropIn w (a.drop smallerLen) rest borrow
      let result := done ++ done2 ++ rest
      let len ← lenDigitsM result
      return (result, len)
    else
      let result ← copyAt (done ++ rest) smallerLen greaterLen (a.drop smallerLen)
      let len ← lenDigitsM result
      return (result, len)

/-! ## Multiplication -/

/-- `/repo/src/bigint/mul.rs:25-90` `mul_digits`; the rows (`mulRows`) work in place already. -/
def mulDigitsIn (m : Build) (w : Nat) (a b : List Nat) (result : List Nat) : Out ε (List Nat × Nat) := do
  dassert m (isValid a)
  dassert m (isValid b)
  dassert m (decide (a.length + b.length ≤ result.length))
  let result := fill0 result
  let za ← isZeroDigits m a
  let zb ← if za then pure false else isZeroDigits m b
  if za || zb then return (result, 1)
  else
    let ord ← cmpDigits m a b
    let (greater, smaller) := if ord == .lt then (b, a) else (a, b)
    let result ← mulRows m w greater smaller result
    let len ← lenDigitsM result
    return (result, len)

/-! ## Division -/

/-- `/repo/src/bigint/divrem.rs:73-82`: the digits of the dividend and the places of the quotient, both from the most significant one; the `zip`
ends with the shorter of them. -/
def divSmallIn (w d : Nat) : List Nat → List Nat → Nat → List Nat × Nat
  | x :: xs, _ :: places, r =>
    let t := shlDD w r ||| x
    let (places, r) := divSmallIn w d xs places (t % d)
    (t / d % 2 ^ w :: places, r)
  | _, places, r => (places, r)

/-- `/repo/src/bigint/divrem.rs:194-356`: the steps of Algorithm D at the windows that start at `j`, `j - 1`, .., `0`; `places` are the places of the
quotient that `quotient_iter` has yet to visit, from the most significant one.  Returns the dividend storage and the new contents of the places. -/
def divLoopIn (m : Build) (w : Nat) (divisor : List Nat) (d d0 d1 : Nat) : Nat → List Nat → List Nat → Out ε (List Nat × List Nat)
  | _, _, [] => .panic
  | 0, st, _ :: places => do
    let (st, q) ← divAt m w divisor d d0 d1 0 st
    return (st, q :: places)
  | j + 1, st, _ :: places => do
    let (st, q) ← divAt m w divisor d d0 d1 (j + 1) st
    let (st, places) ← divLoopIn m w divisor d d0 d1 j st places
    return (st, q :: places)

/-- `/repo/src/bigint/divrem.rs:30-362` `div_rem_digits`; returns the new contents of `quotient` and `remainder`, and the lengths. -/
def divRemDigitsIn (m : Build) (w : Nat) (dividend divisor quotient remainder : List Nat) :
    Out ε ((List Nat × Nat) × (List Nat × Nat)) := do
  dassert m (isValid dividend)
  dassert m (isValid divisor)
  dassert m (decide (dividend.length ≤ quotient.length))
  dassert m (decide (divisor.length ≤ remainder.length))
  let quotient := fill0 quotient
  let remainder := fill0 remainder
  let z ← isZeroDigits m divisor
  rassert (!z)
  let z ← isZeroDigits m dividend
  if z then return ((quotient, 1), (remainder, 1))
  else
    let ord ← cmpDigits m dividend divisor
    match ord with
    | .eq => do
      let quotient ← storeAt quotient 0 1
      return ((quotient, 1), (remainder, 1))
    | .lt => do
      let remainder ← copyAt remainder 0 dividend.length dividend
      return ((quotient, 1), (remainder, dividend.length))
    | .gt =>
      match divisor with
      | [d] => do
        rassert (decide (dividend.length ≤ quotient.length))
        let (places, r) := divSmallIn w d dividend.reverse (quotient.take dividend.length).reverse 0
        let quotient := places.reverse ++ quotient.drop dividend.length
        let remainder ← storeAt remainder 0 (r % 2 ^ w)
        let qlen ← lenDigitsM quotient
        return ((quotient, qlen), (remainder, 1))
      | _ => do
        let top := divisor.reverse
        let y0 ← unwrap top[0]?
        let y1 ← unwrap top[1]?
        let y2 := top.getD 2 0
        let d := leadingZeros w y0
        let d0 := normDigit w d y0 y1
        let d1 := normDigit w d y1 y2
        let st := dividend ++ [0, 0]
        rassert (decide (divisor.length ≤ dividend.length))
        let k := dividend.length - divisor.length + 1
        rassert (decide (k ≤ quotient.length))
        rassert (decide (divisor.length + 2 ≤ st.length))
        let (st, places) ← divLoopIn m w divisor d d0 d1 (dividend.length - divisor.length) st (quotient.take k).reverse
        let quotient := places.reverse ++ quotient.drop k
        rassert (decide (remainder.length ≤ st.length))
        let remainder := st.take remainder.length
        let qlen ← lenDigitsM quotient
        let rlen ← lenDigitsM remainder
        return ((quotient, qlen), (remainder, rlen))

/-! ## Greatest common divisor -/

/-- The scratch memory of `gcd_digits`, `/repo/src/bigint/gcd.rs:89-111`, in the order of the declarations. -/
structure Scratch where
  x1 : List Nat
  y2 : List Nat
  t1 : List Nat
  t2 : List Nat
  q : List Nat
  qm : List Nat
  qt : List Nat
  rem : List Nat

/-- `dst.fill(0); dst[..len].copy_from_slice(&src[..len])`. -/
def copyFrom (dst src : List Nat) (len : Nat) : Out ε (List Nat) := do
  let s ← sliceTo src len
  copyAt (fill0 dst) 0 len s

/-- `/repo/src/bigint/gcd.rs:592-609` `x_mul_digits1_sub_y_mul_digits2_unsigned`: the new contents of `x_mul_digits1`, `y_mul_digits2` and `result`, and
the length. -/
def mulSubUnsignedIn (m : Build) (w x : Nat) (d1 : List Nat) (y : Nat) (d2 x1 y2 result : List Nat) :
    Out ε (List Nat × List Nat × List Nat × Nat) := do
  let (x1, l1) ← mulDigitsIn m w [x] d1 x1
  let (y2, l2) ← mulDigitsIn m w [y] d2 y2
  let s1 ← sliceTo x1 l1
  let s2 ← sliceTo y2 l2
  let (result, len) ← subDigitsIn m w s1 s2 result
  return (x1, y2, result, len)

/-- The common tail of `/repo/src/bigint/gcd.rs:633-653` and `684-704`. -/
def signedSubIn (m : Build) (w : Nat) (s1 : List Nat) (g1 : Sign) (s2 : List Nat) (g2 : Sign) (result : List Nat) :
    Out ε (List Nat × Nat × Sign) := do
  if g1 ≠ g2 then
    let (result, len) ← addDigitsIn m w s1 s2 result
    return (result, len, g1)
  else
    match ← cmpDigits m s1 s2 with
    | .lt =>
      let (result, len) ← subDigitsIn m w s2 s1 result
      return (result, len, g1.neg)
    | .eq => return (fill0 result, 1, .positive)
    | .gt =>
      let (result, len) ← subDigitsIn m w s1 s2 result
      return (result, len, g1)

/-- `/repo/src/bigint/gcd.rs:617-654` `x_mul_digits1_sub_y_mul_digits2_signed`. -/
def mulSubSignedIn (m : Build) (w x : Nat) (d1 : List Nat) (g1 : Sign) (y : Nat) (d2 : List Nat) (g2 : Sign) (x1 y2 result : List Nat) :
    Out ε (List Nat × List Nat × List Nat × Nat × Sign) := do
  let (x1, l1) ← mulDigitsIn m w [x] d1 x1
  let (y2, l2) ← mulDigitsIn m w [y] d2 y2
  let s1 ← sliceTo x1 l1
  let s2 ← sliceTo y2 l2
  let (result, len, g) ← signedSubIn m w s1 g1 s2 g2 result
  return (x1, y2, result, len, g)

/-- `/repo/src/bigint/gcd.rs:317-359` and `366-408` `iterate_dpcc_a_and_b_{odd,even}`. -/
def dpccABIn (m : Build) (w : Nat) (d : Dpcc) (s : GcdSt) (z : Scratch) : Out ε (GcdSt × Scratch) := do
  let a ← sliceTo s.a s.aLen
  let b ← sliceTo s.b s.bLen
  let (x1, y2, t1, l1) ←
    if d.odd then mulSubUnsignedIn m w d.v0 b d.u0 a z.x1 z.y2 z.t1 else mulSubUnsignedIn m w d.u0 a d.v0 b z.x1 z.y2 z.t1
  let (x1, y2, t2, l2) ←
    if d.odd then mulSubUnsignedIn m w d.u1 a d.v1 b x1 y2 z.t2 else mulSubUnsignedIn m w d.v1 b d.u1 a x1 y2 z.t2
  let a' ← copyFrom s.a t1 l1
  let b' ← copyFrom s.b t2 l2
  return ({ s with a := a', aLen := l1, b := b', bLen := l2 }, { z with x1 := x1, y2 := y2, t1 := t1, t2 := t2 })

/-- `/repo/src/bigint/gcd.rs:415-464` and `471-521` `iterate_dpcc_ua_and_ub_{odd,even}`. -/
def dpccUIn (m : Build) (w : Nat) (d : Dpcc) (s : GcdSt) (z : Scratch) : Out ε (GcdSt × Scratch) := do
  let ua ← sliceTo s.ua s.uaLen
  let ub ← sliceTo s.ub s.ubLen
  let (x1, y2, t1, l1, g1) ←
    if d.odd then mulSubSignedIn m w d.v0 ub s.ubSign d.u0 ua s.uaSign z.x1 z.y2 z.t1
    else mulSubSignedIn m w d.u0 ua s.uaSign d.v0 ub s.ubSign z.x1 z.y2 z.t1
  let (x1, y2, t2, l2, g2) ←
    if d.odd then mulSubSignedIn m w d.u1 ua s.uaSign d.v1 ub s.ubSign x1 y2 z.t2
    else mulSubSignedIn m w d.v1 ub s.ubSign d.u1 ua s.uaSign x1 y2 z.t2
  let ua' ← copyFrom s.ua t1 l1
  let ub' ← copyFrom s.ub t2 l2
  return ({ s with ua := ua', uaLen := l1, uaSign := g1, ub := ub', ubLen := l2, ubSign := g2 },
    { z with x1 := x1, y2 := y2, t1 := t1, t2 := t2 })

/-- `/repo/src/bigint/gcd.rs:528-588` `iterate_euclid_extended` with `a_sub_q_mul_b` (659-668) and `ua_sub_q_mul_ub` (673-705).  The remainder is
written to the first `b_len` places of its buffer. -/
def euclidStepIn (m : Build) (w : Nat) (s : GcdSt) (z : Scratch) : Out ε (GcdSt × Scratch) := do
  let a ← sliceTo s.a s.aLen
  let b ← sliceTo s.b s.bLen
  let r ← sliceTo z.rem s.bLen
  let ((qBuf, qLen), (r, _)) ← divRemDigitsIn m w a b z.q r
  let rem := r ++ z.rem.drop s.bLen
  let q ← sliceTo qBuf qLen
  let (qm, pLen) ← mulDigitsIn m w q b z.qm
  let p ← sliceTo qm pLen
  let (qt, tLen) ← subDigitsIn m w a p z.qt
  let a' ← copyFrom s.a s.b s.bLen
  let b' ← copyFrom s.b qt tLen
  let ua ← sliceTo s.ua s.uaLen
  let ub ← sliceTo s.ub s.ubLen
  let (qm, pLen) ← mulDigitsIn m w q ub qm
  let p ← sliceTo qm pLen
  let (qt, tLen', g') ← signedSubIn m w ua s.uaSign p s.ubSign qt
  let ua' ← copyFrom s.ua s.ub s.ubLen
  let ub' ← copyFrom s.ub qt tLen'
  return (⟨a', s.bLen, b', tLen, ua', s.ubLen, s.ubSign, ub', tLen', g'⟩, { z with q := qBuf, qm := qm, qt := qt, rem := rem })

/-- `/repo/src/bigint/gcd.rs:125-304`: the body of the outer loop. -/
def gcdBodyIn (m : Build) (w fuel : Nat) (s : GcdSt) (z : Scratch) : Out ε (GcdSt × Scratch) := do
  if 1 < s.bLen then
    let d ← dpccInit w s
    let d ← dpccLoop m w fuel d
    if d.v0 = 0 then euclidStepIn m w s z
    else
      let (s, z) ← dpccABIn m w d s z
      dpccUIn m w d s z
  else euclidStepIn m w s z

/-- `/repo/src/bigint/gcd.rs:122-305`: the outer loop. -/
def gcdLoopIn (m : Build) (w inner : Nat) : Nat → GcdSt → Scratch → Out ε GcdSt
  | 0, _, _ => .hang
  | fuel + 1, s, z => do
    let b ← sliceTo s.b s.bLen
    let zero ← isZeroDigits m b
    if zero then return s
    else
      let (s, z) ← gcdBodyIn m w inner s z
      gcdLoopIn m w inner fuel s z

/-- `/repo/src/bigint/bigint_vec.rs:14-17` `digitvec_with_len`: a new array of zeros. -/
def freshBuf (n : Nat) : List Nat := List.replicate n 0

/-- `/repo/src/bigint/gcd.rs:89-111`: the scratch memory that `gcd_digits` allocates, for `a` and `b` of `n` and `nb` digits. -/
def Scratch.fresh (n nb : Nat) : Scratch :=
  ⟨freshBuf (n + 1), freshBuf (n + 1), freshBuf (n + 1), freshBuf (n + 1), freshBuf n, freshBuf (n * 2), freshBuf (n * 2), freshBuf nb⟩

/-- `/repo/src/bigint/gcd.rs:41-310` `gcd_digits`, with the scratch memory as an argument. -/
def gcdDigitsIn (m : Build) (w fuel : Nat) (a b : List Nat) (z : Scratch) : Out ε ((List Nat × Nat × Sign) × (List Nat × Nat)) := do
  let ord ← cmpDigits m a b
  rassert (ord == .gt)
  let zero ← isZeroDigits m b
  rassert (!zero)
  let n := a.length
  let ub ← storeAt (freshBuf n) 0 1
  let s ← gcdLoopIn m w fuel fuel
    ⟨a, n, b, b.length, freshBuf n, 1, .positive, ub, 1, .positive⟩ z
  return ((s.ua, s.uaLen, s.uaSign), (s.a, s.aLen))

end LCT.BigInt
