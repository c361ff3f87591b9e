import Verif.Model.BigInt.DivRem

/-!
# Big integers: extended greatest common divisor

Models `/repo/src/bigint/gcd.rs` (Lehmer's algorithm with Collins' condition, and Euclid's algorithm as fall-back).  Scratch buffers
are represented by their lengths, since every use overwrites them completely.  The two `while` loops are modelled with fuel; running
out of fuel is the outcome `hang`.
-/

namespace LCT.BigInt
variable {ε : Type}

/-- `a + b` on `Digit`. -/
def addDg (m : Build) (w a b : Nat) : Out ε Nat :=
  if a + b < 2 ^ w then .ok (a + b)
  else match m with
    | .debug => .panic
    | .release => .ok ((a + b) % 2 ^ w)

/-- `a * b` on `Digit`. -/
def mulDg (m : Build) (w a b : Nat) : Out ε Nat :=
  if a * b < 2 ^ w then .ok (a * b)
  else match m with
    | .debug => .panic
    | .release => .ok ((a * b) % 2 ^ w)

/-- `&buf[..len]`. -/
def sliceTo (buf : List Nat) (len : Nat) : Out ε (List Nat) := do
  rassert (decide (len ≤ buf.length))
  return buf.take len

/-- `dst.fill(0); dst[..len].copy_from_slice(&src[..len])` for a `dst` of length `n`. -/
def copyBuf (n : Nat) (src : List Nat) (len : Nat) : Out ε (List Nat) := do
  let s ← sliceTo src len
  writeBuf n s

/-- The variables of `gcd_digits` that live across iterations, `/repo/src/bigint/gcd.rs:70-87`. -/
structure GcdSt where
  a : List Nat
  aLen : Nat
  b : List Nat
  bLen : Nat
  ua : List Nat
  uaLen : Nat
  uaSign : Sign
  ub : List Nat
  ubLen : Nat
  ubSign : Sign
  deriving Repr, DecidableEq

/-- The single-precision variables, `/repo/src/bigint/gcd.rs:113-120, 147-160`. -/
structure Dpcc where
  x : Nat
  y : Nat
  u0 : Nat
  u1 : Nat
  u2 : Nat
  v0 : Nat
  v1 : Nat
  v2 : Nat
  odd : Bool
  deriving Repr, DecidableEq

/-- `/repo/src/bigint/gcd.rs:190-199`: the single-precision loop. -/
def dpccLoop (m : Build) (w : Nat) : Nat → Dpcc → Out ε Dpcc
  | 0, _ => .hang
  | fuel + 1, s =>
    if s.v2 ≤ s.y then do
      let d ← subU m (2 ^ w) s.x s.y
      let e ← addDg m w s.v1 s.v2
      if e ≤ d then do
        if s.y = 0 then .panic else
        let q := s.x / s.y
        let r := s.x % s.y
        let qu ← mulDg m w q s.u2
        let u ← addDg m w s.u1 qu
        let qv ← mulDg m w q s.v2
        let v ← addDg m w s.v1 qv
        dpccLoop m w fuel ⟨s.y, r, s.u1, s.u2, u, s.v1, s.v2, v, !s.odd⟩
      else return s
    else return s

/-- `msd << t | second_msd.checked_shr(Digit::BITS - t).unwrap_or(0)`, `/repo/src/bigint/gcd.rs:147,153`. -/
def hatDigit (w t msd second : Nat) : Nat :=
  shlDigit w msd t ||| (if w - t < w then second >>> (w - t) else 0)

/-- `/repo/src/bigint/gcd.rs:127-160`: the state before the single-precision loop. -/
def dpccInit (w : Nat) (s : GcdSt) : Out ε Dpcc := do
  let msd ← unwrap s.a[s.aLen - 1]?
  rassert (decide (2 ≤ s.aLen))
  let second ← unwrap s.a[s.aLen - 2]?
  let t := leadingZeros w msd
  let x := hatDigit w t msd second
  rassert (decide (s.bLen ≤ s.aLen))
  let y ←
    match s.aLen - s.bLen with
    | 0 => do
      let msd ← unwrap s.b[s.bLen - 1]?
      let second ← unwrap s.b[s.bLen - 2]?
      pure (hatDigit w t msd second)
    | 1 => do
      let msd ← unwrap s.b[s.bLen - 1]?
      pure (if w - t < w then msd >>> (w - t) else 0)
    | _ => pure 0
  return ⟨x, y, 0, 1, 0, 0, 0, 1, true⟩

/-- `/repo/src/bigint/gcd.rs:592-609` `x_mul_digits1_sub_y_mul_digits2_unsigned` with scratch buffers of length `n`. -/
def mulSubUnsigned (m : Build) (w n x : Nat) (d1 : List Nat) (y : Nat) (d2 : List Nat) : Out ε (List Nat × Nat) := do
  let (p1, l1) ← mulDigits m w [x] d1 n
  let (p2, l2) ← mulDigits m w [y] d2 n
  let s1 ← sliceTo p1 l1
  let s2 ← sliceTo p2 l2
  subDigits m w s1 s2 n

/-- The signed difference of two magnitudes with signs, written to a buffer of length `n`: the common tail of
`/repo/src/bigint/gcd.rs:633-653` and `684-704`. -/
def signedSub (m : Build) (w n : Nat) (s1 : List Nat) (g1 : Sign) (s2 : List Nat) (g2 : Sign) :
    Out ε (List Nat × Nat × Sign) := do
  if g1 ≠ g2 then
    let (buf, len) ← addDigits m w s1 s2 n
    return (buf, len, g1)
  else
    match ← cmpDigits m s1 s2 with
    | .lt =>
      let (buf, len) ← subDigits m w s2 s1 n
      return (buf, len, g1.neg)
    | .eq => return (List.replicate n 0, 1, .positive)
    | .gt =>
      let (buf, len) ← subDigits m w s1 s2 n
      return (buf, len, g1)

/-- `/repo/src/bigint/gcd.rs:617-654` `x_mul_digits1_sub_y_mul_digits2_signed` with scratch buffers of length `n`. -/
def mulSubSigned (m : Build) (w n x : Nat) (d1 : List Nat) (g1 : Sign) (y : Nat) (d2 : List Nat) (g2 : Sign) :
    Out ε (List Nat × Nat × Sign) := do
  let (p1, l1) ← mulDigits m w [x] d1 n
  let (p2, l2) ← mulDigits m w [y] d2 n
  let s1 ← sliceTo p1 l1
  let s2 ← sliceTo p2 l2
  signedSub m w n s1 g1 s2 g2

/-- `/repo/src/bigint/gcd.rs:317-359` and `366-408` `iterate_dpcc_a_and_b_{odd,even}`; `n` is the initial length of `a`. -/
def dpccAB (m : Build) (w n : Nat) (d : Dpcc) (s : GcdSt) : Out ε GcdSt := do
  let a ← sliceTo s.a s.aLen
  let b ← sliceTo s.b s.bLen
  let (t1, l1) ← if d.odd then mulSubUnsigned m w (n + 1) d.v0 b d.u0 a else mulSubUnsigned m w (n + 1) d.u0 a d.v0 b
  let (t2, l2) ← if d.odd then mulSubUnsigned m w (n + 1) d.u1 a d.v1 b else mulSubUnsigned m w (n + 1) d.v1 b d.u1 a
  let a' ← copyBuf s.a.length t1 l1
  let b' ← copyBuf s.b.length t2 l2
  return { s with a := a', aLen := l1, b := b', bLen := l2 }

/-- `/repo/src/bigint/gcd.rs:415-464` and `471-521` `iterate_dpcc_ua_and_ub_{odd,even}`. -/
def dpccU (m : Build) (w n : Nat) (d : Dpcc) (s : GcdSt) : Out ε GcdSt := do
  let ua ← sliceTo s.ua s.uaLen
  let ub ← sliceTo s.ub s.ubLen
  let (t1, l1, g1) ←
    if d.odd then mulSubSigned m w (n + 1) d.v0 ub s.ubSign d.u0 ua s.uaSign
    else mulSubSigned m w (n + 1) d.u0 ua s.uaSign d.v0 ub s.ubSign
  let (t2, l2, g2) ←
    if d.odd then mulSubSigned m w (n + 1) d.u1 ua s.uaSign d.v1 ub s.ubSign
    else mulSubSigned m w (n + 1) d.v1 ub s.ubSign d.u1 ua s.uaSign
  let ua' ← copyBuf s.ua.length t1 l1
  let ub' ← copyBuf s.ub.length t2 l2
  return { s with ua := ua', uaLen := l1, uaSign := g1, ub := ub', ubLen := l2, ubSign := g2 }

/-- `/repo/src/bigint/gcd.rs:528-588` `iterate_euclid_extended` with `a_sub_q_mul_b` (659-668) and `ua_sub_q_mul_ub` (673-705);
`n` and `nb` are the initial lengths of `a` and `b`. -/
def euclidStep (m : Build) (w n nb : Nat) (s : GcdSt) : Out ε GcdSt := do
  let a ← sliceTo s.a s.aLen
  let b ← sliceTo s.b s.bLen
  rassert (decide (s.bLen ≤ nb))
  let ((q, qLen), _) ← divRemDigits m w a b n s.bLen
  let q ← sliceTo q qLen
  let (p, pLen) ← mulDigits m w q b (n * 2)
  let p ← sliceTo p pLen
  let (t, tLen) ← subDigits m w a p (n * 2)
  let a' ← copyBuf s.a.length s.b s.bLen
  let b' ← copyBuf s.b.length t tLen
  let ua ← sliceTo s.ua s.uaLen
  let ub ← sliceTo s.ub s.ubLen
  let (p, pLen) ← mulDigits m w q ub (n * 2)
  let p ← sliceTo p pLen
  let (t', tLen', g') ← signedSub m w (n * 2) ua s.uaSign p s.ubSign
  let ua' ← copyBuf s.ua.length s.ub s.ubLen
  let ub' ← copyBuf s.ub.length t' tLen'
  return ⟨a', s.bLen, b', tLen, ua', s.ubLen, s.ubSign, ub', tLen', g'⟩

/-- `/repo/src/bigint/gcd.rs:125-304`: the body of the outer loop. -/
def gcdBody (m : Build) (w n nb fuel : Nat) (s : GcdSt) : Out ε GcdSt := do
  if 1 < s.bLen then
    let d ← dpccInit w s
    let d ← dpccLoop m w fuel d
    if d.v0 = 0 then euclidStep m w n nb s
    else
      let s ← dpccAB m w n d s
      dpccU m w n d s
  else euclidStep m w n nb s

/-- `/repo/src/bigint/gcd.rs:122-305`: the outer loop. -/
def gcdLoop (m : Build) (w n nb inner : Nat) : Nat → GcdSt → Out ε GcdSt
  | 0, _ => .hang
  | fuel + 1, s => do
    let b ← sliceTo s.b s.bLen
    let z ← isZeroDigits m b
    if z then return s
    else
      let s ← gcdBody m w n nb inner s
      gcdLoop m w n nb inner fuel s

/-- `/repo/src/bigint/gcd.rs:41-310` `gcd_digits`. -/
def gcdDigits (m : Build) (w fuel : Nat) (a b : List Nat) : Out ε ((List Nat × Nat × Sign) × (List Nat × Nat)) := do
  let ord ← cmpDigits m a b
  rassert (ord == .gt)
  let z ← isZeroDigits m b
  rassert (!z)
  let n := a.length
  let ub ← writeBuf n [1]
  let s ← gcdLoop m w n b.length fuel fuel
    ⟨a, n, b, b.length, List.replicate n 0, 1, .positive, ub, 1, .positive⟩
  return ((s.ua, s.uaLen, s.uaSign), (s.a, s.aLen))

/-- `/repo/src/bigint/gcd.rs:23-36` `gcd`: `(x, y, v)`. -/
def BInt.gcd (m : Build) (w fuel : Nat) (a b : BInt) : Out ε (BInt × BInt × BInt) := do
  rassert ((← BInt.cmp m a b) == .gt)
  let z ← BInt.zero w
  rassert ((← BInt.cmp m b z) == .gt)
  let da ← a.asDigits m
  let db ← b.asDigits m
  let ((yd, yl, ys), (vd, vl)) ← gcdDigits m w fuel da db
  let y : BInt := ⟨yd, yl, ys⟩
  let v : BInt := ⟨vd, vl, .positive⟩
  let yb ← BInt.mul m w y b
  let t ← BInt.sub m w v yb
  let x ← BInt.div m w t a
  return (x, y, v)

end LCT.BigInt
