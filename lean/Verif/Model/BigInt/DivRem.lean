import Verif.Model.BigInt.BigInt

/-!
# Big integers: division

Models `/repo/src/bigint/divrem.rs` (Knuth's Algorithm D) digit by digit.
-/

namespace LCT.BigInt
variable {ε : Type}

/-- `x << Digit::BITS` on a `DoubleDigit`: bits shifted out are lost. -/
def shlDD (w x : Nat) : Nat := (x <<< w) % 2 ^ (2 * w)

/-- `/repo/src/bigint/divrem.rs:70-82`: division by a single digit.  The list holds the dividend's digits from the most
significant one; returns the quotient digits from the most significant one, and the last remainder. -/
def divSmall (w d : Nat) : List Nat → Nat → List Nat × Nat
  | [], r => ([], r)
  | x :: xs, r =>
    let t := shlDD w r ||| x
    let (qs, r) := divSmall w d xs (t % d)
    (t / d % 2 ^ w :: qs, r)

/-- `/repo/src/bigint/divrem.rs:126-170` (divisor) and `206-227` (window): `hi << d | lo >> next_d` when `d > 0`, and `hi` when
`d = 0`.  Where the code finds no further digit (`lo` absent) it computes `hi << d`; the model then passes `lo = 0`. -/
def normDigit (w d hi lo : Nat) : Nat :=
  if d = 0 then hi else shlDigit w hi d ||| (lo >>> (w - d))

/-- `/repo/src/bigint/divrem.rs:251-335`: the estimate of the next quotient digit from the three leading normalised digits
`n0 n1 n2` of the window and the two leading normalised digits `d0 d1` of the divisor. -/
def qHat (m : Build) (w n0 n1 n2 d0 d1 : Nat) : Out ε Nat := do
  let (q, r?) ←
    if n0 = d0 then do
      let r ← addDD m w n1 d0
      if r ≤ 2 ^ w - 1 then pure (2 ^ w - 1, some r) else pure (2 ^ w - 1, none)
    else
      let t := shlDD w n0 ||| n1
      if d0 = 0 then .panic else pure (t / d0, some (t % d0))
  match r? with
  | none => return q % 2 ^ w
  | some r => do
    let lhs ← mulDD m w q d1
    dassert m (decide (r ≤ 2 ^ w - 1))
    let rhs ← addDD m w (shlDD w r) n2
    if rhs < lhs then do
      let q ← subU m (2 ^ (2 * w)) q 1
      let s ← addDD m w r d0
      if s ≤ 2 ^ w - 1 then do
        let lhs ← subU m (2 ^ (2 * w)) lhs d1
        let rhs ← addDD m w rhs (shlDD w d0)
        if rhs < lhs then do
          let q ← subU m (2 ^ (2 * w)) q 1
          return q % 2 ^ w
        else return q % 2 ^ w
      else return q % 2 ^ w
    else return q % 2 ^ w

/-- `/repo/src/bigint/divrem.rs:459-474`: the loop of `sub_mul_digits` and its two final digits. -/
def subMulLoop (m : Build) (w c : Nat) : List Nat → List Nat → Nat → Bool → Out ε (List Nat)
  | a :: as, b :: bs, carry, borrow => do
    let p ← mulDD m w b c
    let t ← addDD m w p carry
    let (x, borrow) := borrowingSub w a (t % 2 ^ w) borrow
    let rest ← subMulLoop m w c as bs (t / 2 ^ w) borrow
    return x :: rest
  | a :: a' :: as, [], carry, borrow => do
    let (x, borrow) := borrowingSub w a (carry % 2 ^ w) borrow
    let (y, _) := borrowingSub w a' 0 borrow
    return x :: y :: as
  | _, _, _, _ => .panic

/-- `/repo/src/bigint/divrem.rs:452-475` `sub_mul_digits`: `a -= b * c`. -/
def subMulDigits (m : Build) (w : Nat) (a b : List Nat) (c : Nat) : Out ε (List Nat) := do
  dassert m (a.length == b.length + 2)
  subMulLoop m w c a b 0 false

/-- `/repo/src/bigint/divrem.rs:482-496`: the loop of `assign_add_digits` and its two final digits. -/
def assignAddLoop (w : Nat) : List Nat → List Nat → Bool → Out ε (List Nat)
  | a :: as, b :: bs, carry => do
    let (x, carry) := carryingAdd w a b carry
    let rest ← assignAddLoop w as bs carry
    return x :: rest
  | a :: a' :: as, [], carry => do
    let (x, carry) := carryingAdd w a 0 carry
    let (y, _) := carryingAdd w a' 0 carry
    return x :: y :: as
  | _, _, _ => .panic

/-- `/repo/src/bigint/divrem.rs:479-497` `assign_add_digits`: `a += b`. -/
def assignAddDigits (m : Build) (w : Nat) (a b : List Nat) : Out ε (List Nat) := do
  dassert m (a.length == b.length + 2)
  assignAddLoop w a b false

/-- `*slice.last_mut().unwrap() = x`. -/
def setLast (ds : List Nat) (x : Nat) : Out ε (List Nat) :=
  if ds.isEmpty then .panic else .ok (ds.dropLast ++ [x])

/-- `/repo/src/bigint/divrem.rs:197-355`: one step of Algorithm D on the current window of the dividend.  `d` is the normalising
shift, `d0 d1` are the leading normalised digits of the divisor.  Returns the new contents of the window and the quotient digit. -/
def divStep (m : Build) (w : Nat) (divisor : List Nat) (d d0 d1 : Nat) (win : List Nat) : Out ε (List Nat × Nat) := do
  let it := win.reverse.drop 1
  let x0 ← unwrap it[0]?
  let x1 ← unwrap it[1]?
  let x2 ← unwrap it[2]?
  let x3 := it.getD 3 0
  let q ← qHat m w (normDigit w d x0 x1) (normDigit w d x1 x2) (normDigit w d x2 x3) d0 d1
  let win ← setLast win 1
  let win ← subMulDigits m w win divisor q
  if win.getLast? = some 0 then do
    let q ← subU m (2 ^ w) q 1
    let win ← assignAddDigits m w win divisor
    let win ← setLast win 0
    return (win, q)
  else do
    let win ← setLast win 0
    return (win, q)

/-- `/repo/src/tools/slice.rs:25`: one step of Algorithm D on the window of the dividend storage `st` that starts at `j`. -/
def divAt (m : Build) (w : Nat) (divisor : List Nat) (d d0 d1 j : Nat) (st : List Nat) : Out ε (List Nat × Nat) := do
  let (win, q) ← divStep m w divisor d d0 d1 ((st.drop j).take (divisor.length + 2))
  return (st.take j ++ win ++ st.drop (j + (divisor.length + 2)), q)

/-- `/repo/src/bigint/divrem.rs:194-356` with `/repo/src/tools/slice.rs:12-32` `rwindows_mut_each`: the steps at the windows that
start at `j`, `j - 1`, .., `0` of the dividend storage `st`; `qs` are the quotient digits found so far, least significant first. -/
def divLoop (m : Build) (w : Nat) (divisor : List Nat) (d d0 d1 : Nat) : Nat → List Nat → List Nat → Out ε (List Nat × List Nat)
  | 0, st, qs => do
    let (st, q) ← divAt m w divisor d d0 d1 0 st
    return (st, q :: qs)
  | j + 1, st, qs => do
    let (st, q) ← divAt m w divisor d d0 d1 (j + 1) st
    divLoop m w divisor d d0 d1 j st (q :: qs)

/-- `/repo/src/bigint/divrem.rs:112-361`: division by a divisor of at least two digits that is smaller than the dividend, with a
quotient buffer of length `nq` and a remainder buffer of length `nr`. -/
def divKnuth (m : Build) (w : Nat) (dividend divisor : List Nat) (nq nr : Nat) :
    Out ε ((List Nat × Nat) × (List Nat × Nat)) := do
  let top := divisor.reverse
  let y0 ← unwrap top[0]?
  let y1 ← unwrap top[1]?
  let y2 := top.getD 2 0
  let d := leadingZeros w y0
  let d0 := normDigit w d y0 y1
  let d1 := normDigit w d y1 y2
  let st := dividend ++ [0, 0]
  rassert (decide (divisor.length ≤ dividend.length))
  rassert (decide (divisor.length + 2 ≤ st.length))
  let (st, qs) ← divLoop m w divisor d d0 d1 (dividend.length - divisor.length) st []
  let quotient ← writeBuf nq qs
  rassert (decide (nr ≤ st.length))
  let remainder := st.take nr
  let qlen ← lenDigitsM quotient
  let rlen ← lenDigitsM remainder
  return ((quotient, qlen), (remainder, rlen))

/-- `/repo/src/bigint/divrem.rs:30-362` `div_rem_digits` with a quotient buffer of length `nq` and a remainder buffer of length
`nr`; returns the contents and the length of both. -/
def divRemDigits (m : Build) (w : Nat) (dividend divisor : List Nat) (nq nr : Nat) :
    Out ε ((List Nat × Nat) × (List Nat × Nat)) := do
  dassert m (isValid dividend)
  dassert m (isValid divisor)
  dassert m (decide (dividend.length ≤ nq))
  dassert m (decide (divisor.length ≤ nr))
  let z ← isZeroDigits m divisor
  rassert (!z)
  let z ← isZeroDigits m dividend
  if z then return ((List.replicate nq 0, 1), (List.replicate nr 0, 1))
  else
    let ord ← cmpDigits m dividend divisor
    match ord with
    | .eq => do
      let q ← writeBuf nq [1]
      return ((q, 1), (List.replicate nr 0, 1))
    | .lt => do
      let r ← writeBuf nr dividend
      return ((List.replicate nq 0, 1), (r, dividend.length))
    | .gt =>
      match divisor with
      | [d] => do
        let (qs, r) := divSmall w d dividend.reverse 0
        let q ← writeBuf nq qs.reverse
        let rem ← writeBuf nr [r % 2 ^ w]
        let qlen ← lenDigitsM q
        return ((q, qlen), (rem, 1))
      | _ => divKnuth m w dividend divisor nq nr

/-- `/repo/src/bigint/divrem.rs:366-382` `div_rem`. -/
def BInt.divRem (m : Build) (w : Nat) (a b : BInt) : Out ε (BInt × BInt) := do
  let x ← a.asDigits m
  let y ← b.asDigits m
  let ((q, qlen), (r, rlen)) ← divRemDigits m w x y x.length y.length
  return (⟨q, qlen, if a.sign = b.sign then .positive else .negative⟩, ⟨r, rlen, a.sign⟩)

/-- `/repo/src/bigint/divrem.rs:384-415` `Div` for all four combinations of owned and borrowed operands. -/
def BInt.div (m : Build) (w : Nat) (a b : BInt) : Out ε BInt := do
  let (q, _) ← BInt.divRem m w a b
  return q

/-- `/repo/src/bigint/divrem.rs:417-448` `Rem` for all four combinations of owned and borrowed operands. -/
def BInt.rem (m : Build) (w : Nat) (a b : BInt) : Out ε BInt := do
  let (_, r) ← BInt.divRem m w a b
  return r

end LCT.BigInt
