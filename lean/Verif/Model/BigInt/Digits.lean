import Verif.Basic

/-!
# Big integers: operations on digit slices

Models `/repo/src/bigint/{digit,len,zero,bits,cmp,helper_methods,add,sub,mul,shift}.rs` at the level of digit slices.

Conventions.  `w` is `Digit::BITS` (64, or 8 under `cfg(u8_digit)`, `/repo/src/bigint/digit.rs:17-25`); every theorem about these
functions is proved for all `w ≥ 1` (or `w ≥ 2`).  A digit is a natural number below `2^w`, a `DoubleDigit` one below `2^(2w)`.
A slice is the list of its digits, least significant first.  A `&mut [Digit]` output buffer is represented by its length `n`, since
every function that takes one overwrites it completely; the functions return the new contents of the buffer.  All panics
(`assert!`, `panic!`, slice bounds, `unwrap`) are outcomes; `debug_assert!` and arithmetic overflow depend on the build `m`.
-/

namespace LCT.BigInt
variable {ε : Type}

/-! ## Machine arithmetic -/

/-- `a + b` on `DoubleDigit`: overflow panics in debug builds and wraps in release builds. -/
def addDD (m : Build) (w a b : Nat) : Out ε Nat :=
  if a + b < 2 ^ (2 * w) then .ok (a + b)
  else match m with
    | .debug => .panic
    | .release => .ok ((a + b) % 2 ^ (2 * w))

/-- `a * b` on `DoubleDigit`. -/
def mulDD (m : Build) (w a b : Nat) : Out ε Nat :=
  if a * b < 2 ^ (2 * w) then .ok (a * b)
  else match m with
    | .debug => .panic
    | .release => .ok ((a * b) % 2 ^ (2 * w))

/-- `a - b` on an unsigned type with values below `q`. -/
def subU (m : Build) (q a b : Nat) : Out ε Nat :=
  if b ≤ a then .ok (a - b)
  else match m with
    | .debug => .panic
    | .release => .ok ((a + q - b) % q)

/-- `d << s` on a digit, `s < Digit::BITS`: bits shifted out are lost. -/
def shlDigit (w d s : Nat) : Nat := (d <<< s) % 2 ^ w

/-- Number of bits of a digit. -/
def digitBits (d : Nat) : Nat := if d = 0 then 0 else Nat.log2 d + 1

/-- `Digit::leading_zeros` (standard library). -/
def leadingZeros (w d : Nat) : Nat := w - digitBits d

/-- `/repo/src/bigint/helper_methods.rs:25-29` `carrying_add`. -/
def carryingAdd (w lhs rhs : Nat) (carry : Bool) : Nat × Bool :=
  let a := (lhs + rhs) % 2 ^ w
  let b := decide (2 ^ w ≤ lhs + rhs)
  let c := (a + carry.toNat) % 2 ^ w
  let d := decide (2 ^ w ≤ a + carry.toNat)
  (c, b || d)

/-- `/repo/src/bigint/helper_methods.rs:41-45` `borrowing_sub`. -/
def borrowingSub (w lhs rhs : Nat) (borrow : Bool) : Nat × Bool :=
  let a := (lhs + 2 ^ w - rhs) % 2 ^ w
  let b := decide (lhs < rhs)
  let c := (a + 2 ^ w - borrow.toNat) % 2 ^ w
  let d := decide (a < borrow.toNat)
  (c, b || d)

/-! ## Length, validity, zero, comparison -/

/-- `/repo/src/bigint/len.rs:13-22` `len_digits` of a non-empty slice: index of the last non-zero digit plus one, else 1. -/
def lenDigits (ds : List Nat) : Nat := max 1 (ds.reverse.dropWhile (· == 0)).length

/-- `/repo/src/bigint/len.rs:12-22` `len_digits` with its `assert!`. -/
def lenDigitsM (ds : List Nat) : Out ε Nat := do
  rassert (!ds.isEmpty)
  return lenDigits ds

/-- `/repo/src/bigint/bigint_slice.rs:20-22` `is_valid_biguint_slice`. -/
def isValid (ds : List Nat) : Bool := !ds.isEmpty && (lenDigits ds == ds.length)

/-- `/repo/src/bigint/zero.rs:11-15` `is_zero_digits`. -/
def isZeroDigits (m : Build) (ds : List Nat) : Out ε Bool := do
  dassert m (isValid ds)
  return ds.length == 1 && ds.headD 0 == 0

/-- `Iterator::cmp` (standard library): lexicographic comparison. -/
def cmpLex : List Nat → List Nat → Ordering
  | [], [] => .eq
  | [], _ :: _ => .lt
  | _ :: _, [] => .gt
  | a :: as, b :: bs => (compare a b).then (cmpLex as bs)

/-- `/repo/src/bigint/cmp.rs:22-33` `cmp_digits`. -/
def cmpDigits (m : Build) (a b : List Nat) : Out ε Ordering := do
  dassert m (isValid a)
  dassert m (isValid b)
  match compare a.length b.length with
  | .gt => return .gt
  | .lt => return .lt
  | .eq => return cmpLex a.reverse b.reverse

/-- `/repo/src/bigint/cmp.rs:14-19` `eq_digits`. -/
def eqDigits (m : Build) (a b : List Nat) : Out ε Bool := do
  dassert m (isValid a)
  dassert m (isValid b)
  return a == b

/-- `/repo/src/bigint/bits.rs:12-21` `bit_len_digits`.  The slice is non-empty at every call site. -/
def bitLenDigits (m : Build) (w : Nat) (a : List Nat) : Out ε Nat := do
  dassert m (isValid a)
  let z ← isZeroDigits m a
  if z then return 0
  else return a.length * w - leadingZeros w (a.getLastD 0)

/-- Contents of a zero-filled output buffer of length `n` after `out` was written to it from the start, one digit after the other
(`result.fill(0)`, then `*result_iter_mut.next().unwrap() = ..`, which panics when the buffer is too short). -/
def writeBuf (n : Nat) (out : List Nat) : Out ε (List Nat) :=
  if out.length ≤ n then .ok (out ++ List.replicate (n - out.length) 0) else .panic

/-! ## Addition -/

/-- `/repo/src/bigint/add.rs:52-55`: digits of the common part, and the carry. -/
def addZip (w : Nat) : List Nat → List Nat → Bool → List Nat × Bool
  | s :: ss, g :: gs, c =>
    let (d, c) := carryingAdd w g s c
    let (ds, c) := addZip w ss gs c
    (d :: ds, c)
  | _, _, c => ([], c)

/-- `/repo/src/bigint/add.rs:61-63`: propagation of the carry. -/
def addProp (w : Nat) : List Nat → Bool → List Nat × Bool
  | g :: gs, c =>
    let (d, c) := carryingAdd w g 0 c
    let (ds, c) := addProp w gs c
    (d :: ds, c)
  | [], c => ([], c)

/-- `/repo/src/bigint/add.rs:26-75` `add_digits` with an output buffer of length `n`; returns the contents of the buffer and the
length of the result. -/
def addDigits (m : Build) (w : Nat) (a b : List Nat) (n : Nat) : Out ε (List Nat × Nat) := do
  dassert m (isValid a)
  dassert m (isValid b)
  dassert m (decide (max a.length b.length + 1 ≤ n))
  let ord ← cmpDigits m a b
  let (greater, smaller) := if ord == .lt then (b, a) else (a, b)
  let (out, carry) := addZip w smaller greater false
  if carry then
    let (out2, carry) := addProp w (greater.drop smaller.length) carry
    if carry then
      let buf ← writeBuf n (out ++ out2 ++ [1])
      return (buf, greater.length + 1)
    else
      let buf ← writeBuf n (out ++ out2)
      return (buf, greater.length)
  else
    let buf ← writeBuf n (out ++ greater.drop smaller.length)
    return (buf, greater.length)

/-! ## Subtraction -/

/-- `/repo/src/bigint/sub.rs:61-64`. -/
def subZip (w : Nat) : List Nat → List Nat → Bool → List Nat × Bool
  | s :: ss, g :: gs, c =>
    let (d, c) := borrowingSub w g s c
    let (ds, c) := subZip w ss gs c
    (d :: ds, c)
  | _, _, c => ([], c)

/-- `/repo/src/bigint/sub.rs:70-72`. -/
def subProp (w : Nat) : List Nat → Bool → List Nat × Bool
  | g :: gs, c =>
    let (d, c) := borrowingSub w g 0 c
    let (ds, c) := subProp w gs c
    (d :: ds, c)
  | [], c => ([], c)

/-- `/repo/src/bigint/sub.rs:32-80` `sub_digits`.  In the branch without borrow (l.75-76) `copy_from_slice` panics when the lengths
differ, which needs an operand with leading zeros. -/
def subDigits (m : Build) (w : Nat) (a b : List Nat) (n : Nat) : Out ε (List Nat × Nat) := do
  dassert m (isValid a)
  dassert m (isValid b)
  dassert m (decide (max a.length b.length ≤ n))
  let ord ← cmpDigits m a b
  match ord with
  | .eq => return (List.replicate n 0, 1)
  | .lt => .panic
  | .gt =>
    let greaterLen ← lenDigitsM a
    let smallerLen ← lenDigitsM b
    let (out, borrow) := subZip w b a false
    if borrow then
      let (out2, _) := subProp w (a.drop smallerLen) borrow
      let buf ← writeBuf n (out ++ out2)
      let len ← lenDigitsM buf
      return (buf, len)
    else
      rassert (decide (a.length = greaterLen))
      let buf ← writeBuf n (out.take smallerLen ++ a.drop smallerLen)
      let len ← lenDigitsM buf
      return (buf, len)

/-! ## Multiplication -/

/-- `/repo/src/bigint/mul.rs:65-82`: one row of the long multiplication, on the part of the output window that is zipped with
`greater`; the rest of the window is returned unchanged. -/
def mulRow (m : Build) (w s : Nat) : List Nat → List Nat → Nat → Out ε (List Nat × Nat)
  | g :: gs, r :: rs, carry => do
    let p ← mulDD m w s g
    let t ← addDD m w p r
    let t ← addDD m w t carry
    let (rs, carry) ← mulRow m w s gs rs (t / 2 ^ w)
    return (t % 2 ^ w :: rs, carry)
  | _, rs, carry => return (rs, carry)

/-- `/repo/src/bigint/mul.rs:60-87`: the rows; `res` is the output buffer from the current window offset on. -/
def mulRows (m : Build) (w : Nat) (greater : List Nat) : List Nat → List Nat → Out ε (List Nat)
  | [], res => return res
  | s :: ss, res => do
    rassert (decide (greater.length + 1 ≤ res.length))
    let (win, carry) ← mulRow m w s greater (res.take (greater.length + 1)) 0
    let win := if carry > 0 then win.dropLast ++ [carry % 2 ^ w] else win
    match win ++ res.drop (greater.length + 1) with
    | [] => .panic
    | r :: rest => do
      let rest ← mulRows m w greater ss rest
      return r :: rest

/-- `/repo/src/bigint/mul.rs:25-90` `mul_digits`. -/
def mulDigits (m : Build) (w : Nat) (a b : List Nat) (n : Nat) : Out ε (List Nat × Nat) := do
  dassert m (isValid a)
  dassert m (isValid b)
  dassert m (decide (a.length + b.length ≤ n))
  let za ← isZeroDigits m a
  let zb ← if za then pure false else isZeroDigits m b
  if za || zb then return (List.replicate n 0, 1)
  else
    let ord ← cmpDigits m a b
    let (greater, smaller) := if ord == .lt then (b, a) else (a, b)
    let buf ← mulRows m w greater smaller (List.replicate n 0)
    let len ← lenDigitsM buf
    return (buf, len)

/-! ## Shifts -/

/-- `/repo/src/bigint/shift.rs:36-41`: the digits from the most significant one (the list is reversed) with the bits coming in from
above in `carry`. -/
def shrBits (w s : Nat) : List Nat → Nat → List Nat
  | [], _ => []
  | d :: ds, carry => ((d >>> s) ||| carry) :: shrBits w s ds (shlDigit w d (w - s))

/-- `/repo/src/bigint/shift.rs:14-46` `shift_right_digits`; `digits.len() = digits_len` at its only call site (l.50-54). -/
def shiftRightDigits (m : Build) (w : Nat) (digits : List Nat) (n : Nat) : Out ε (List Nat × Nat) := do
  let bitLen ← bitLenDigits m w digits
  if bitLen ≤ n then return (List.replicate digits.length 0, 1)
  else
    let k := n / w
    let s := n % w
    let digits := digits.drop k ++ List.replicate k 0
    let len := digits.length - k
    if 0 < s then
      let digits := (shrBits w s (digits.take len).reverse 0).reverse ++ digits.drop len
      let len ← lenDigitsM digits
      return (digits, len)
    else return (digits, len)

/-- `/repo/src/bigint/shift.rs:97-107`: the digits from the least significant one. -/
def shlBits (w s : Nat) : List Nat → Nat → List Nat
  | [], _ => []
  | d :: ds, carry => (shlDigit w d s ||| carry) :: shlBits w s ds (d >>> (w - s))

/-- `/repo/src/bigint/shift.rs:77-112` `shift_left_digits`: acts on the whole storage vector. -/
def shiftLeftDigits (w : Nat) (storage : List Nat) (len n : Nat) : Out ε (List Nat × Nat) := do
  let k := n / w
  let s := n % w
  let (storage, len) :=
    if 0 < k then
      let storage := storage ++ List.replicate (k - (storage.length - len)) 0
      let len := len + k
      -- `rotate_right(k)` of the first `len` digits
      let lo := storage.take len
      (lo.drop (len - k) ++ lo.take (len - k) ++ storage.drop len, len)
    else (storage, len)
  if 0 < s then
    let storage := if len = storage.length then storage ++ [0] else storage
    let lo := shlBits w s (storage.take (len + 1)) 0
    let len' ← lenDigitsM lo
    return (lo ++ storage.drop (len + 1), len')
  else return (storage, len)

end LCT.BigInt
