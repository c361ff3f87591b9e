import Verif.Model.BigInt.Gcd

/-!
# Modular arithmetic

Models `/repo/src/math/modular.rs`.  `m` is the build profile and `w` the digit width in bits, as in the big integer model.  `while` and
`loop` loops are modelled by recursion on fuel; the fuel is computed from the storage size of the arguments, and running out of it is
the outcome `hang`.
-/

namespace LCT.BigInt.BInt
variable {ε : Type}

/-! `PartialOrd`'s operators `<`, `<=`, `>`, `>=` on `BigInt`: the default methods of the trait, on top of
`/repo/src/bigint/cmp.rs` `cmp`. -/

/-- `x < y` -/
def lt (m : Build) (x y : BInt) : Out ε Bool := do
  let o ← cmp m x y
  return o == .lt

/-- `x > y` -/
def gt (m : Build) (x y : BInt) : Out ε Bool := do
  let o ← cmp m x y
  return o == .gt

/-- `x <= y` -/
def le (m : Build) (x y : BInt) : Out ε Bool := do
  let o ← cmp m x y
  return o != .gt

/-- `x >= y` -/
def ge (m : Build) (x y : BInt) : Out ε Bool := do
  let o ← cmp m x y
  return o != .lt

/-- The largest number of bits that fit into the storage of `x`; used as fuel only. -/
def storageBits (w : Nat) (x : BInt) : Nat := w * x.storage.length

end LCT.BigInt.BInt

namespace LCT.Modular
open LCT.BigInt
variable {ε : Type}

/-- `debug_assert!(c)` for a condition that itself runs big integer code; the condition is evaluated in debug builds only. -/
def dassertM (m : Build) (c : Out ε Bool) : Out ε Unit :=
  match m with
  | .debug => do let b ← c; rassert b
  | .release => .ok ()

/-- `/repo/src/math/modular.rs:16-25` `modulo`. -/
def modulo (m : Build) (w : Nat) (a n : BInt) : Out ε BInt := do
  dassertM m (do let z ← BInt.zero w; BInt.gt m n z)
  let r ← BInt.rem m w a n
  let z ← BInt.zero w
  let neg ← BInt.lt m r z
  if neg then BInt.add m w r n else return r

/-- `/repo/src/math/modular.rs:30-46` `invert`.  The third argument of `gcd` in the model is fuel, the
number of rounds that each of its loops may take. -/
def invert (m : Build) (w : Nat) (a n : BInt) : Out ε (Option BInt) := do
  dassertM m (do let o ← BInt.one w; BInt.gt m n o)
  dassertM m (do let z ← BInt.isZero m a; return !z)
  let a ← modulo m w a n
  let (_, y, v) ← BInt.gcd m w (2 * (w + BInt.storageBits w n) + 1) n a
  let o ← BInt.one w
  let isOne ← BInt.beq m v o
  if !isOne then return none
  else do
    let y ← modulo m w y n
    return some y

/-- `a * b % n` -/
def mulRem (m : Build) (w : Nat) (a b n : BInt) : Out ε BInt := do
  let t ← BInt.mul m w a b
  BInt.rem m w t n

/-- `/repo/src/math/modular.rs:60-66`: the square-and-multiply loop of `pow`. -/
def powLoop (m : Build) (w : Nat) (n : BInt) : Nat → BInt → BInt → BInt → Out ε BInt
  | 0, _, _, _ => .hang
  | fuel + 1, exp, base, result => do
    let zero ← BInt.zero w
    let pos ← BInt.gt m exp zero
    if !pos then return result
    else do
      let odd ← BInt.isOdd exp
      let result ← (if odd then mulRem m w result base n else pure result : Out ε BInt)
      let exp ← BInt.shr m w exp 1
      let base ← mulRem m w base base n
      powLoop m w n fuel exp base result

/-- `/repo/src/math/modular.rs:49-69` `pow`. -/
def pow (m : Build) (w : Nat) (a exp n : BInt) : Out ε BInt := do
  dassertM m (do let z ← BInt.zero w; BInt.gt m a z)
  dassertM m (BInt.lt m a n)
  dassertM m (do let z ← BInt.zero w; BInt.ge m exp z)
  dassertM m (do let z ← BInt.zero w; BInt.gt m n z)
  let one ← BInt.one w
  powLoop m w n (BInt.storageBits w exp + 1) exp a one

/-- `/repo/src/math/modular.rs:114-116`: the search for a non-residue. -/
def nonResidueLoop (m : Build) (w : Nat) (p one t1 t2 : BInt) : Nat → BInt → Out ε BInt
  | 0, _ => .hang
  | fuel + 1, n => do
    let t ← pow m w n t1 p
    let found ← BInt.beq m t t2
    if found then return n
    else do
      let n ← BInt.add m w n one
      nonResidueLoop m w p one t1 t2 fuel n

/-- `/repo/src/math/modular.rs:124-143`: the least `m` with `b ^ (2 ^ m) = 1`; the loop ends because of the test `count == r`. -/
def leastM (m : Build) (w : Nat) (p one : BInt) (r : Nat) : Nat → Nat → BInt → Out ε Nat
  | 0, _, _ => .hang
  | fuel + 1, count, t => do
    let isOne ← BInt.beq m t one
    if isOne then return count
    else if count + 1 = r then .panic
    else do
      let t ← mulRem m w t t p
      leastM m w p one r fuel (count + 1) t

/-- `BigInt::one() << n` -/
def oneShl (w n : Nat) : Out ε BInt := do
  let one ← BInt.one w
  BInt.shl w one n

/-- `r - m` on `usize`: cannot underflow when `m <= r`; otherwise a panic in debug builds (and, in release builds, a shift by an
enormous amount, which is not modelled: it would exhaust memory). -/
def subUsize (a b : Nat) : Out ε Nat := if b ≤ a then .ok (a - b) else .panic

/-- `/repo/src/math/modular.rs:123-154`: the main loop of `sqrt`. -/
def sqrtLoop (m : Build) (w : Nat) (p one : BInt) : Nat → BInt → BInt → BInt → Nat → Out ε (BInt × BInt)
  | 0, _, _, _, _ => .hang
  | fuel + 1, x, b, g, r => do
    let mm ← leastM m w p one r (r + 1) 0 b
    if mm = 0 then do
      let y ← modulo m w (BInt.neg x) p
      return (x, y)
    else do
      let rm ← subUsize r mm
      let rm1 ← subUsize rm 1
      let e1 ← oneShl w rm1
      let g1 ← pow m w g e1 p
      let x ← mulRem m w x g1 p
      let e2 ← oneShl w rm
      let g2 ← pow m w g e2 p
      let b ← mulRem m w b g2 p
      let e3 ← oneShl w rm
      let g ← pow m w g e3 p
      sqrtLoop m w p one fuel x b g mm

/-- `/repo/src/math/modular.rs:76-155` `sqrt`, with `limit` rounds of the search for a non-residue. -/
def sqrtWithin (m : Build) (w limit : Nat) (a p : BInt) : Out ε (Option (BInt × BInt)) := do
  let zero ← BInt.zero w
  let one ← BInt.one w
  let two ← BInt.ofInt w 2
  let odd ← BInt.isOdd p
  rassert odd
  let c ← BInt.gt m p two
  rassert c
  let c ← BInt.gt m a zero
  rassert c
  let c ← BInt.lt m a p
  rassert c
  let p1 ← BInt.sub m w p one
  let half ← BInt.div m w p1 two
  let t ← pow m w a half p
  let isOne ← BInt.beq m t one
  if !isOne then return none
  else do
    let e ← BInt.trailingZeros m w p1
    let s ← BInt.shr m w p1 e
    let n ← BInt.ofInt w 2
    let t1 ← BInt.div m w p1 two
    let minus1 ← BInt.ofInt w (-1)
    let t2 ← modulo m w minus1 p
    let n ← nonResidueLoop m w p one t1 t2 limit n
    let s1 ← BInt.add m w s one
    let s2 ← BInt.div m w s1 two
    let x ← pow m w a s2 p
    let b ← pow m w a s p
    let g ← pow m w n s p
    let roots ← sqrtLoop m w p one (e + 1) x b g e
    return some roots

/-- `/repo/src/math/modular.rs:76-155` `sqrt`.  The search may try all numbers below `p`. -/
def sqrt (m : Build) (w : Nat) (a p : BInt) : Out ε (Option (BInt × BInt)) := sqrtWithin m w (2 ^ BInt.storageBits w p) a p

end LCT.Modular
