import Verif.Model.Equality
import Verif.Model.Math.Modular
import Verif.Model.Crypto.Encoding
import Verif.Model.Rlp
import Verif.Model.Hash.Sha2

/-!
# The project's random tests

The crate tests itself on random inputs (`quickcheck`).  This file models the test functions: the code that runs for one input that was drawn.  A
test passes if it returns `true`; it fails if it returns `false`, panics or does not end.  The inputs are texts of hex digits, byte strings and
numbers (`Verif.Spec.RandomTests` says which).  Arithmetic of other crates that a test compares with is not modelled: see the comments.
-/

namespace LCT.RandomTests
open LCT LCT.BigInt LCT.Modular LCT.Crypto LCT.Curve LCT.Codecs LCT.Hash
variable {ε : Type}

/-- The standard library's `Result::unwrap`, which all the tests use. -/
def unwrapped {ε' α : Type} : Out ε' α → Out ε α
  | .ok a => .ok a
  | .err _ => .panic
  | .panic => .panic
  | .hang => .hang

/-- `/repo/src/bigint/bytes.rs:100-104` `byte_len_compare_as_bytes`. -/
def byteLenAsBytes (m : Build) (w : Nat) (hex : List UInt8) : Out ε Bool := do
  let a ← unwrapped (BInt.fromHex w hex)
  let n ← a.byteLen m w
  let bytes ← a.toBeBytes m w
  return n == bytes.length

/-- `/repo/src/bigint/bigint_new.rs:200-206` `from_hex_and_to_hex_double_conversion`. -/
def hexDoubleConversion (m : Build) (w : Nat) (hex : List UInt8) : Out ε Bool := do
  let n1 ← unwrapped (BInt.fromHex w hex)
  let hex ← n1.toLowerHex m w
  let n2 ← unwrapped (BInt.fromHex w hex)
  BInt.beq m n1 n2

/-- `/repo/src/bigint/bigint_new.rs:255-260` `from_str_radix_16_eq_from_hex`. -/
def radix16EqHex (m : Build) (w : Nat) (hex : List UInt8) : Out ε Bool := do
  let a ← unwrapped (BInt.fromHex w hex)
  let b ← unwrapped (BInt.fromStrRadix m w hex 16)
  BInt.beq m a b

/-- `/repo/src/bigint/bigint_new.rs:262-272` `from_str_radix_double_conversion`, the loop.  `print radix` is the text that the crate `num_bigint`
makes of the number; that crate is not modelled. -/
def radixLoop (m : Build) (w : Nat) (hex : List UInt8) (print : Nat → List UInt8) : List Nat → Out ε Bool
  | [] => .ok true
  | radix :: rest => do
    let b ← unwrapped (BInt.fromStrRadix m w (print radix) radix)
    let a ← unwrapped (BInt.fromHex w hex)
    let same ← BInt.beq m b a
    if !same then return false else radixLoop m w hex print rest

/-- `/repo/src/bigint/bigint_new.rs:262-272` `from_str_radix_double_conversion`: the radices from 2 to 36. -/
def radixDoubleConversion (m : Build) (w : Nat) (hex : List UInt8) (print : Nat → List UInt8) : Out ε Bool :=
  radixLoop m w hex print ((List.range 35).map (· + 2))

/-- `/repo/src/bigint/divrem.rs:593-605`, the property of `test_devrem_with_muladd` (quotient times divisor plus remainder). -/
def divRemMulAdd (m : Build) (w : Nat) (dividendHex divisorHex : List UInt8) : Out ε Bool := do
  let dividend ← unwrapped (BInt.fromHex w dividendHex)
  let divisor ← unwrapped (BInt.fromHex w divisorHex)
  let zero ← BInt.ofInt w 0
  let isZero ← BInt.beq m divisor zero
  if isZero then return true
  else do
    let quotient ← BInt.div m w dividend divisor
    let remainder ← BInt.rem m w dividend divisor
    let t ← BInt.mul m w quotient divisor
    let t ← BInt.add m w t remainder
    BInt.beq m dividend t

/-- The standard library's `from_str_radix(_, 16)` for an integer type with the range `lo ≤ n < hi`, used at
`/repo/src/bigint/bigint_from.rs:48`.  An optional sign (`-` for signed types only) and at least one digit; the value must be in range.  The
library checks the range after every digit, which is the same since the absolute value never shrinks. -/
def stdParseHex (lo hi : Int) (s : List UInt8) : Option Int :=
  let go (sign : Int) (body : List UInt8) : Option Int :=
    if body = [] then none
    else
      match body.mapM fun c =>
          if 48 ≤ c ∧ c ≤ 57 then some (c.toNat - 48) else if 97 ≤ c ∧ c ≤ 102 then some (c.toNat - 87)
          else if 65 ≤ c ∧ c ≤ 70 then some (c.toNat - 55) else none with
      | none => none
      | some ds =>
        let n : Int := sign * (ds.foldl (fun acc d => acc * 16 + d) 0 : Nat)
        if lo ≤ n ∧ n < hi then some n else none
  match s with
  | 43 :: body => go 1 body
  | 45 :: body => if lo < 0 then go (-1) body else none
  | body => go 1 body

/-- `/repo/src/bigint/bigint_from.rs:46-49`, the ten tests `test_from_*`; unsigned types go through `u128`, signed ones through `i128`. -/
def fromInt (m : Build) (w : Nat) (lo hi n : Int) : Out ε Bool := do
  let a ← (if 0 ≤ lo then BInt.ofNat w n.toNat else BInt.ofInt w n : Out ε BInt)
  let hex ← a.toLowerHex m w
  let back ← unwrap (stdParseHex lo hi hex)
  return n == back

/-- `/repo/src/bigint/gcd.rs:895-904`, the loop of `gcd_euclid_extended`: returns the last values of `a` and `ua`.  `fuel` bounds the rounds. -/
def euclidLoop (m : Build) (w : Nat) : Nat → BInt → BInt → BInt → BInt → Out ε (BInt × BInt)
  | 0, _, _, _, _ => .hang
  | fuel + 1, a, b, ua, ub => do
    let stop ← BInt.isZero m b
    if stop then return (a, ua)
    else do
      let q ← BInt.div m w a b
      let qb ← BInt.mul m w q b
      let t ← BInt.sub m w a qb
      let qu ← BInt.mul m w q ub
      let tu ← BInt.sub m w ua qu
      euclidLoop m w fuel b t ub tu

/-- `/repo/src/bigint/gcd.rs:886-908` `gcd_euclid_extended`, a reference implementation of the tests. -/
def gcdEuclidExtended (m : Build) (w fuel : Nat) (n x : BInt) : Out ε (BInt × BInt × BInt) := do
  dassertM m (BInt.gt m n x)
  let ua ← BInt.zero w
  let ub ← BInt.one w
  let (a, ua) ← euclidLoop m w fuel n x ua ub
  let t ← BInt.mul m w x ua
  let t ← BInt.sub m w a t
  let v ← BInt.div m w t n
  return (v, ua, a)

/-- `/repo/src/bigint/gcd.rs:834-838`, the first loop of `gcd_binary_extended`. -/
def halveBoth (m : Build) (w : Nat) : Nat → BInt → BInt → BInt → Out ε (BInt × BInt × BInt)
  | 0, _, _, _ => .hang
  | fuel + 1, x, y, g => do
    let even ← x.isEven.andAlso y.isEven
    if even then do
      let x ← BInt.shr m w x 1
      let y ← BInt.shr m w y 1
      let g ← BInt.shl w g 1
      halveBoth m w fuel x y g
    else return (x, y, g)

/-- `/repo/src/bigint/gcd.rs:848-857` and, with other variables, `859-868`: the inner loops of `gcd_binary_extended`. -/
def halve (m : Build) (w : Nat) (x y : BInt) : Nat → BInt → BInt → BInt → Out ε (BInt × BInt × BInt)
  | 0, _, _, _ => .hang
  | fuel + 1, u, a, b => do
    let even ← u.isEven
    if even then do
      let u ← BInt.shr m w u 1
      let both ← a.isEven.andAlso b.isEven
      if both then do
        let a ← BInt.shr m w a 1
        let b ← BInt.shr m w b 1
        halve m w x y fuel u a b
      else do
        let a ← BInt.add m w a y
        let a ← BInt.shr m w a 1
        let b ← BInt.sub m w b x
        let b ← BInt.shr m w b 1
        halve m w x y fuel u a b
    else return (u, a, b)

/-- `/repo/src/bigint/gcd.rs:847-879`, the main loop of `gcd_binary_extended`: returns the last values of `c`, `d` and `v`. -/
def binaryLoop (m : Build) (w : Nat) (inner : Nat) (x y : BInt) : Nat → BInt → BInt → BInt → BInt → BInt → BInt → Out ε (BInt × BInt × BInt)
  | 0, _, _, _, _, _, _ => .hang
  | fuel + 1, u, v, a, b, c, d => do
    let stop ← BInt.isZero m u
    if stop then return (c, d, v)
    else do
      let (u, a, b) ← halve m w x y inner u a b
      let (v, c, d) ← halve m w x y inner v c d
      let ge ← BInt.ge m u v
      if ge then do
        let u ← BInt.sub m w u v
        let a ← BInt.sub m w a c
        let b ← BInt.sub m w b d
        binaryLoop m w inner x y fuel u v a b c d
      else do
        let v ← BInt.sub m w v u
        let c ← BInt.sub m w c a
        let d ← BInt.sub m w d b
        binaryLoop m w inner x y fuel u v a b c d

/-- `/repo/src/bigint/gcd.rs:825-882` `gcd_binary_extended`, a reference implementation of the tests.  `fuel` bounds the rounds of each loop. -/
def gcdBinaryExtended (m : Build) (w fuel : Nat) (x y : BInt) : Out ε (BInt × BInt × BInt) := do
  let g ← BInt.one w
  let (x, y, g) ← halveBoth m w fuel x y g
  let a ← BInt.one w
  let b ← BInt.zero w
  let c ← BInt.zero w
  let d ← BInt.one w
  let (c, d, v) ← binaryLoop m w fuel x y fuel x y a b c d
  let gv ← BInt.mul m w g v
  return (c, d, gv)

/-- `/repo/src/bigint/gcd.rs:796-816`, the property of `test_gcd_with_multiple_implementations`. -/
def gcdImplementations (m : Build) (w fuel : Nat) (aHex nHex : List UInt8) : Out ε Bool := do
  let a ← unwrapped (BInt.fromHex w aHex)
  let b ← unwrapped (BInt.fromHex w nHex)
  let same ← BInt.beq m a b
  if same then return true
  else do
    let less ← BInt.lt m a b
    let (a, b) := if less then (b, a) else (a, b)
    let z ← BInt.isZero m b
    if z then return true
    else do
      let (x, y, v) ← BInt.gcd m w fuel a b
      let r1 ← gcdEuclidExtended m w fuel a b
      let r2 ← gcdBinaryExtended m w fuel a b
      let xa ← BInt.mul m w x a
      let yb ← BInt.mul m w y b
      let t ← BInt.add m w xa yb
      (BInt.beq m t v).andAlso ((BInt.beq m r1.2.2 v).andAlso (BInt.beq m r2.2.2 v))

/-- `/repo/src/bigint/shift.rs:163-174` `shift_right_compare_with_div`. -/
def shiftRightDiv (m : Build) (w : Nat) (hex : List UInt8) (n : UInt8) : Out ε Bool := do
  let a ← unwrapped (BInt.fromHex w hex)
  let n := (n &&& 0x0f).toNat
  let divisor ← BInt.ofNat w (2 ^ n)
  let b ← BInt.div m w a divisor
  let s ← BInt.shr m w a n
  BInt.beq m s b

/-- `/repo/src/bigint/shift.rs:193-204` `shift_left_compare_with_mul`. -/
def shiftLeftMul (m : Build) (w : Nat) (hex : List UInt8) (n : UInt8) : Out ε Bool := do
  let a ← unwrapped (BInt.fromHex w hex)
  let n := (n &&& 0x0f).toNat
  let multiplicand ← BInt.ofNat w (2 ^ n)
  let b ← BInt.mul m w a multiplicand
  let s ← BInt.shl w a n
  BInt.beq m s b

/-- `/repo/src/crypto/hash/sha2/sha256.rs:288-296`, `sha384_512.rs:366-374` and `429-437`: the digest of a new hasher against the digest of another
implementation (`other`, of the crate `sha2`, which is not modelled), both as hex texts. -/
def againstAnother (m : Build) (H : Hasher) (other : List UInt8 → List UInt8) (bytes : List UInt8) : Out ε Bool := do
  let (digest, _) ← H.digest m H.fresh bytes
  return bytesToLowerHex digest == bytesToLowerHex (other bytes)

/-- `/repo/src/crypto/codecs.rs:239-243` `hex_to_bytes_double_conversion`; `to_lowercase` is the standard library's, on ASCII text. -/
def codecsDoubleConversion (hex : List UInt8) : Out ε Bool := do
  let bytes ← unwrapped (hexToBytes hex)
  return bytesToLowerHex bytes == hex.map fun c => if 65 ≤ c ∧ c ≤ 90 then c + 32 else c

/-- `/repo/src/crypto/ecdsa/ecdsa_core.rs:359-382`, the property of `sign_and_verify`. -/
def signAndVerify (m : Build) (w : Nat) (hHex dHex kHex : List UInt8) : Out ε Bool := do
  let cp ← secp256k1 w
  let hash ← unwrapped (BInt.fromHex w hHex)
  let d ← unwrapped (BInt.fromHex w dHex)
  let z ← BInt.isZero m d
  if z then return true
  else do
    let key ← PrivateKey.new m w d cp
    let key ← unwrap key
    let z ← BInt.isZero m key.data
    if z then return true
    else do
      let pk ← key.publicKey m w
      let k ← unwrapped (BInt.fromHex w kHex)
      let z ← BInt.isZero m k
      if z then return true
      else do
        let r ← key.sign m w hash k
        let (sig, _) ← unwrap r
        let success ← pk.verify m w hash sig
        let one ← BInt.one w
        let hash1 ← BInt.add m w hash one
        let failure ← pk.verify m w hash1 sig
        return success && !failure

/-- `/repo/src/crypto/sec1.rs:506-522`, the property of `point_to_hex_double_conversion`. -/
def sec1DoubleConversion (m : Build) (w : Nat) (dHex : List UInt8) : Out ε Bool := do
  let d ← unwrapped (BInt.fromHex w dHex)
  let z ← BInt.isZero m d
  if z then return true
  else do
    let cp ← secp256k1 w
    let d ← BInt.rem m w d cp.order
    let key ← PrivateKey.new m w d cp
    let key ← unwrap key
    let pk ← key.publicKey m w
    let hex ← pk.toSec1Hex m w true
    let pk2 ← unwrapped (PublicKey.fromSec1Hex m w hex cp)
    let hex2 ← pk2.toSec1Hex m w true
    return hex == hex2

/-- A result that is dropped (`let _ = …`): an error does not matter, a panic does. -/
def dropped {ε' α : Type} : Out ε' α → Out ε Unit
  | .ok _ => .ok ()
  | .err _ => .ok ()
  | .panic => .panic
  | .hang => .hang

/-- `/repo/src/blockchain/ethereum/rlp/decoding.rs:299-304` `test_decoding_random_data_will_not_panic`. -/
def decodingWillNotPanic (m : Build) (data : List UInt8) : Out ε Bool := do
  dropped (Rlp.decodeData m data)
  dropped (Rlp.decodeListPayload m data)
  return true

end LCT.RandomTests
