import Verif.Model.BigInt.Digits
import Verif.Model.Bytes
import Verif.Model.Codecs

/-!
# `BigInt` and `BigUint`

Models `/repo/src/bigint/{bigint_core,bigint_slice,bigint_new,bigint_from,bigint_into,bigint_display,add,sub,mul,neg,shift,cmp,bits,
bytes,math,zero,biguint}.rs`, except division (`Verif/Model/BigInt/DivRem.lean`) and the extended Euclidean algorithm
(`Verif/Model/BigInt/Gcd.lean`).

`w` is `Digit::BITS`; `DIGIT_BYTES` is `w / 8` (`/repo/src/bigint/digit.rs:27`).  The variants of an operator that take their
operands by value or by reference all delegate to the one modelled here.  `usize` arithmetic on lengths is done in `Nat`: a `Vec` has
fewer than `2^63` bytes.
-/

namespace LCT.BigInt
variable {ε : Type}

/-- `/repo/src/bigint/bigint_core.rs:32-35` `Sign`. -/
inductive Sign where
  | positive
  | negative
  deriving Repr, DecidableEq

/-- `/repo/src/bigint/neg.rs:10-30`: `-sign`. -/
def Sign.neg : Sign → Sign
  | .positive => .negative
  | .negative => .positive

/-- `/repo/src/bigint/bigint_core.rs:16-20` `BigInt`. -/
structure BInt where
  storage : List Nat
  len : Nat
  sign : Sign
  deriving Repr, DecidableEq

namespace BInt

/-- `/repo/src/bigint/bigint_core.rs:23-25` `is_sign_negative`. -/
def isSignNegative (x : BInt) : Bool := x.sign == .negative

/-- `/repo/src/bigint/bigint_slice.rs:26-29` `as_digits`; slicing past the end of the storage panics. -/
def asDigits (m : Build) (x : BInt) : Out ε (List Nat) := do
  dassert m (decide (0 < x.len))
  rassert (decide (x.len ≤ x.storage.length))
  return x.storage.take x.len

/-- `/repo/src/bigint/zero.rs:18-20` `is_zero`. -/
def isZero (m : Build) (x : BInt) : Out ε Bool := do
  let ds ← x.asDigits m
  isZeroDigits m ds

end BInt

/-! ## Bytes -/

/-- `slice::chunks_exact(k)` (standard library): the first `n` chunks. -/
def chunksAux (k : Nat) : Nat → List UInt8 → List (List UInt8)
  | 0, _ => []
  | n + 1, bs => bs.take k :: chunksAux k n (bs.drop k)

/-- `slice::chunks_exact(k)` (standard library), `k > 0`. -/
def chunksExact (k : Nat) (bs : List UInt8) : List (List UInt8) := chunksAux k (bs.length / k) bs

/-- `/repo/src/bigint/bytes.rs:46-69` `be_bytes_to_be_digits`.  `rotate_right(extend_n)` of the bytes followed by `extend_n` zeros
puts the zeros first. -/
def beBytesToBeDigits (w : Nat) (bytes : List UInt8) : List Nat :=
  if bytes.isEmpty then []
  else
    let extendN := w / 8 - bytes.length % (w / 8)
    let bytes := if 0 < extendN then List.replicate extendN 0 ++ bytes else bytes
    (chunksExact (w / 8) bytes).map fromBE

/-- `/repo/src/bigint/bytes.rs:71-76` `be_bytes_to_le_digits`. -/
def beBytesToLeDigits (w : Nat) (bytes : List UInt8) : List Nat := (beBytesToBeDigits w bytes).reverse

/-- `/repo/src/bigint/bytes.rs:25-42` `be_digits_to_be_bytes`. -/
def beDigitsToBeBytes (w : Nat) : List Nat → List UInt8
  | [] => []
  | first :: elements =>
    (toBEk (w / 8) first).drop (leadingZeros w first / 8) ++ elements.flatMap (toBEk (w / 8))

/-! ## Constructors -/

namespace BInt

/-- `/repo/src/bigint/bigint_new.rs:30-35` `from_be_bytes`: panics (in `len_digits`) for the empty byte string. -/
def fromBeBytes (w : Nat) (bytes : List UInt8) (sign : Sign) : Out ε BInt := do
  let digits := beBytesToLeDigits w bytes
  let len ← lenDigitsM digits
  return ⟨digits, len, sign⟩

/-- `/repo/src/bigint/bigint_new.rs:109-115` `from_u128`. -/
def fromU128 (w n : Nat) (sign : Sign) : Out ε BInt := do
  let digits := beBytesToLeDigits w (toBEk 16 n)
  let len ← lenDigitsM digits
  return ⟨digits, len, sign⟩

/-- `/repo/src/bigint/bigint_new.rs:118-139` `from_i128`: `overflowing_neg` overflows for `i128::MIN` only, and `i as u128` is `i`
modulo `2^128`. -/
def fromI128 (w : Nat) (i : Int) : Out ε BInt :=
  if 0 ≤ i then fromU128 w i.toNat .positive
  else
    let n := if i = -2 ^ 127 then (i + 2 ^ 128).toNat else (-i).toNat
    fromU128 w n .negative

/-- `/repo/src/bigint/bigint_from.rs:9-24`: `From` for the unsigned primitive types. -/
def ofNat (w n : Nat) : Out ε BInt := fromU128 w n .positive

/-- `/repo/src/bigint/bigint_from.rs:26-41`: `From` for the signed primitive types. -/
def ofInt (w : Nat) (i : Int) : Out ε BInt := fromI128 w i

/-- `/repo/src/bigint/bigint_new.rs:141-143` `zero`. -/
def zero (w : Nat) : Out ε BInt := ofInt w 0

/-- `/repo/src/bigint/bigint_new.rs:145-147` `one`. -/
def one (w : Nat) : Out ε BInt := ofInt w 1

/-! ## Arithmetic -/

/-- `/repo/src/bigint/add.rs:80-103` (and 143-146, the output buffer). -/
def add (m : Build) (w : Nat) (x y : BInt) : Out ε BInt := do
  let a ← x.asDigits m
  let b ← y.asDigits m
  if x.sign = y.sign then
    let (buf, len) ← addDigits m w a b (max a.length b.length + 1)
    return ⟨buf, len, x.sign⟩
  else
    match ← cmpDigits m a b with
    | .lt =>
      let (buf, len) ← subDigits m w b a (max b.length a.length)
      return ⟨buf, len, y.sign⟩
    | .eq => zero w
    | .gt =>
      let (buf, len) ← subDigits m w a b (max a.length b.length)
      return ⟨buf, len, x.sign⟩

/-- `/repo/src/bigint/sub.rs:85-109`. -/
def sub (m : Build) (w : Nat) (x y : BInt) : Out ε BInt := do
  let a ← x.asDigits m
  let b ← y.asDigits m
  if x.sign ≠ y.sign then
    let (buf, len) ← addDigits m w a b (max a.length b.length + 1)
    return ⟨buf, len, x.sign⟩
  else
    match ← cmpDigits m a b with
    | .lt =>
      let (buf, len) ← subDigits m w b a (max b.length a.length)
      return ⟨buf, len, x.sign.neg⟩
    | .eq => zero w
    | .gt =>
      let (buf, len) ← subDigits m w a b (max a.length b.length)
      return ⟨buf, len, x.sign⟩

/-- `/repo/src/bigint/mul.rs:95-107`. -/
def mul (m : Build) (w : Nat) (x y : BInt) : Out ε BInt := do
  let a ← x.asDigits m
  let b ← y.asDigits m
  let (buf, len) ← mulDigits m w a b (a.length + b.length)
  let sign := if x.sign = y.sign then .positive else .negative
  return ⟨buf, len, sign⟩

/-- `/repo/src/bigint/neg.rs:32-49`. -/
def neg (x : BInt) : BInt := { x with sign := x.sign.neg }

/-- `/repo/src/bigint/shift.rs:48-66`: the shift acts on `storage[..len]`, the rest of the storage is kept. -/
def shr (m : Build) (w : Nat) (x : BInt) (n : Nat) : Out ε BInt := do
  rassert (decide (x.len ≤ x.storage.length))
  let (digits, len) ← shiftRightDigits m w (x.storage.take x.len) n
  return ⟨digits ++ x.storage.drop x.len, len, x.sign⟩

/-- `/repo/src/bigint/shift.rs:114-128`. -/
def shl (w : Nat) (x : BInt) (n : Nat) : Out ε BInt := do
  let (storage, len) ← shiftLeftDigits w x.storage x.len n
  return ⟨storage, len, x.sign⟩

/-! ## Comparison -/

/-- `/repo/src/bigint/cmp.rs:39` and 63: `self.is_zero() && other.is_zero()`. -/
def bothZero (m : Build) (x y : BInt) : Out ε Bool := do
  if ← x.isZero m then y.isZero m else return false

/-- `/repo/src/bigint/cmp.rs:36-48` `PartialEq::eq`. -/
def beq (m : Build) (x y : BInt) : Out ε Bool := do
  if ← bothZero m x y then return true
  else if x.sign = y.sign then
    let a ← x.asDigits m
    let b ← y.asDigits m
    eqDigits m a b
  else return false

/-- `/repo/src/bigint/cmp.rs:60-73` `Ord::cmp`. -/
def cmp (m : Build) (x y : BInt) : Out ε Ordering := do
  if ← bothZero m x y then return .eq
  else match x.sign, y.sign with
    | .positive, .positive => do
      let a ← x.asDigits m
      let b ← y.asDigits m
      cmpDigits m a b
    | .positive, .negative => return .gt
    | .negative, .positive => return .lt
    | .negative, .negative => do
      let b ← y.asDigits m
      let a ← x.asDigits m
      cmpDigits m b a

/-! ## Bits -/

/-- `/repo/src/bigint/bits.rs:26-28` `bit_len`. -/
def bitLen (m : Build) (w : Nat) (x : BInt) : Out ε Nat := do
  let ds ← x.asDigits m
  bitLenDigits m w ds

/-- `/repo/src/bigint/bits.rs:41-44`, 49-52: the `n` least significant bits of a digit. -/
def digitLeBits : Nat → Nat → List Bool
  | 0, _ => []
  | n + 1, d => (d &&& 1 == 1) :: digitLeBits n (d >>> 1)

/-- `/repo/src/bigint/bits.rs:30-59` `le_bits`. -/
def leBits (m : Build) (w : Nat) (x : BInt) : Out ε (List Bool) := do
  if ← x.isZero m then return []
  else
    let digits ← x.asDigits m
    match digits.getLast? with
    | none => .panic
    | some last =>
      let bits := digits.dropLast.flatMap (digitLeBits w) ++ digitLeBits (w - leadingZeros w last) last
      let bl ← x.bitLen m w
      dassert m (bits.length == bl)
      return bits

/-- `/repo/src/bigint/math.rs:11-14` `is_even`. -/
def isEven (x : BInt) : Out ε Bool := do
  let d ← unwrap x.storage.head?
  return d &&& 1 == 0

/-- `/repo/src/bigint/math.rs:16-18` `is_odd`. -/
def isOdd (x : BInt) : Out ε Bool := do
  let b ← x.isEven
  return !b

/-- `uN::trailing_zeros` (standard library). -/
def digitTrailingZeros (w : Nat) (d : Nat) : Nat := (digitLeBits w d).takeWhile (· == false) |>.length

/-- `/repo/src/bigint/math.rs:22-30` `trailing_zeros`. -/
def trailingZeros (m : Build) (w : Nat) (x : BInt) : Out ε Nat := do
  rassert (!(← x.isZero m))
  let ds ← x.asDigits m
  match ds.findIdx? (· != 0) with
  | some index => do
    let d ← unwrap x.storage[index]?
    return index * w + digitTrailingZeros w d
  | none => .panic

/-- `/repo/src/bigint/bytes.rs:14-21` `byte_len`. -/
def byteLen (m : Build) (w : Nat) (x : BInt) : Out ε Nat := do
  if ← x.isZero m then return 0
  else
    let bl ← x.bitLen m w
    return (bl + 7) / 8

/-! ## Text and byte output -/

/-- `/repo/src/bigint/bigint_into.rs:36-41` `to_be_bytes`. -/
def toBeBytes (m : Build) (w : Nat) (x : BInt) : Out ε (List UInt8) := do
  let ds ← x.asDigits m
  return beDigitsToBeBytes w ds.reverse

/-- `/repo/src/bigint/bigint_into.rs:18-33` `to_lower_hex`; text is a list of ASCII codes (48 is `0`, 45 is `-`). -/
def toLowerHex (m : Build) (w : Nat) (x : BInt) : Out ε (List UInt8) := do
  if ← x.isZero m then return [48, 48]
  else
    let bytes ← x.toBeBytes m w
    let hex := Codecs.bytesToLowerHex bytes
    match x.sign with
    | .positive => return hex
    | .negative => return 45 :: hex

/-- `/repo/src/bigint/bigint_display.rs:12-15` `Display::fmt`: `0x` and the hex text. -/
def display (m : Build) (w : Nat) (x : BInt) : Out ε (List UInt8) := do
  let hex ← x.toLowerHex m w
  return 48 :: 120 :: hex

end BInt

/-! ## Parsing -/

/-- `/repo/src/bigint/bigint_new.rs:152-155` `ParseIntError`. -/
inductive ParseIntError where
  | CodecsError (e : Codecs.CodecsError)
  | InvalidInput
  deriving Repr, DecidableEq

/-- `/repo/src/bigint/bigint_new.rs:46-50` (and 77-81): the sign prefix of a non-empty text (45 is `-`, 43 is `+`). -/
def splitSign : List UInt8 → Sign × List UInt8
  | [] => (.positive, [])
  | c :: cs => if c = 45 then (.negative, cs) else if c = 43 then (.positive, cs) else (.positive, c :: cs)

namespace BInt

/-- `/repo/src/bigint/bigint_new.rs:40-61` `from_hex`. -/
def fromHex (w : Nat) (hex : List UInt8) : Out ParseIntError BInt := do
  if hex.isEmpty then zero w
  else
    let (sign, hex) := splitSign hex
    if hex.isEmpty then .err .InvalidInput
    else
      match Codecs.hexToBytes hex with
      | .ok bytes => fromBeBytes w bytes sign
      | .err e => .err (.CodecsError e)
      | .panic => .panic
      | .hang => .hang

/-- `/repo/src/bigint/bigint_new.rs:91-96`: the value of a digit character; `none` is the `InvalidInput` exit.  The `u8` subtractions
cannot underflow. -/
def radixDigit (c : UInt8) : Option Nat :=
  if 48 ≤ c.toNat ∧ c.toNat ≤ 57 then some (c.toNat - 48)
  else if 97 ≤ c.toNat ∧ c.toNat ≤ 122 then some (c.toNat - 87)
  else if 65 ≤ c.toNat ∧ c.toNat ≤ 90 then some (c.toNat - 55)
  else none

/-- `/repo/src/bigint/bigint_new.rs:90-102`: the loop. -/
def radixLoop (m : Build) (w radix : Nat) (radixBig : BInt) : List UInt8 → BInt → Out ParseIntError BInt
  | [], result => return result
  | c :: cs, result => do
    match radixDigit c with
    | none => .err .InvalidInput
    | some n =>
      if n > radix then .err .InvalidInput
      else
        let p ← mul m w result radixBig
        let d ← ofNat w n
        let result ← add m w p d
        radixLoop m w radix radixBig cs result

/-- `/repo/src/bigint/bigint_new.rs:69-106` `from_str_radix`. -/
def fromStrRadix (m : Build) (w : Nat) (s : List UInt8) (radix : Nat) : Out ParseIntError BInt := do
  dassert m (decide (2 ≤ radix ∧ radix ≤ 36))
  if s.isEmpty then zero w
  else
    let (sign, s) := splitSign s
    if s.isEmpty then .err .InvalidInput
    else
      let radixBig ← ofNat w radix
      let z ← zero w
      let result ← radixLoop m w radix radixBig s z
      return { result with sign := sign }

end BInt

/-! ## `BigUint`

`/repo/src/bigint/biguint.rs:14`: a wrapper around a `BigInt`; `Add`, `Sub`, `Mul`, `Shr` (l.90-136), the comparisons (derived,
l.13), `to_be_bytes`, `to_lower_hex` (l.59-65) and `Display` (l.138-142) are those of the wrapped value. -/

namespace BUint

/-- `/repo/src/bigint/biguint.rs:16-31`: `From` for the unsigned primitive types. -/
def ofNat (w n : Nat) : Out ε BInt := BInt.fromU128 w n .positive

/-- `/repo/src/bigint/biguint.rs:34-36` `from_be_bytes`. -/
def fromBeBytes (w : Nat) (bytes : List UInt8) : Out ε BInt := BInt.fromBeBytes w bytes .positive

/-- `/repo/src/bigint/biguint.rs:38-44` `from_bigint`. -/
def fromBigint (n : BInt) : Option BInt := if n.isSignNegative then none else some n

/-- `/repo/src/bigint/biguint.rs:46-53` `from_hex`. -/
def fromHex (w : Nat) (hex : List UInt8) : Out ParseIntError BInt := do
  let n ← BInt.fromHex w hex
  if n.isSignNegative then .err .InvalidInput else return n

/-- `/repo/src/bigint/biguint.rs:55-57` `from_str_radix`. -/
def fromStrRadix (m : Build) (w : Nat) (s : List UInt8) (radix : Nat) : Out ParseIntError BInt :=
  BInt.fromStrRadix m w s radix

/-- `/repo/src/bigint/biguint.rs:81-87` `TryFrom<&str>` (48, 120 is `0x`). -/
def tryFromStr (m : Build) (w : Nat) (s : List UInt8) : Out ParseIntError BInt :=
  match s with
  | 48 :: 120 :: rest => fromHex w rest
  | _ => fromStrRadix m w s 10

end BUint
end LCT.BigInt
