import Verif.Basic

/-!
# Byte helpers

Models `/repo/src/tools/bytes.rs` and the fixed-width conversions of the Rust standard library that the crate relies on.
-/

namespace LCT

/-- `/repo/src/tools/bytes.rs:20-26` `strip_leading_zeros`: drop bytes until the first non-zero one. -/
def stripLeadingZeros (bs : List UInt8) : List UInt8 := bs.dropWhile (· == 0)

/-- `uN::to_be_bytes` for a `k`-byte integer (standard library). The value is taken modulo `256^k`. -/
def toBEk : Nat → Nat → List UInt8
  | 0, _ => []
  | k + 1, n => toBEk k (n / 256) ++ [UInt8.ofNat n]

/-- `uN::to_le_bytes` for a `k`-byte integer (standard library). The value is taken modulo `256^k`. -/
def toLEk : Nat → Nat → List UInt8
  | 0, _ => []
  | k + 1, n => UInt8.ofNat n :: toLEk k (n / 256)

/-- `uN::from_be_bytes` (standard library): Horner evaluation. -/
def fromBE (bs : List UInt8) : Nat := bs.foldl (fun acc b => acc * 256 + b.toNat) 0

/-- `uN::from_le_bytes` (standard library). -/
def fromLE (bs : List UInt8) : Nat := bs.foldr (fun b acc => b.toNat + 256 * acc) 0

end LCT
