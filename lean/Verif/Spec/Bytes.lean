/-!
# Positional notation (specification)
-/

namespace LCT.Spec

/-- The number denoted by a big-endian byte string. -/
def ofBE (bs : List UInt8) : Nat := bs.foldl (fun acc b => acc * 256 + b.toNat) 0

/-- The number denoted by a little-endian byte string. -/
def ofLE : List UInt8 → Nat
  | [] => 0
  | b :: bs => b.toNat + 256 * ofLE bs

/-- The shortest big-endian byte string denoting `n` (empty for zero): the Yellow Paper's `BE`. -/
def minBE (n : Nat) : List UInt8 :=
  if n = 0 then [] else minBE (n / 256) ++ [UInt8.ofNat n]
termination_by n
decreasing_by omega

end LCT.Spec
