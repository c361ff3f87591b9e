/-!
# Positional notation in base `2 ^ w` (specification)
-/

namespace LCT.Spec

/-- The number denoted by a little-endian list of base-`2^w` digits. -/
def val (w : Nat) : List Nat → Nat
  | [] => 0
  | d :: ds => d + 2 ^ w * val w ds

end LCT.Spec
