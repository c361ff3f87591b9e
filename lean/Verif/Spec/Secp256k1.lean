/-!
# The constants of secp256k1, as published in SEC 2, section 2.4.1 (specification)

The curve is `y² = x³ + 7` over the integers modulo `p`, with base point `(gx, gy)` of order `n` and cofactor one.
-/

namespace LCT.Spec.Secp256k1

/-- The order of the field, `2^256 - 2^32 - 977`. -/
def p : Nat := 2 ^ 256 - 2 ^ 32 - 977

/-- The order of the base point. -/
def n : Nat := 0xFFFFFFFFFFFFFFFFFFFFFFFFFFFFFFFEBAAEDCE6AF48A03BBFD25E8CD0364141

def gx : Nat := 0x79BE667EF9DCBBAC55A06295CE870B07029BFCDB2DCE28D959F2815B16F81798

def gy : Nat := 0x483ADA7726A3C4655DA4FBFC0E1108A8FD17B448A68554199C47D08FFB10D4B8

end LCT.Spec.Secp256k1
