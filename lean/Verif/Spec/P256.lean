/-!
# The constants of P-256, as published in FIPS 186-4, section D.1.2.3 (specification)

The curve is `y² = x³ - 3x + b` over the integers modulo `p`, with base point `(gx, gy)` of order `n` and cofactor one.
-/

namespace LCT.Spec.P256

/-- The order of the field, `2^256 - 2^224 + 2^192 + 2^96 - 1`. -/
def p : Nat := 2 ^ 256 - 2 ^ 224 + 2 ^ 192 + 2 ^ 96 - 1

/-- The order of the base point. -/
def n : Nat := 0xFFFFFFFF00000000FFFFFFFFFFFFFFFFBCE6FAADA7179E84F3B9CAC2FC632551

def b : Nat := 0x5AC635D8AA3A93E7B3EBBD55769886BC651D06B0CC53B0F63BCE3C3E27D2604B

def gx : Nat := 0x6B17D1F2E12C4247F8BCE6E563A440F277037D812DEB33A0F4A13945D898C296

def gy : Nat := 0x4FE342E2FE1A7F9B8EE7EB4A7C0F9E162BCE33576B315ECECBB6406837BF51F5

end LCT.Spec.P256
