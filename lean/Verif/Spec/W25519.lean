/-!
# Curve25519 in short Weierstrass form, with the subgroup of prime order (specification)

The curve of RFC 7748 (`v² = u³ + 486662·u² + u` modulo `2^255 - 19`), with `x = u + 486662/3`; the base point has `u = 9`, and the cofactor is 8.
-/

namespace LCT.Spec.W25519

/-- The order of the field. -/
def p : Nat := 2 ^ 255 - 19
/-- The order of the base point. -/
def n : Nat := 2 ^ 252 + 27742317777372353535851937790883648493
/-- The coefficients. -/
def a : Nat := 0x2AAAAAAAAAAAAAAAAAAAAAAAAAAAAAAAAAAAAAAAAAAAAAAAAAAAAA984914A144
def b : Nat := 0x7b425ed097b425ed097b425ed097b425ed097b425ed097b4260b5e9c7710c864
/-- The base point. -/
def gx : Nat := 0x2AAAAAAAAAAAAAAAAAAAAAAAAAAAAAAAAAAAAAAAAAAAAAAAAAAAAAAAAAAD245A
def gy : Nat := 0x5F51E65E475F794B1FE122D388B72EB36DC2B28192839E4DD6163A5D81312C14

end LCT.Spec.W25519
