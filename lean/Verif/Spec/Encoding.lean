import Verif.Spec.Ecdsa
import Verif.Spec.Rfc6979
import Verif.Spec.Numerals

/-!
# Textual encodings of signatures and points (specification)

`len` is the number of bytes of the group order.  Text is a list of character codes.
-/

namespace LCT.Spec

/-- The number of bytes needed to write `n`. -/
def byteLength (n : Nat) : Nat := (bitLength n + 7) / 8

/-- `v` as hex text of fixed width: `2·len` lower-case digits. -/
def fixedHex (len v : Nat) : List UInt8 := hexOf (octets len v)

/-- Text with upper-case letters replaced. -/
def lower (t : List UInt8) : List UInt8 := t.map lowerChar

/-- IEEE P1363: `r` and `s`, each with the width of the order. -/
def p1363Text (n r s : Nat) : List UInt8 := fixedHex (byteLength n) r ++ fixedHex (byteLength n) s

section
variable {p : Nat} {W : WeierstrassCurve.Affine (ZMod p)}

/-- SEC1, uncompressed: `04`, then the two coordinates. -/
def uncompressedText (n : Nat) (P : W.Point) : List UInt8 :=
  [48, 52] ++ fixedHex (byteLength n) (xCoord P) ++ fixedHex (byteLength n) (yCoord P)

/-- The prefix of the compressed form: `02` for an even ordinate, `03` for an odd one. -/
def compressedPrefix (P : W.Point) : List UInt8 := if yCoord P % 2 = 0 then [48, 50] else [48, 51]

/-- SEC1, compressed: the prefix, then the abscissa. -/
def compressedText (n : Nat) (P : W.Point) : List UInt8 := compressedPrefix P ++ fixedHex (byteLength n) (xCoord P)

/-- The text is (up to letter case) the uncompressed form of the point, whose coordinates fit into the width. -/
def IsUncompressed (n : Nat) (t : List UInt8) (P : W.Point) : Prop :=
  xCoord P < 256 ^ byteLength n ∧ yCoord P < 256 ^ byteLength n ∧ lower t = uncompressedText n P

/-- The text is a compressed form of the point in a wider sense: the prefix, followed by any hex numeral (an optional sign and an even number
of digits, with leading zeros) for the abscissa that is at least as long as the standard one. -/
def LaxCompressed (n : Nat) (t : List UInt8) (P : W.Point) : Prop :=
  ∃ u, t = compressedPrefix P ++ u ∧ 2 * byteLength n ≤ u.length ∧ HexNumeral u (xCoord P)

end

end LCT.Spec
