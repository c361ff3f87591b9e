import Verif.Spec.Encoding
import Verif.Model.Crypto.Encoding

/-!
# Why a text is not the SEC1 form of a public key (specification)
-/

namespace LCT.Spec
open LCT.Crypto Classical

/-- The reason for rejecting a text: too short for any form, or with none of the three prefixes, or with the prefix `04` and a length other than
that of two coordinates; then a coordinate that is no hex numeral; then, for the compressed form, an abscissa for which the equation
`y² = x³ + a·x + b` has no solution; otherwise numbers that are not the coordinates of a valid point. -/
noncomputable def sec1Error (p n : Nat) (a b : Int) (t : List UInt8) : PointDecodingError :=
  let len := 2 * byteLength n
  if t.length < len + 2 then .InvalidFormat
  else if t.take 2 = [48, 52] then
    if t.length ≠ 2 * len + 2 then .InvalidFormat
    else if ∀ z, ¬ HexNumeral ((t.drop 2).take len) z then .InvalidX
    else if ∀ z, ¬ HexNumeral (t.drop (len + 2)) z then .InvalidY
    else .InvalidPoint
  else if t.take 2 ≠ [48, 50] ∧ t.take 2 ≠ [48, 51] then .InvalidFormat
  else if ∀ z, ¬ HexNumeral (t.drop 2) z then .InvalidX
  else if ∃ z, HexNumeral (t.drop 2) z ∧ ∀ y : ZMod p, y ^ 2 ≠ (z : ZMod p) ^ 3 + a * z + b then .YNotFound
  else .InvalidPoint

end LCT.Spec
