import Verif.Model.VectorTests
import Verif.Spec.Encoding
import Verif.Spec.Hmac

/-!
# What published test vectors say (specification)
-/

namespace LCT.Spec
open LCT.VectorTests

section
variable {p : Nat} [Fact p.Prime] {W : WeierstrassCurve.Affine (ZMod p)}

/-- The text is that of two numbers in the range of signatures. -/
def SignatureText (n : Nat) (t : List UInt8) (r s : Nat) : Prop := 0 < r ∧ r < n ∧ 0 < s ∧ s < n ∧ lower t = p1363Text n r s

/-- Textbook ECDSA accepts the signature for the message with the public key `Q`; hashes that are zero as numbers are not accepted. -/
def Accepted (n : Nat) (h : List UInt8 → List UInt8) (G Q : W.Point) (msg sig : List UInt8) : Prop :=
  ∃ r s, SignatureText n sig r s ∧ leadingBits (bitLength n) (h msg) ≠ 0 ∧ EcdsaVerifies n G Q (leadingBits (bitLength n) (h msg)) r s

/-- What a label claims: accepted, or not accepted.  `acceptable` says that libraries may refuse the signature, for its text. -/
def EcdsaClaim (n : Nat) (h : List UInt8 → List UInt8) (G Q : W.Point) (msg sig : List UInt8) : Label → Prop
  | .valid => Accepted n h G Q msg sig
  | .invalid => ¬ Accepted n h G Q msg sig
  | .acceptable => ¬ ∃ r s, SignatureText n sig r s
  | .other => False

end

/-- What a label claims about a tag: it is (in lower case) the beginning of the code, or it is not. -/
def HmacClaim (h : List UInt8 → List UInt8) (block tagSize : Nat) (key msg tag : List UInt8) : Label → Prop
  | .valid => tag = hexOf ((hmac h block key msg).take (tagSize / 8))
  | .invalid => tag ≠ hexOf ((hmac h block key msg).take (tagSize / 8))
  | .acceptable | .other => False

/-- The value of a decimal numeral. -/
def decimalValue (t : List UInt8) : Nat := t.foldl (fun acc c => acc * 10 + (c.toNat - 48)) 0

/-- White space: a space, a tabulator or one of the characters that end a line or page. -/
def White (c : UInt8) : Prop := c = 32 ∨ 9 ≤ c ∧ c ≤ 13

/-- The line is `name =`, followed by the value; there may be white space around the value. -/
def IsField (name value line : List UInt8) : Prop :=
  ∃ u v, (∀ c ∈ u, White c) ∧ (∀ c ∈ v, White c) ∧ line = name ++ [32, 61] ++ u ++ value ++ v

/-- The text is a decimal numeral, possibly with a plus sign, of a number below `2^64`. -/
def LengthNumeral (t : List UInt8) : Prop :=
  ∃ ds, (t = ds ∨ t = 43 :: ds) ∧ ds ≠ [] ∧ (∀ c ∈ ds, 48 ≤ c ∧ c ≤ 57) ∧ decimalValue ds < 2 ^ 64

/-- An entry: a length in bits, a text with at least that many bits, and the digest of the bits. -/
structure KatEntry where
  len : List UInt8
  msg : List UInt8
  md : List UInt8

/-- The length is a decimal numeral, not too large; the other two are hex texts. -/
def KatEntry.Proper (e : KatEntry) : Prop :=
  e.len ≠ [] ∧ (∀ c ∈ e.len, 48 ≤ c ∧ c ≤ 57) ∧ decimalValue e.len < 2 ^ 64 ∧ (∀ c ∈ e.msg, IsHexDigit c) ∧ ∀ c ∈ e.md, IsHexDigit c

/-- The lines of a file: entries of three lines, `Len = ` (with an optional plus sign), `Msg = ` and `MD = `, and between them lines that do not begin with `Len =`. -/
inductive KatLines : List (List UInt8) → List KatEntry → Prop
  | nil : KatLines [] []
  | other {line lines es} : ¬ [76, 101, 110, 32, 61] <+: line → KatLines lines es → KatLines (line :: lines) es
  | entry {a b c lines e es} : e.Proper → IsField [76, 101, 110] e.len a ∨ IsField [76, 101, 110] (43 :: e.len) a →
      IsField [77, 115, 103] e.msg b → IsField [77, 68] e.md c →
      KatLines lines es → KatLines (a :: b :: c :: lines) (e :: es)

/-- The entry has a whole number of bytes. -/
def KatEntry.Aligned (e : KatEntry) : Prop := decimalValue e.len % 8 = 0

instance (e : KatEntry) : Decidable e.Aligned := inferInstanceAs (Decidable (_ = _))

/-- What an entry claims: the message text has the bytes, and their digest is the one given, in either case. -/
def KatEntry.Claim (h : List UInt8 → List UInt8) (e : KatEntry) : Prop :=
  ∃ bytes, lower e.msg = hexOf bytes ∧ decimalValue e.len / 8 ≤ bytes.length ∧ lower e.md = hexOf (h (bytes.take (decimalValue e.len / 8)))

end LCT.Spec
