import Verif.Model.Crypto.Ecdsa

/-!
# Textual encodings of signatures and points

Models `/repo/src/crypto/p1363.rs`, `/repo/src/crypto/sec1.rs` and `/repo/src/crypto/ecdsa/ecdsa_encoding.rs`.  Text is the list of its
bytes.
-/

namespace LCT.Crypto
open LCT.BigInt LCT.Modular LCT.Curve
variable {ε : Type}

/-- `{hex:0>len$}`: padding on the left with `0` (48) up to `len` characters; no padding if the text is longer. -/
def padHex (len : Nat) (hex : List UInt8) : List UInt8 := List.replicate (len - hex.length) 48 ++ hex

/-- `match BigInt::from_hex(t) { Ok(x) => x, Err(_) => return Err(e) }`. -/
def fromHexOr (w : Nat) (e : ε) (t : List UInt8) : Out ε BInt :=
  match BInt.fromHex w t with
  | .ok x => .ok x
  | .err _ => .err e
  | .panic => .panic
  | .hang => .hang

/-! ## P1363 -/

/-- `/repo/src/crypto/p1363.rs:19-24` `SignatureDecodingError`. -/
inductive SignatureDecodingError where
  | InvalidFormat
  | InvalidSignature
  deriving Repr, DecidableEq

/-- `/repo/src/crypto/p1363.rs:38-68` `P1363::decode`, which is `Signature::from_p1363_hex` (`/repo/src/crypto/ecdsa/ecdsa_encoding.rs:24-30`
only unboxes the error). -/
def Signature.fromP1363Hex (m : Build) (w : Nat) (data : List UInt8) (cp : Params) : Out SignatureDecodingError Signature := do
  let bl ← BInt.byteLen m w cp.order
  let el := bl * 2
  failIf .InvalidFormat (data.length != el * 2)
  let r ← fromHexOr w .InvalidFormat (data.take el)
  let s ← fromHexOr w .InvalidFormat (data.drop el)
  let o ← Signature.new m w r s cp
  match o with
  | some sig => return sig
  | none => .err .InvalidSignature

/-- `/repo/src/crypto/p1363.rs:74-80` `P1363::encode`, which is `Signature::to_p1363_hex` (`/repo/src/crypto/ecdsa/ecdsa_encoding.rs:33-35`). -/
def Signature.toP1363Hex (m : Build) (w : Nat) (sig : Signature) : Out ε (List UInt8) := do
  let bl ← BInt.byteLen m w sig.params.order
  let el := bl * 2
  let r ← BInt.toLowerHex m w sig.r
  let s ← BInt.toLowerHex m w sig.s
  return padHex el r ++ padHex el s

/-! ## SEC1 -/

/-- `/repo/src/crypto/sec1.rs:16-24` `PointDecodingError`. -/
inductive PointDecodingError where
  | InvalidFormat
  | InvalidX
  | InvalidY
  | YNotFound
  | InvalidPoint
  deriving Repr, DecidableEq

/-- `/repo/src/crypto/sec1.rs:78-83` (and 126-131): the point, if it is valid. -/
def checkPoint (m : Build) (w : Nat) (cp : Params) (pt : Point) : Out PointDecodingError Point := do
  let ok ← cp.validatePoint m w pt
  if !ok then .err .InvalidPoint else return pt

/-- `/repo/src/crypto/sec1.rs:58-83`: the uncompressed form. -/
def decodeUncompressed (m : Build) (w : Nat) (cp : Params) (el : Nat) (hex : List UInt8) : Out PointDecodingError Point := do
  failIf .InvalidFormat (hex.length != el * 2 + 2)
  let x ← fromHexOr w .InvalidX ((hex.take (el + 2)).drop 2)
  let y ← fromHexOr w .InvalidY (hex.drop (el + 2))
  checkPoint m w cp ⟨x, y⟩

/-- `/repo/src/crypto/sec1.rs:109-123`: the choice of the root; the even one if `even`. -/
def chooseRoot (even : Bool) (root1 root2 : BInt) : Out ε BInt := do
  if even then do
    let b ← BInt.isEven root1
    return if b then root1 else root2
  else do
    let b ← BInt.isOdd root1
    return if b then root1 else root2

/-- `/repo/src/crypto/sec1.rs:89-131`: the compressed form. -/
def decodeCompressed (m : Build) (w : Nat) (cp : Params) (hex : List UInt8) : Out PointDecodingError Point := do
  let x ← fromHexOr w .InvalidX (hex.drop 2)
  let y2 ← rhs m w cp.curve x
  let y2 ← modulo m w y2 cp.curve.p
  let roots ← sqrt m w y2 cp.curve.p
  match roots with
  | none => .err .YNotFound
  | some (root1, root2) => do
    let y ← chooseRoot (hex.take 2 == [48, 50]) root1 root2
    checkPoint m w cp ⟨x, y⟩

/-- `/repo/src/crypto/sec1.rs:46-132` `Sec1::decode_point`.  The prefixes are `04` = `[48, 52]`, `02` = `[48, 50]` and `03` = `[48, 51]`. -/
def decodePoint (m : Build) (w : Nat) (hex : List UInt8) (cp : Params) : Out PointDecodingError Point := do
  let bl ← BInt.byteLen m w cp.order
  let el := bl * 2
  failIf .InvalidFormat (decide (hex.length < el + 2))
  if hex.take 2 == [48, 52] then decodeUncompressed m w cp el hex
  else do
    failIf .InvalidFormat (hex.take 2 != [48, 50] && hex.take 2 != [48, 51])
    decodeCompressed m w cp hex

/-- `/repo/src/crypto/sec1.rs:145-166` `Sec1::encode_point`. -/
def encodePoint (m : Build) (w : Nat) (pt : Point) (cp : Params) (compressed : Bool) : Out ε (List UInt8) := do
  let okX ← inOrderRange m w pt.x cp.order
  rassert okX
  let okY ← inOrderRange m w pt.y cp.order
  rassert okY
  let bl ← BInt.byteLen m w cp.order
  let hexLen := bl * 2
  if compressed then do
    let even ← BInt.isEven pt.y
    let x ← BInt.toLowerHex m w pt.x
    if even then return [48, 50] ++ padHex hexLen x
    else return [48, 51] ++ padHex hexLen x
  else do
    let bytes ← cp.pointToBytes m w pt
    return [48, 52] ++ Codecs.bytesToLowerHex bytes

/-- `/repo/src/crypto/ecdsa/ecdsa_encoding.rs:40-53` `PublicKey::from_sec1_hex`. -/
def PublicKey.fromSec1Hex (m : Build) (w : Nat) (hex : List UInt8) (cp : Params) : Out PointDecodingError PublicKey := do
  let pt ← decodePoint m w hex cp
  return ⟨pt, cp⟩

/-- `/repo/src/crypto/ecdsa/ecdsa_encoding.rs:56-58` `PublicKey::to_sec1_hex`. -/
def PublicKey.toSec1Hex (m : Build) (w : Nat) (pk : PublicKey) (compressed : Bool) : Out ε (List UInt8) :=
  encodePoint m w pk.data pk.params compressed

end LCT.Crypto
