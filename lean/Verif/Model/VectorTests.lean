import Verif.Model.Crypto.Ecdsa
import Verif.Model.Crypto.Encoding
import Verif.Model.RandomTests

/-!
# The tests with published vectors

`/repo/tests/crypto/ecdsa_verifying_wycheproof.rs`, `hmac_wycheproof.rs` and `sha3_short_msg_kat.rs`.  A failed assertion is a panic.  Reading
the file is not modelled: the JSON files of the first two arrive as groups of vectors with the strings that the tests take out of them, the text
file of the third as lines.
-/

namespace LCT.VectorTests
open LCT.BigInt LCT.Out LCT.Crypto LCT.Hash LCT.Codecs LCT.RandomTests

/-- `value["result"]`; the tests distinguish three strings. -/
inductive Label
  | valid | invalid | acceptable | other
  deriving DecidableEq

/-- The strings that `/repo/tests/crypto/ecdsa_verifying_wycheproof.rs:104-106` takes out of a test. -/
structure EcdsaVector where
  msg : List UInt8
  sig : List UInt8
  result : Label

/-- `/repo/tests/crypto/ecdsa_verifying_wycheproof.rs:98-102`: a group has one public key. -/
structure EcdsaGroup where
  key : List UInt8
  tests : List EcdsaVector

/-- `/repo/tests/crypto/ecdsa_verifying_wycheproof.rs:108-136`: one test. -/
def ecdsaTest (m : Build) (w : Nat) (H : Hasher) (cp : Params) (publicKey : PublicKey) (hasher : H.State) (v : EcdsaVector) :
    Out Unit H.State :=
  match Signature.fromP1363Hex m w v.sig cp with
  | .panic => .panic
  | .hang => .hang
  | .err _ => do
    rassert (v.result == .invalid || v.result == .acceptable)
    return hasher
  | .ok signature => do
    let bytes ← unwrapped (hexToBytes v.msg)
    let (hash, hasher) ← H.digest m hasher bytes
    match verifyWithOptions m w hash signature publicKey { enforceLowS := false, strictHashByteLength := false } with
    | .panic => .panic
    | .hang => .hang
    | .err _ => do
      rassert (v.result == .invalid)
      return hasher
    | .ok true => do
      rassert (v.result == .valid)
      return hasher
    | .ok false => do
      rassert (v.result == .invalid)
      return hasher

/-- `/repo/tests/crypto/ecdsa_verifying_wycheproof.rs:103-137`: the tests of a group. -/
def ecdsaTests (m : Build) (w : Nat) (H : Hasher) (cp : Params) (publicKey : PublicKey) : H.State → List EcdsaVector → Out Unit H.State
  | hasher, [] => .ok hasher
  | hasher, v :: vs => do
    let hasher ← ecdsaTest m w H cp publicKey hasher v
    ecdsaTests m w H cp publicKey hasher vs

/-- `/repo/tests/crypto/ecdsa_verifying_wycheproof.rs:97-138`: the groups of a file. -/
def ecdsaFile (m : Build) (w : Nat) (H : Hasher) (cp : Params) : H.State → List EcdsaGroup → Out Unit H.State
  | hasher, [] => .ok hasher
  | hasher, g :: gs => do
    let publicKey ← unwrapped (PublicKey.fromSec1Hex m w g.key cp)
    let hasher ← ecdsaTests m w H cp publicKey hasher g.tests
    ecdsaFile m w H cp hasher gs

/-- The strings that `/repo/tests/crypto/hmac_wycheproof.rs:38-41` takes out of a test. -/
structure HmacVector where
  key : List UInt8
  msg : List UInt8
  tag : List UInt8
  result : Label

/-- `/repo/tests/crypto/hmac_wycheproof.rs:34-36`: a group has one length of tags, in bits. -/
structure HmacGroup where
  tagSize : Nat
  tests : List HmacVector

/-- `/repo/tests/crypto/hmac_wycheproof.rs:43-52`: one test. -/
def hmacTest (m : Build) (H : Hasher) (tagBytes : Nat) (hasher : H.State) (v : HmacVector) : Out Unit H.State := do
  let key ← unwrapped (hexToBytes v.key)
  let msg ← unwrapped (hexToBytes v.msg)
  let (digest, hasher) ← hmac m H hasher key msg
  rassert (decide (tagBytes ≤ digest.length))
  if bytesToLowerHex (digest.take tagBytes) == v.tag then
    rassert (v.result == .valid)
    return hasher
  else
    rassert (v.result == .invalid)
    return hasher

/-- `/repo/tests/crypto/hmac_wycheproof.rs:37-53`: the tests of a group. -/
def hmacTests (m : Build) (H : Hasher) (tagBytes : Nat) : H.State → List HmacVector → Out Unit H.State
  | hasher, [] => .ok hasher
  | hasher, v :: vs => do
    let hasher ← hmacTest m H tagBytes hasher v
    hmacTests m H tagBytes hasher vs

/-- `/repo/tests/crypto/hmac_wycheproof.rs:32-54`: the groups of a file. -/
def hmacFile (m : Build) (H : Hasher) : H.State → List HmacGroup → Out Unit H.State
  | hasher, [] => .ok hasher
  | hasher, g :: gs => do
    let hasher ← hmacTests m H (g.tagSize / 8) hasher g.tests
    hmacFile m H hasher gs

/-- `line.split('=').skip(1).next().unwrap()` of the standard library: what is between the first and the second `=`. -/
def secondPiece (line : List UInt8) : Out Unit (List UInt8) :=
  match line.dropWhile (· != 61) with
  | [] => .panic
  | _ :: rest => .ok (rest.takeWhile (· != 61))

/-- White space, for ASCII text. -/
def isBlank (c : UInt8) : Bool := c == 32 || (9 ≤ c && c ≤ 13)

/-- `str::trim`. -/
def trim (s : List UInt8) : List UInt8 := ((s.dropWhile isBlank).reverse.dropWhile isBlank).reverse

/-- The digits of `parse::<usize>()`, with the check for overflow after each of them. -/
def parseDigits : Nat → List UInt8 → Out Unit Nat
  | acc, [] => .ok acc
  | acc, c :: cs =>
    if 48 ≤ c ∧ c ≤ 57 then
      let acc := acc * 10 + (c.toNat - 48)
      if acc < 2 ^ 64 then parseDigits acc cs else .panic
    else .panic

/-- `s.parse::<usize>().unwrap()`: an optional plus sign and at least one digit. -/
def parseUsize : List UInt8 → Out Unit Nat
  | [] => .panic
  | c :: cs => if c == 43 then (if cs.isEmpty then .panic else parseDigits 0 cs) else parseDigits 0 (c :: cs)

/-- `str::to_lowercase`, for ASCII text. -/
def toLowercase (s : List UInt8) : List UInt8 := s.map fun c => if 65 ≤ c ∧ c ≤ 90 then c + 32 else c

/-- `"Len ="`. -/
def lenPrefix : List UInt8 := [76, 101, 110, 32, 61]

/-- `/repo/tests/crypto/sha3_short_msg_kat.rs:27-71`: the loop over the lines; the result is the number of messages compared. -/
def katLoop (m : Build) (H : Hasher) : H.State → Nat → List (List UInt8) → Out Unit Nat
  | _, count, [] => .ok count
  | hasher, count, line :: rest =>
    if !(lenPrefix.isPrefixOf line) then katLoop m H hasher count rest
    else do
      let piece ← secondPiece line
      let bitLen ← parseUsize (trim piece)
      if bitLen % 8 != 0 then katLoop m H hasher count rest
      else
        let byteLen := bitLen / 8
        match rest with
        | msgLine :: mdLine :: rest => do
          let msgPiece ← secondPiece msgLine
          let mdPiece ← secondPiece mdLine
          let md := toLowercase (trim mdPiece)
          let bytes ← unwrapped (hexToBytes (trim msgPiece))
          rassert (decide (byteLen ≤ bytes.length))
          let (digest, hasher) ← H.digest m hasher (bytes.take byteLen)
          rassert (bytesToLowerHex digest == md)
          katLoop m H hasher (count + 1) rest
        | _ => .panic

/-- `/repo/tests/crypto/sha3_short_msg_kat.rs:23-74` `test_sha3_short_msg_kat_core`, on the lines of the file; reading them does not fail. -/
def katFile (m : Build) (H : Hasher) (hasher : H.State) (lines : List (List UInt8)) : Out Unit Unit := do
  let count ← katLoop m H hasher 0 lines
  rassert (decide (200 < count))

end LCT.VectorTests
