import Verif.Basic

/-!
# Hex codec

Models `/repo/src/crypto/codecs.rs`.  A `&str`/`String` is the list of its UTF-8 bytes (`hex_to_bytes` is generic over
`AsRef<[u8]>` and works on bytes only).
-/

namespace LCT.Codecs

/-- `/repo/src/crypto/codecs.rs:155-160` `CodecsError`. -/
inductive CodecsError where
  | InvalidCharFound
  | NotByteAligned
  deriving Repr, DecidableEq

/-- `/repo/src/crypto/codecs.rs:71-72`: one nibble, in `i8` arithmetic (`BitVec 8`, `>>` arithmetic). None of the `i8`
operations can overflow for a nibble (`nibble_no_overflow` in `Verif/Lemmas/Codecs.lean`), so debug and release builds agree. -/
def nibbleToChar (nibble : BitVec 8) : UInt8 :=
  ⟨(87#8 + nibble + (((nibble - 10#8).sshiftRight 7) &&& (-39#8)))⟩

/-- `/repo/src/crypto/codecs.rs:35-76` `bytes_to_lower_hex`. -/
def bytesToLowerHex : List UInt8 → List UInt8
  | [] => []
  | byte :: rest =>
    let low := (byte &&& 0x0f).toBitVec
    let high := (byte >>> 4).toBitVec
    nibbleToChar high :: nibbleToChar low :: bytesToLowerHex rest

/-- `/repo/src/crypto/codecs.rs:105-135` (and, identically, 138-146): value of one hex digit, in wrapping `u16` arithmetic;
`none` is the `InvalidCharFound` exit. -/
def charToNibble (ch : UInt8) : Option (BitVec 16) :=
  let c : BitVec 16 := ch.toBitVec.zeroExtend 16
  let cNum := c ^^^ 48#16
  let cNum0 := (cNum - 10#16) >>> 8
  let cAlpha := (c &&& ~~~32#16) - 55#16
  let cAlpha0 := ((cAlpha - 10#16) ^^^ (cAlpha - 16#16)) >>> 8
  if (cNum0 ||| cAlpha0) == 0#16 then none
  else some ((cNum0 &&& cNum) ||| (cAlpha0 &&& cAlpha))

/-- `/repo/src/crypto/codecs.rs:104-150`: the loop over 2-byte chunks. -/
def hexLoop : List UInt8 → Out CodecsError (List UInt8)
  | c1 :: c2 :: rest =>
    match charToNibble c1 with
    | none => .err .InvalidCharFound
    | some v1 =>
      let acc : UInt8 := ⟨v1.truncate 8 <<< 4⟩
      match charToNibble c2 with
      | none => .err .InvalidCharFound
      | some v2 =>
        let b : UInt8 := acc ||| ⟨v2.truncate 8⟩
        match hexLoop rest with
        | .ok bs => .ok (b :: bs)
        | r => r
  | _ => .ok []

/-- `/repo/src/crypto/codecs.rs:96-153` `hex_to_bytes`. -/
def hexToBytes (hex : List UInt8) : Out CodecsError (List UInt8) :=
  if hex.length &&& 1 == 0 then hexLoop hex else .err .NotByteAligned

end LCT.Codecs
