import Verif.Model.Crypto.Ecdsa

/-!
# Public key recovery

Models `/repo/src/crypto/ecdsa/ecdsa_public_key_recovery.rs`.
-/

namespace LCT.Crypto
open LCT.BigInt LCT.Modular LCT.Curve
variable {ε : Type}

/-- `/repo/src/crypto/ecdsa/ecdsa_public_key_recovery.rs:167-174` `RecoveryError`. -/
inductive RecoveryError where
  | EmptyHashNotAllowed
  | ZeroHashNotAllowed
  | HashBitLengthDoesNotMatchBasePointOrder
  | InvalidSignature
  deriving Repr, DecidableEq

/-- `/repo/src/crypto/ecdsa/ecdsa_public_key_recovery.rs:154-156` `RecoveryOptions`. -/
structure RecoveryOptions where
  strictHashByteLength : Bool

/-- `/repo/src/crypto/ecdsa/ecdsa_public_key_recovery.rs:158-165`: the default options. -/
def RecoveryOptions.default : RecoveryOptions := ⟨true⟩

/-- `/repo/src/crypto/ecdsa/ecdsa_public_key_recovery.rs:62-72`: the bounds of `j`. -/
def recoveryBounds (cp : Params) : Option RecoveryId → Nat × Nat
  | some .LowXEvenY | some .LowXOddY => (0, 0)
  | some .HighXEvenY | some .HighXOddY => (1, cp.cofactor)
  | none => (0, cp.cofactor)

/-- `/repo/src/crypto/ecdsa/ecdsa_public_key_recovery.rs:103-127`: the candidate points with abscissa `x`, where `y1` and `y2` are the
square roots found. -/
def recoveryPoints (x y1 y2 : BInt) : Option RecoveryId → Out ε (List Point)
  | some .LowXEvenY | some .HighXEvenY => do
    let even ← BInt.isEven y1
    return if even then [⟨x, y1⟩] else [⟨x, y2⟩]
  | some .LowXOddY | some .HighXOddY => do
    let odd ← BInt.isOdd y1
    return if odd then [⟨x, y1⟩] else [⟨x, y2⟩]
  | none => return [⟨x, y1⟩, ⟨x, y2⟩]

/-- `/repo/src/crypto/ecdsa/ecdsa_public_key_recovery.rs:129-148`: the body of the loop over the candidate points; the key pushed, if any. -/
def recoverKey (m : Build) (w : Nat) (sig : Signature) (hashN eNeg rInv : BInt) (pt : Point) : Out ε (Option PublicKey) := do
  let sr ← mulPoint m w sig.params.curve pt sig.s
  let eg ← mulPoint m w sig.params.curve sig.params.basePoint eNeg
  let q ← addPoints m w sig.params.curve sr eg
  let q ← mulPoint m w sig.params.curve q rInv
  let o ← PublicKey.new m w q sig.params
  match o with
  | none => return none
  | some pk => do
    let ok ← pk.verify m w hashN sig
    return if ok then some pk else none

/-- `/repo/src/crypto/ecdsa/ecdsa_public_key_recovery.rs:129-148`: the loop over the candidate points; the keys pushed. -/
def recoverKeys (m : Build) (w : Nat) (sig : Signature) (hashN eNeg rInv : BInt) : List Point → Out ε (List PublicKey)
  | [] => return []
  | pt :: pts => do
    let o ← recoverKey m w sig hashN eNeg rInv pt
    let rest ← recoverKeys m w sig hashN eNeg rInv pts
    return o.toList ++ rest

/-- `/repo/src/crypto/ecdsa/ecdsa_public_key_recovery.rs:83-149`: the loop over `j`, running through `count` values from `j` on; the keys
pushed. -/
def recoverLoop (m : Build) (w : Nat) (sig : Signature) (id : Option RecoveryId) (hashN eNeg rInv : BInt) (j : Nat) :
    (count : Nat) → Out ε (List PublicKey)
  | 0 => return []
  | count + 1 => do
    let jb ← BInt.ofNat w j
    let jn ← BInt.mul m w jb sig.params.order
    let x ← BInt.add m w sig.r jn
    let large ← BInt.ge m x sig.params.curve.p
    if large then return []
    else do
      let y2 ← rhs m w sig.params.curve x
      let y2 ← modulo m w y2 sig.params.curve.p
      let roots ← sqrt m w y2 sig.params.curve.p
      match roots with
      | none => recoverLoop m w sig id hashN eNeg rInv (j + 1) count
      | some (r1, r2) => do
        let pts ← recoveryPoints x r1 r2 id
        let keys ← recoverKeys m w sig hashN eNeg rInv pts
        let rest ← recoverLoop m w sig id hashN eNeg rInv (j + 1) count
        return keys ++ rest

/-- `/repo/src/crypto/ecdsa/ecdsa_public_key_recovery.rs:34-152` `recover_public_keys_from_signature_with_options`. -/
def recoverWithOptions (m : Build) (w : Nat) (sig : Signature) (hash : List UInt8) (id : Option RecoveryId) (o : RecoveryOptions) :
    Out RecoveryError (List PublicKey) := do
  failIf .EmptyHashNotAllowed hash.isEmpty
  let len ← (if o.strictHashByteLength then hashLengthMatches m w hash.length sig.params else pure true : Out RecoveryError Bool)
  failIf .HashBitLengthDoesNotMatchBasePointOrder (!len)
  let nl ← BInt.bitLen m w sig.params.order
  let hashN ← fromBeBytesMaxBits m w hash nl
  let z ← BInt.isZero m hashN
  failIf .ZeroHashNotAllowed z
  let inv ← invert m w sig.r sig.params.order
  match inv with
  | none => .err .InvalidSignature
  | some rInv => do
    let eNeg ← modulo m w hashN.neg sig.params.order
    let lo := (recoveryBounds sig.params id).1
    let hi := (recoveryBounds sig.params id).2
    recoverLoop m w sig id hashN eNeg rInv lo (hi + 1 - lo)

/-- `/repo/src/crypto/ecdsa/ecdsa_public_key_recovery.rs:21-32` `recover_public_keys_from_signature`. -/
def recover (m : Build) (w : Nat) (sig : Signature) (hash : List UInt8) (id : Option RecoveryId) :
    Out RecoveryError (List PublicKey) :=
  recoverWithOptions m w sig hash id .default

end LCT.Crypto
