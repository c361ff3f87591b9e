import Verif.Model.Crypto.Params

/-!
# ECDSA keys, signing with a given nonce, and verification

Models `/repo/src/crypto/ecdsa/ecdsa_key.rs`, `ecdsa_core.rs` and `ecdsa_verifying.rs`.
-/

namespace LCT.Crypto
open LCT.BigInt LCT.Modular LCT.Curve
variable {ε : Type}

/-- `/repo/src/crypto/ecdsa/ecdsa_key.rs:11-14` `PrivateKey`. -/
structure PrivateKey where
  data : BInt
  params : Params

/-- `/repo/src/crypto/ecdsa/ecdsa_key.rs:16-20` `PublicKey`. -/
structure PublicKey where
  data : Point
  params : Params

/-- `x > 0 && x < n`: `/repo/src/crypto/ecdsa/ecdsa_key.rs:29`, `ecdsa_core.rs:36,37,65`. -/
def inOrderRange (m : Build) (w : Nat) (x n : BInt) : Out ε Bool := do
  let z ← BInt.zero w
  let b ← BInt.gt m x z
  if b then BInt.lt m x n else return false

/-- `/repo/src/crypto/ecdsa/ecdsa_key.rs:23-30` `PrivateKey::new`. -/
def PrivateKey.new (m : Build) (w : Nat) (data : BInt) (cp : Params) : Out ε (Option PrivateKey) := do
  let ok ← inOrderRange m w data cp.order
  return if ok then some ⟨data, cp⟩ else none

/-- `/repo/src/crypto/ecdsa/ecdsa_key.rs:43-50` `PublicKey::new`. -/
def PublicKey.new (m : Build) (w : Nat) (data : Point) (cp : Params) : Out ε (Option PublicKey) := do
  let ok ← cp.validatePoint m w data
  return if ok then some ⟨data, cp⟩ else none

/-- `/repo/src/crypto/ecdsa/ecdsa_key.rs:32-39` `public_key`. -/
def PrivateKey.publicKey (m : Build) (w : Nat) (k : PrivateKey) : Out ε PublicKey := do
  let q ← mulPoint m w k.params.curve k.params.basePoint k.data
  let o ← PublicKey.new m w q k.params
  unwrap o

/-- `/repo/src/crypto/ecdsa/ecdsa_core.rs:15-20` `Signature`. -/
structure Signature where
  r : BInt
  s : BInt
  params : Params

/-- `/repo/src/crypto/ecdsa/ecdsa_core.rs:28-37` `is_valid`. -/
def Signature.isValid (m : Build) (w : Nat) (sig : Signature) : Out ε Bool := do
  let b ← inOrderRange m w sig.r sig.params.order
  if b then inOrderRange m w sig.s sig.params.order else return false

/-- `/repo/src/crypto/ecdsa/ecdsa_core.rs:23-26` `Signature::new`. -/
def Signature.new (m : Build) (w : Nat) (r s : BInt) (cp : Params) : Out ε (Option Signature) := do
  let ok ← Signature.isValid m w ⟨r, s, cp⟩
  return if ok then some ⟨r, s, cp⟩ else none

/-- `/repo/src/crypto/ecdsa/ecdsa_core.rs:39-45` `is_low_s_signature`. -/
def Signature.isLowS (m : Build) (w : Nat) (sig : Signature) : Out ε Bool := do
  dassertM m (BInt.isOdd sig.params.order)
  let half ← BInt.shr m w sig.params.order 1
  BInt.le m sig.s half

/-- `/repo/src/crypto/ecdsa/ecdsa_core.rs:197-204` `SignatureRecoveryId`. -/
inductive RecoveryId where
  | LowXEvenY
  | LowXOddY
  | HighXEvenY
  | HighXOddY
  deriving Repr, DecidableEq

/-- `self as u8`, from the discriminants at `/repo/src/crypto/ecdsa/ecdsa_core.rs:200-203`. -/
def RecoveryId.toU8 : RecoveryId → UInt8
  | .LowXEvenY => 0
  | .LowXOddY => 1
  | .HighXEvenY => 2
  | .HighXOddY => 3

/-- `/repo/src/crypto/ecdsa/ecdsa_core.rs:207-215` `from_u8`. -/
def RecoveryId.fromU8 (n : UInt8) : Option RecoveryId :=
  match n with
  | 0 => some .LowXEvenY
  | 1 => some .LowXOddY
  | 2 => some .HighXEvenY
  | 3 => some .HighXOddY
  | _ => none

/-- `/repo/src/crypto/ecdsa/ecdsa_core.rs:226-231` `YParity`. -/
inductive YParity where
  | Even
  | Odd
  deriving Repr, DecidableEq

/-- `self as u8`. -/
def YParity.toU8 : YParity → UInt8
  | .Even => 0
  | .Odd => 1

/-- `/repo/src/crypto/ecdsa/ecdsa_core.rs:234-240` `YParity::from_u8`. -/
def YParity.fromU8 (n : UInt8) : Option YParity :=
  match n with
  | 0 => some .Even
  | 1 => some .Odd
  | _ => none

/-- `/repo/src/crypto/ecdsa/ecdsa_core.rs:217-222` `y_parity`. -/
def RecoveryId.yParity : RecoveryId → YParity
  | .LowXOddY | .HighXOddY => .Odd
  | .LowXEvenY | .HighXEvenY => .Even

/-- `b as u8` for a `bool`. -/
def boolU8 (b : Bool) : UInt8 := if b then 1 else 0

/-- `/repo/src/crypto/ecdsa/ecdsa_core.rs:56-95` `PrivateKey::sign`, for a given nonce. -/
def PrivateKey.sign (m : Build) (w : Nat) (key : PrivateKey) (hash k : BInt) : Out ε (Option (Signature × RecoveryId)) := do
  let hl ← BInt.bitLen m w hash
  let nl ← BInt.bitLen m w key.params.order
  rassert (decide (hl ≤ nl))
  let kOk ← inOrderRange m w k key.params.order
  rassert kOk
  let kg ← mulPoint m w key.params.curve key.params.basePoint k
  let r ← modulo m w kg.x key.params.order
  let rz ← BInt.isZero m r
  if rz then return none
  else do
    let rd ← BInt.mul m w r key.data
    let t ← BInt.add m w hash rd
    let kInv ← invertUnwrap m w k key.params.order
    let s ← BInt.mul m w t kInv
    let s ← modulo m w s key.params.order
    let sz ← BInt.isZero m s
    if sz then return none
    else do
      let same ← BInt.beq m kg.x r
      let odd ← BInt.isOdd kg.y
      let id ← unwrap (RecoveryId.fromU8 (boolU8 (!same) <<< 1 ||| boolU8 odd))
      let sig ← Signature.new m w r s key.params
      let sig ← unwrap sig
      return some (sig, id)

/-- `/repo/src/crypto/ecdsa/ecdsa_core.rs:111-135` `PublicKey::verify`. -/
def PublicKey.verify (m : Build) (w : Nat) (pk : PublicKey) (hash : BInt) (sig : Signature) : Out ε Bool := do
  let hl ← BInt.bitLen m w hash
  let nl ← BInt.bitLen m w pk.params.order
  rassert (decide (hl ≤ nl))
  let wi ← invertUnwrap m w sig.s pk.params.order
  let u ← BInt.mul m w wi hash
  let u ← modulo m w u pk.params.order
  let v ← BInt.mul m w wi sig.r
  let v ← modulo m w v pk.params.order
  let ug ← mulPoint m w pk.params.curve pk.params.basePoint u
  let vp ← mulPoint m w pk.params.curve pk.data v
  let q ← addPoints m w pk.params.curve ug vp
  let qx ← modulo m w q.x pk.params.order
  BInt.beq m qx sig.r

/-- `/repo/src/crypto/ecdsa/ecdsa_core.rs:139-150` `hash_length_matches_base_point_order`. -/
def hashLengthMatches (m : Build) (w : Nat) (len : Nat) (cp : Params) : Out ε Bool := do
  dassertM m (do let bl ← BInt.bitLen m w cp.order; return bl % 8 == 0)
  let bl ← BInt.bitLen m w cp.order
  return len * 8 == bl

/-- `/repo/src/crypto/ecdsa/ecdsa_core.rs:154-174` `from_be_bytes_with_max_bits_len`, for the only sign it is used with. -/
def fromBeBytesMaxBits (m : Build) (w : Nat) (bytes : List UInt8) (maxBits : Nat) : Out ε BInt := do
  dassert m (decide (maxBits > 0))
  if bytes.length * 8 ≤ maxBits then BInt.fromBeBytes w bytes .positive
  else
    let bytesLen := maxBits / 8
    let rest := maxBits % 8
    if rest = 0 then BInt.fromBeBytes w (bytes.take bytesLen) .positive
    else do
      let n ← BInt.fromBeBytes w (bytes.take (bytesLen + 1)) .positive
      BInt.shr m w n (8 - rest)

/-- `/repo/src/crypto/ecdsa/ecdsa_verifying.rs:59-62` `VerifyingOptions`. -/
structure VerifyingOptions where
  enforceLowS : Bool
  strictHashByteLength : Bool

/-- `/repo/src/crypto/ecdsa/ecdsa_verifying.rs:64-72`: the default options. -/
def VerifyingOptions.default : VerifyingOptions := ⟨false, true⟩

/-- `/repo/src/crypto/ecdsa/ecdsa_verifying.rs:74-81` `VerifyingError`. -/
inductive VerifyingError where
  | EmptyHashNotAllowed
  | ZeroHashNotAllowed
  | StrictHighSFound
  | HashBitLengthDoesNotMatchBasePointOrder
  deriving Repr, DecidableEq

/-- `if c then return Err(e)`, where `c` is the value of a condition with short-circuit `&&`. -/
def failIf (e : ε) (c : Bool) : Out ε Unit := if c then .err e else .ok ()

/-- `/repo/src/crypto/ecdsa/ecdsa_verifying.rs:26-57` `verify_with_options`. -/
def verifyWithOptions (m : Build) (w : Nat) (hash : List UInt8) (sig : Signature) (pk : PublicKey) (o : VerifyingOptions) :
    Out VerifyingError Bool := do
  failIf .EmptyHashNotAllowed hash.isEmpty
  let low ← (if o.enforceLowS then sig.isLowS m w else pure true : Out VerifyingError Bool)
  failIf .StrictHighSFound (!low)
  let len ← (if o.strictHashByteLength then hashLengthMatches m w hash.length pk.params else pure true : Out VerifyingError Bool)
  failIf .HashBitLengthDoesNotMatchBasePointOrder (!len)
  let nl ← BInt.bitLen m w pk.params.order
  let hashN ← fromBeBytesMaxBits m w hash nl
  let z ← BInt.isZero m hashN
  failIf .ZeroHashNotAllowed z
  pk.verify m w hashN sig

/-- `/repo/src/crypto/ecdsa/ecdsa_verifying.rs:18-24` `verify`. -/
def verify (m : Build) (w : Nat) (hash : List UInt8) (sig : Signature) (pk : PublicKey) : Out VerifyingError Bool :=
  verifyWithOptions m w hash sig pk .default

end LCT.Crypto
