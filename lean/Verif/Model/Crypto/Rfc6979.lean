import Verif.Model.Crypto.Ecdsa
import Verif.Model.Hash.Core
import Verif.Model.Random

/-!
# Deterministic nonces

Models `/repo/src/crypto/rfc6979.rs`.
-/

namespace LCT.Crypto
open LCT.BigInt LCT.Hash LCT.Random LCT.Modular LCT.Curve
variable {ε : Type}

/-- `/repo/src/crypto/rfc6979.rs:16-28` `Rfc6979`. -/
structure Rfc6979 where
  q : BInt
  qlen : Nat
  rlen : Nat
  extra : Bool

/-- `/repo/src/crypto/rfc6979.rs:31-41` `new`. -/
def Rfc6979.new (m : Build) (w : Nat) (q : BInt) (extra : Bool) : Out ε Rfc6979 := do
  let qlen ← BInt.bitLen m w q
  let rlen := ((qlen + 7) / 8) * 8
  return { q, qlen, rlen, extra }

/-- `/repo/src/crypto/rfc6979.rs:113-122` `bits2int`. -/
def Rfc6979.bits2int (m : Build) (w : Nat) (g : Rfc6979) (bytes : List UInt8) : Out ε BInt := do
  let n ← BInt.fromBeBytes w bytes .positive
  let blen := bytes.length * 8
  if blen > g.qlen then BInt.shr m w n (blen - g.qlen) else return n

/-- `/repo/src/crypto/rfc6979.rs:124-135` `int2octets`.  Appending zeros and rotating them to the front is modelled by prepending. -/
def Rfc6979.int2octets (m : Build) (w : Nat) (g : Rfc6979) (n : BInt) : Out ε (List UInt8) := do
  let lt ← BInt.lt m n g.q
  rassert lt
  let bytes ← BInt.toBeBytes m w n
  if g.rlen / 8 > bytes.length then return List.replicate (g.rlen / 8 - bytes.length) 0 ++ bytes
  else return bytes

/-- `/repo/src/crypto/rfc6979.rs:137-142` `bits2octets`. -/
def Rfc6979.bits2octets (m : Build) (w : Nat) (g : Rfc6979) (bytes : List UInt8) : Out ε (List UInt8) := do
  let z1 ← g.bits2int m w bytes
  let z2 ← BInt.rem m w z1 g.q
  g.int2octets m w z2

/-- `/repo/src/crypto/rfc6979.rs:147-149` `GenerateNonceError`. -/
inductive GenerateNonceError where
  | FailedToGenerateRandomBytes (e : RandomError)
  deriving Repr, DecidableEq

/-- The `while` loop `/repo/src/crypto/rfc6979.rs:91-95`, with fuel: extends `t` by further values of `V`.  Returns `T` and `V`. -/
def nonceBytes (m : Build) (H : Hasher) (qlen : Nat) (k : List UInt8) :
    Nat → H.State → List UInt8 → List UInt8 → Out ε (List UInt8 × List UInt8 × H.State)
  | 0, st, v, t => if t.length * 8 < qlen then .hang else .ok (t, v, st)
  | f + 1, st, v, t =>
    if t.length * 8 < qlen then do
      let (v, st) ← hmac m H st k v
      nonceBytes m H qlen k f st v (t ++ v)
    else .ok (t, v, st)

/-- The loop `/repo/src/crypto/rfc6979.rs:86-109`, with fuel.  Each round of the inner loop adds at least one byte (no hash has output
length zero), hence its fuel. -/
def nonceLoop (m : Build) (w : Nat) (H : Hasher) (g : Rfc6979) :
    Nat → H.State → List UInt8 → List UInt8 → Out ε (BInt × H.State)
  | 0, _, _, _ => .hang
  | f + 1, st, k, v => do
    let (t, v, st) ← nonceBytes m H g.qlen k g.qlen st v []
    let nonce ← g.bits2int m w t
    let ok ← inOrderRange m w nonce g.q
    if ok then return (nonce, st)
    else do
      let (k, st) ← hmac m H st k (v ++ [0])
      let (v, st) ← hmac m H st k v
      nonceLoop m w H g f st k v

/-- `/repo/src/crypto/rfc6979.rs:51-62`: the secret and message part of the seed.  `rand` is the outcome of asking the operating system for
32 bytes. -/
def keyAndMsg (m : Build) (w : Nat) (g : Rfc6979) (hash : List UInt8) (key : PrivateKey) (rand : Out RandomError (List UInt8)) :
    Out GenerateNonceError (List UInt8) := do
  let a ← g.int2octets m w key.data
  let b ← g.bits2octets m w hash
  if g.extra then do
    let bytes ← rand.mapErr .FailedToGenerateRandomBytes
    return a ++ b ++ bytes
  else return a ++ b

/-- `/repo/src/crypto/rfc6979.rs:43-110` `generate_nonce`.  `fuel` bounds the number of candidates tried. -/
def Rfc6979.generateNonce (m : Build) (w : Nat) (H : Hasher) (fuel : Nat) (g : Rfc6979) (hash : List UInt8) (key : PrivateKey)
    (st : H.State) (rand : Out RandomError (List UInt8)) : Out GenerateNonceError (BInt × H.State) := do
  dassertM m (BInt.beq m g.q key.params.order)
  let km ← keyAndMsg m w g hash key rand
  let v := List.replicate H.outLen 1
  let k := List.replicate H.outLen 0
  let (k, st) ← hmac m H st k (v ++ [0] ++ km)
  let (v, st) ← hmac m H st k v
  let (k, st) ← hmac m H st k (v ++ [1] ++ km)
  let (v, st) ← hmac m H st k v
  nonceLoop m w H g fuel st k v

end LCT.Crypto
