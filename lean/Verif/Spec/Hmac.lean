import Verif.Model.Hash.Core

/-!
# HMAC (RFC 2104) and what it means for a hasher to compute a function (specification)
-/

namespace LCT.Spec
open LCT.Hash

/-- The hasher `H` computes the function `h` on all messages shorter than `limit`, whatever it was used for before, and the values of `h`
have the length that `H` announces. -/
structure Computes (H : Hasher) (h : List UInt8 → List UInt8) (limit : Nat) : Prop where
  digest : ∀ (ε : Type) (m : Build) (st : H.State) (msg : List UInt8), msg.length < limit →
    ∃ st', (H.digest m st msg : Out ε _) = .ok (h msg, st')
  length : ∀ msg, (h msg).length = H.outLen

/-- RFC 2104: `K0` is the key, hashed if it is longer than a block, followed by zeros up to the length of a block. -/
def hmacKey (h : List UInt8 → List UInt8) (block : Nat) (key : List UInt8) : List UInt8 :=
  let k := if key.length ≤ block then key else h key
  k ++ List.replicate (block - k.length) 0

/-- RFC 2104: `H((K0 xor opad) || H((K0 xor ipad) || m))`. -/
def hmac (h : List UInt8 → List UInt8) (block : Nat) (key msg : List UInt8) : List UInt8 :=
  let k0 := hmacKey h block key
  h (k0.map (· ^^^ 0x5c) ++ h (k0.map (· ^^^ 0x36) ++ msg))

end LCT.Spec
