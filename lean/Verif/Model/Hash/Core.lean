import Verif.Basic

/-!
# The hash function interface and HMAC

Models `/repo/src/crypto/hash/core.rs` and `/repo/src/crypto/hash/hmac.rs`.
-/

namespace LCT.Hash

/-- `/repo/src/crypto/hash/core.rs:7-12` `UnkeyedHash`: a type of hasher objects (`State`) with the two lengths and `digest`, which may
change the object.  `fresh` is the object made by `new()`. -/
structure Hasher where
  State : Type
  fresh : State
  blockLen : Nat
  outLen : Nat
  digest : {ε : Type} → Build → State → List UInt8 → Out ε (List UInt8 × State)

/-- `for (k, t) in zip(k0, t.iter_mut()) { *t ^= k }`: `/repo/src/crypto/hash/hmac.rs:42-44,57-59`. -/
def xorInto : List UInt8 → List UInt8 → List UInt8
  | [], _ => []
  | t, [] => t
  | a :: t, b :: k => (a ^^^ b) :: xorInto t k

/-- `/repo/src/crypto/hash/hmac.rs:27-37`: the key brought to the length of a block, except that a hashed key stays as short as it is. -/
def blockKey {ε : Type} (m : Build) (H : Hasher) (st : H.State) (key : List UInt8) : Out ε (List UInt8 × H.State) :=
  if key.length < H.blockLen then .ok (key ++ List.replicate (H.blockLen - key.length) 0, st)
  else if key.length = H.blockLen then .ok (key, st)
  else H.digest m st key

/-- `/repo/src/crypto/hash/hmac.rs:13-68` `hmac`. -/
def hmac {ε : Type} (m : Build) (H : Hasher) (st : H.State) (key message : List UInt8) : Out ε (List UInt8 × H.State) := do
  let (k0, st) ← blockKey m H st key
  let t := xorInto (List.replicate H.blockLen 0x36) k0 ++ message
  let (inner, st) ← H.digest m st t
  let t := xorInto (List.replicate H.blockLen 0x5c) k0 ++ inner
  H.digest m st t

end LCT.Hash
