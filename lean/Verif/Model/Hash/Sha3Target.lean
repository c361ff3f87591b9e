import Verif.Model.Hash.Sha3

/-!
# SHA-3 and Keccak-256 on targets of either byte order

Models `/repo/src/crypto/hash/sha3/core.rs` without the assumption of a little-endian target that `Verif.Model.Hash.Sha3` makes: the words of the
state are given as the values that the target's processor sees, and the code looks at the same memory both as words and as bytes.
-/

namespace LCT.Hash.Sha3
open LCT.Hash.Sha2 (chunksExact remainder)
variable {ε : Type}

/-- `target_endian`: the order of the bytes of a word in the memory of the target. -/
inductive Endian where
  | little | big
  deriving Repr, DecidableEq

/-- `u64::from_ne_bytes` (standard library): the word whose bytes in memory these are. -/
def fromNe : Endian → List UInt8 → BitVec 64
  | .little, bs => BitVec.ofNat 64 (fromLE bs)
  | .big, bs => BitVec.ofNat 64 (fromBE bs)

/-- The bytes in memory of a word. -/
def toNe : Endian → BitVec 64 → List UInt8
  | .little, x => toLEk 8 x.toNat
  | .big, x => toBEk 8 x.toNat

/-- `u64::swap_bytes` (standard library): the byte of the least weight becomes that of the greatest, and so on. -/
def swapBytes (x : BitVec 64) : BitVec 64 := BitVec.ofNat 64 (fromBE (toLEk 8 x.toNat))

/-- `/repo/src/crypto/hash/sha3/core.rs:64-67` and `144-147`: `#[cfg(target_endian = "big")]`, every word of the state has its bytes swapped. -/
def swapOnBig : Endian → KState → KState
  | .little, s => s
  | .big, s => s.map swapBytes

/-- `/repo/src/crypto/hash/sha3/core.rs:61-148` `sha3_keccakf`, with the parts that only a big-endian target has. -/
def keccakfOn (e : Endian) (s : KState) : KState := swapOnBig e (keccakf (swapOnBig e s))

/-- `/repo/src/crypto/hash/sha3/core.rs:30-38`: the complete blocks. -/
def absorbOn (e : Endian) : List (List UInt8) → KState → KState
  | [], s => s
  | block :: blocks, s => absorbOn e blocks (keccakfOn e (xorWords 0 ((chunksExact 8 block).map (fromNe e)) s))

/-- `/repo/src/crypto/hash/sha3/core.rs:41,57`: the memory of the state as an array of 200 bytes (`core::mem::transmute`). -/
def toBytesOn (e : Endian) (s : KState) : List UInt8 := s.toList.flatMap (toNe e)

/-- `/repo/src/crypto/hash/sha3/core.rs:54`: the memory of an array of 200 bytes as a state (`core::mem::transmute`). -/
def fromBytesOn (e : Endian) (bs : List UInt8) : KState := Vector.ofFn fun i => fromNe e ((bs.drop (8 * i.val)).take 8)

/-- `/repo/src/crypto/hash/sha3/core.rs:17-59` `sha3_digest`, on a target of byte order `e`.  Simplification: `200 - 2 * output_byte_size` is taken
not to underflow; the callers pass at most 64. -/
def sha3DigestOn (e : Endian) (m : Build) (message : List UInt8) (s : KState) (out : Nat) (suffix : UInt8) : Out ε (List UInt8 × KState) := do
  let s : KState := Vector.replicate s.size 0
  let rate := 200 - 2 * out
  dassert m (rate % 8 == 0)
  let s := absorbOn e (chunksExact rate message) s
  let bs ← xorBlock (toBytesOn e s) (remainder rate message) suffix
  let bs ← xorByte bs (rate - 1) 0x80
  let s := keccakfOn e (fromBytesOn e bs)
  return ((toBytesOn e s).take out, s)

/-- The five hashers (`/repo/src/crypto/hash/sha3/keccak256.rs:12-46` and its four likes) on a target of byte order `e`. -/
def hasherOn (e : Endian) (block out : Nat) (suffix : UInt8) : Hasher where
  State := KState
  fresh := Vector.replicate 25 0
  blockLen := block
  outLen := out
  digest m s message := do
    let (result, s) ← sha3DigestOn e m message s out suffix
    dassert m (result.length == out)
    return (result, s)

/-- `/repo/src/crypto/hash/sha3/keccak256.rs:12-46` `Keccak256`. -/
def Keccak256On (e : Endian) : Hasher := hasherOn e 136 32 suffixKeccak
/-- `/repo/src/crypto/hash/sha3/sha3_224.rs:12-46` `Sha3_224`. -/
def Sha3_224On (e : Endian) : Hasher := hasherOn e 144 28 suffixSha3
/-- `/repo/src/crypto/hash/sha3/sha3_256.rs:12-46` `Sha3_256`. -/
def Sha3_256On (e : Endian) : Hasher := hasherOn e 136 32 suffixSha3
/-- `/repo/src/crypto/hash/sha3/sha3_384.rs:12-46` `Sha3_384`. -/
def Sha3_384On (e : Endian) : Hasher := hasherOn e 104 48 suffixSha3
/-- `/repo/src/crypto/hash/sha3/sha3_512.rs:12-46` `Sha3_512`. -/
def Sha3_512On (e : Endian) : Hasher := hasherOn e 72 64 suffixSha3

end LCT.Hash.Sha3
