import Verif.Model.Hash.Sha2

/-!
# SHA-3 and Keccak-256

Models `/repo/src/crypto/hash/sha3/core.rs` and the five hashers in `/repo/src/crypto/hash/sha3/`.  Simplification: a little-endian target;
there `u64::from_ne_bytes` is `u64::from_le_bytes`, the `transmute`s between 25 words and 200 bytes are little-endian conversions, and the
`#[cfg(target_endian = "big")]` swaps are absent (`Verif.Model.Hash.Sha3Target` models both byte orders, and
C81 shows that they agree).  Array indices are constants, so that their types have the bound.
-/

namespace LCT.Hash.Sha3
open LCT.Hash.Sha2 (chunksExact remainder)
variable {ε : Type}

/-- `/repo/src/crypto/hash/sha3/core.rs:150` `KeccakfState`. -/
abbrev KState := Vector (BitVec 64) 25

/-- The local variables of `sha3_keccakf`: the arrays `bc` and `s`. -/
structure Vars where
  bc : Vector (BitVec 64) 5
  s : KState

/-- `/repo/src/crypto/hash/sha3/core.rs:159-166` `KECCAKF_RNDC`. -/
def RNDC : List (BitVec 64) := [
  0x0000000000000001, 0x0000000000008082, 0x800000000000808a, 0x8000000080008000,
  0x000000000000808b, 0x0000000080000001, 0x8000000080008081, 0x8000000000008009,
  0x000000000000008a, 0x0000000000000088, 0x0000000080008009, 0x000000008000000a,
  0x000000008000808b, 0x800000000000008b, 0x8000000000008089, 0x8000000000008003,
  0x8000000000008002, 0x8000000000000080, 0x000000000000800a, 0x800000008000000a,
  0x8000000080008081, 0x8000000000008080, 0x0000000080000001, 0x8000000080008008]

/-- `/repo/src/crypto/hash/sha3/core.rs:168-170` `KECCAKF_ROTC`. -/
def ROTC : Vector Nat 24 := #v[1, 3, 6, 10, 15, 21, 28, 36, 45, 55, 2, 14, 27, 41, 56, 8, 25, 43, 62, 18, 39, 61, 20, 44]

/-- `/repo/src/crypto/hash/sha3/core.rs:172-174` `KECCAKF_PILN`. -/
def PILN : Vector (Fin 25) 24 := #v[10, 7, 11, 17, 18, 3, 5, 16, 8, 21, 24, 4, 15, 23, 19, 13, 12, 2, 20, 14, 22, 9, 6, 1]

/-- `/repo/src/crypto/hash/sha3/core.rs:177-181` `theta_step1_iteration!`. -/
def theta1 (x : Vars) (i : Fin 5) (j0 j5 j10 j15 j20 : Fin 25) : Vars :=
  { x with bc := x.bc.set i (x.s[j0] ^^^ x.s[j5] ^^^ x.s[j10] ^^^ x.s[j15] ^^^ x.s[j20]) }

/-- `$s[i] ^= t`. -/
def xorAt (s : KState) (i : Fin 25) (t : BitVec 64) : KState := s.set i (s[i] ^^^ t)

/-- `/repo/src/crypto/hash/sha3/core.rs:191-202` `theta_step2_iteration!`. -/
def theta2 (x : Vars) (i4 i1 : Fin 5) (j0 j5 j10 j15 j20 : Fin 25) : Vars :=
  let t := x.bc[i4] ^^^ x.bc[i1].rotateLeft 1
  { x with s := xorAt (xorAt (xorAt (xorAt (xorAt x.s j0 t) j5 t) j10 t) j15 t) j20 t }

/-- `/repo/src/crypto/hash/sha3/core.rs:211-218` `rho_pi_iteration!`. -/
def rhoPi (x : Vars) (t : BitVec 64) (i : Fin 24) : Vars :=
  let j := PILN[i]
  let bc := x.bc.set 0 x.s[j]
  { bc := bc, s := x.s.set j (t.rotateLeft ROTC[i]) }

/-- `/repo/src/crypto/hash/sha3/core.rs:228-238` `chi_iteration!`; `j0` … `j4` are `j` … `j + 4`. -/
def chi (x : Vars) (j0 j1 j2 j3 j4 : Fin 25) : Vars :=
  let bc : Vector (BitVec 64) 5 := #v[x.s[j0], x.s[j1], x.s[j2], x.s[j3], x.s[j4]]
  let s := x.s
  let s := xorAt s j0 (~~~bc[1] &&& bc[2])
  let s := xorAt s j1 (~~~bc[2] &&& bc[3])
  let s := xorAt s j2 (~~~bc[3] &&& bc[4])
  let s := xorAt s j3 (~~~bc[4] &&& bc[0])
  let s := xorAt s j4 (~~~bc[0] &&& bc[1])
  { bc := bc, s := s }

/-- `/repo/src/crypto/hash/sha3/core.rs:71-92`: theta. -/
def thetaStep (x : Vars) : Vars :=
  let x := theta1 x 0 0 5 10 15 20
  let x := theta1 x 1 1 6 11 16 21
  let x := theta1 x 2 2 7 12 17 22
  let x := theta1 x 3 3 8 13 18 23
  let x := theta1 x 4 4 9 14 19 24
  let x := theta2 x 4 1 0 5 10 15 20
  let x := theta2 x 0 2 1 6 11 16 21
  let x := theta2 x 1 3 2 7 12 17 22
  let x := theta2 x 2 4 3 8 13 18 23
  theta2 x 3 0 4 9 14 19 24

/-- `/repo/src/crypto/hash/sha3/core.rs:94-125`: rho and pi. -/
def rhoPiStep (x : Vars) : Vars :=
  let x := rhoPi x x.s[1] 0
  let x := rhoPi x x.bc[0] 1
  let x := rhoPi x x.bc[0] 2
  let x := rhoPi x x.bc[0] 3
  let x := rhoPi x x.bc[0] 4
  let x := rhoPi x x.bc[0] 5
  let x := rhoPi x x.bc[0] 6
  let x := rhoPi x x.bc[0] 7
  let x := rhoPi x x.bc[0] 8
  let x := rhoPi x x.bc[0] 9
  let x := rhoPi x x.bc[0] 10
  let x := rhoPi x x.bc[0] 11
  let x := rhoPi x x.bc[0] 12
  let x := rhoPi x x.bc[0] 13
  let x := rhoPi x x.bc[0] 14
  let x := rhoPi x x.bc[0] 15
  let x := rhoPi x x.bc[0] 16
  let x := rhoPi x x.bc[0] 17
  let x := rhoPi x x.bc[0] 18
  let x := rhoPi x x.bc[0] 19
  let x := rhoPi x x.bc[0] 20
  let x := rhoPi x x.bc[0] 21
  let x := rhoPi x x.bc[0] 22
  rhoPi x x.bc[0] 23

/-- `/repo/src/crypto/hash/sha3/core.rs:127-138`: chi. -/
def chiStep (x : Vars) : Vars :=
  let x := chi x 0 1 2 3 4
  let x := chi x 5 6 7 8 9
  let x := chi x 10 11 12 13 14
  let x := chi x 15 16 17 18 19
  chi x 20 21 22 23 24

/-- `/repo/src/crypto/hash/sha3/core.rs:140-141`: iota, with the constant of the round. -/
def iotaStep (c : BitVec 64) (x : Vars) : Vars := { x with s := xorAt x.s 0 c }

/-- `/repo/src/crypto/hash/sha3/core.rs:69-142`: one round. -/
def roundStep (c : BitVec 64) (x : Vars) : Vars := iotaStep c (chiStep (rhoPiStep (thetaStep x)))

/-- `/repo/src/crypto/hash/sha3/core.rs:61-148` `sha3_keccakf`: as many rounds as constants (24). -/
def keccakf (s : KState) : KState := (RNDC.foldl (fun x c => roundStep c x) ⟨Vector.replicate 5 0, s⟩).s

/-- `/repo/src/crypto/hash/sha3/core.rs:31-36`: the words of a block are xored into the state, from place `j`. -/
def xorWords : Nat → List (BitVec 64) → KState → KState
  | _, [], s => s
  | j, x :: xs, s => if h : j < 25 then xorWords (j + 1) xs (s.set j (s[j] ^^^ x)) else s

/-- `/repo/src/crypto/hash/sha3/core.rs:30-38`: the complete blocks. -/
def absorb : List (List UInt8) → KState → KState
  | [], s => s
  | block :: blocks, s =>
    let words := (chunksExact 8 block).map fun bytes => BitVec.ofNat 64 (fromLE bytes)
    absorb blocks (keccakf (xorWords 0 words s))

/-- The state as an array of 200 bytes. -/
def toBytes (s : KState) : List UInt8 := s.toList.flatMap fun x => toLEk 8 x.toNat

/-- An array of 200 bytes as a state. -/
def fromBytes (bs : List UInt8) : KState := Vector.ofFn fun i => BitVec.ofNat 64 (fromLE ((bs.drop (8 * i.val)).take 8))

/-- `/repo/src/crypto/hash/sha3/core.rs:43-51`: the bytes of the last, incomplete block are xored into the state, and the suffix into the byte
after them.  The case of an empty block, separate in the code, is the first equation. -/
def xorBlock : List UInt8 → List UInt8 → UInt8 → Out ε (List UInt8)
  | [], _, _ => .panic
  | b :: bs, [], d => .ok ((b ^^^ d) :: bs)
  | b :: bs, x :: xs, d => do
    let r ← xorBlock bs xs d
    return (b ^^^ x) :: r

/-- `bytes[i] ^= x`. -/
def xorByte (bs : List UInt8) (i : Nat) (x : UInt8) : Out ε (List UInt8) :=
  match bs[i]? with
  | some b => .ok (bs.set i (b ^^^ x))
  | none => .panic

/-- `/repo/src/crypto/hash/sha3/core.rs:17-59` `sha3_digest`.  Simplification: `200 - 2 * output_byte_size` is taken not to underflow; the callers
pass at most 64. -/
def sha3Digest (m : Build) (message : List UInt8) (s : KState) (out : Nat) (suffix : UInt8) : Out ε (List UInt8 × KState) := do
  let s : KState := Vector.replicate s.size 0
  let rate := 200 - 2 * out
  dassert m (rate % 8 == 0)
  let s := absorb (chunksExact rate message) s
  let bs ← xorBlock (toBytes s) (remainder rate message) suffix
  let bs ← xorByte bs (rate - 1) 0x80
  let s := keccakf (fromBytes bs)
  return ((toBytes s).take out, s)

/-- The five hashers differ in the length of the output, the length of the block that they announce, and the suffix. -/
def hasher (block out : Nat) (suffix : UInt8) : Hasher where
  State := KState
  fresh := Vector.replicate 25 0
  blockLen := block
  outLen := out
  digest m s message := do
    let (result, s) ← sha3Digest m message s out suffix
    dassert m (result.length == out)
    return (result, s)

/-- `/repo/src/crypto/hash/sha3/core.rs:155-156` `KECCAK_DELIMITER_SUFFIX_KECCAK` and `KECCAK_DELIMITER_SUFFIX_SHA3`. -/
def suffixKeccak : UInt8 := 0x01
def suffixSha3 : UInt8 := 0x06

/-- `/repo/src/crypto/hash/sha3/keccak256.rs:12-46` `Keccak256`. -/
def Keccak256 : Hasher := hasher 136 32 suffixKeccak
/-- `/repo/src/crypto/hash/sha3/sha3_224.rs:12-46` `Sha3_224`. -/
def Sha3_224 : Hasher := hasher 144 28 suffixSha3
/-- `/repo/src/crypto/hash/sha3/sha3_256.rs:12-46` `Sha3_256`. -/
def Sha3_256 : Hasher := hasher 136 32 suffixSha3
/-- `/repo/src/crypto/hash/sha3/sha3_384.rs:12-46` `Sha3_384`. -/
def Sha3_384 : Hasher := hasher 104 48 suffixSha3
/-- `/repo/src/crypto/hash/sha3/sha3_512.rs:12-46` `Sha3_512`. -/
def Sha3_512 : Hasher := hasher 72 64 suffixSha3

end LCT.Hash.Sha3
