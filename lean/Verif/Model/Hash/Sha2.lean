import Verif.Model.Bytes
import Verif.Model.Hash.Core

/-!
# SHA-256, SHA-384 and SHA-512

Models `/repo/src/crypto/hash/sha2/core.rs`, `sha256.rs` and `sha384_512.rs`.  The two latter files contain the same functions for words of 32
and of 64 bits; they are modelled by one definition with the differences as parameters (`Code`).  Words are bit vectors, on which `+` is
`wrapping_add`.
-/

namespace LCT.Hash.Sha2
variable {ε : Type} {v n : Nat}

/-- `a * b` on `u64`: overflow panics in debug builds and wraps in release builds. -/
def mulU64 (m : Build) (a b : Nat) : Out ε Nat :=
  if a * b < 2 ^ 64 then .ok (a * b)
  else match m with
    | .debug => .panic
    | .release => .ok (a * b % 2 ^ 64)

/-- `a - b` on `u64`: underflow panics in debug builds and wraps in release builds. -/
def subU64 (m : Build) (a b : Nat) : Out ε Nat :=
  if b ≤ a then .ok (a - b)
  else match m with
    | .debug => .panic
    | .release => .ok (2 ^ 64 + a - b)

/-- `/repo/src/crypto/hash/sha2/core.rs:16-25` `calculate_k`.  Simplification: `2 * b` and `l % b + 1 + l_b` are taken not to overflow; the
callers pass 512 or 1024 for `b` and 64 or 128 for `l_b`. -/
def calculateK (m : Build) (l b lb : Nat) : Out ε Nat := do
  let k ← subU64 m (2 * b) (l % b + 1 + lb)
  if k ≥ b then subU64 m k b else return k

/-- `slice.chunks_exact(n)` (standard library) for `n > 0`: as many pieces of length `n` as there are. -/
def chunksExact {α : Type} (n : Nat) (l : List α) : List (List α) := go (l.length / n) l
where go : Nat → List α → List (List α)
  | 0, _ => []
  | q + 1, l => l.take n :: go q (l.drop n)

/-- `chunks_exact(n).remainder()` (standard library): what is left. -/
def remainder {α : Type} (n : Nat) (l : List α) : List α := l.drop (l.length / n * n)

/-- The names of the local variables `a` … `h`. -/
inductive Reg where
  | a | b | c | d | e | f | g | h
  deriving Repr, DecidableEq

/-- The values of the local variables. -/
structure Regs (v : Nat) where
  (a b c d e f g h : BitVec v)

def Regs.get (r : Regs v) : Reg → BitVec v
  | .a => r.a | .b => r.b | .c => r.c | .d => r.d | .e => r.e | .f => r.f | .g => r.g | .h => r.h

def Regs.set (r : Regs v) (x : BitVec v) : Reg → Regs v
  | .a => { r with a := x } | .b => { r with b := x } | .c => { r with c := x } | .d => { r with d := x }
  | .e => { r with e := x } | .f => { r with f := x } | .g => { r with g := x } | .h => { r with h := x }

/-- One line `rnd!(a, b, c, d, e, f, g, h, w, i, ki)`. -/
structure Line where
  (a b c d e f g h : Reg)
  i : Nat
  k : Nat
  deriving DecidableEq

/-- The parts in which `sha256.rs` and `sha384_512.rs` differ. -/
structure Code (v : Nat) where
  /-- length of the array `w` -/
  rounds : Nat
  /-- `INPUT_BLOCK_BYTE_LENGTH` -/
  block : Nat
  /-- third argument of `calculate_k` -/
  lenBits : Nat
  /-- the bytes appended for the length -/
  lengthField : Nat → List UInt8
  sigma0 : BitVec v → BitVec v
  sigma1 : BitVec v → BitVec v
  gamma0 : BitVec v → BitVec v
  gamma1 : BitVec v → BitVec v
  lines : List Line

/-- `/repo/src/crypto/hash/sha2/sha256.rs:194-197`, `/repo/src/crypto/hash/sha2/sha384_512.rs:255-258` `ch`. -/
def ch (x y z : BitVec v) : BitVec v := (x &&& y) ^^^ (~~~x &&& z)

/-- `/repo/src/crypto/hash/sha2/sha256.rs:200-203`, `/repo/src/crypto/hash/sha2/sha384_512.rs:261-264` `maj`. -/
def maj (x y z : BitVec v) : BitVec v := (x &&& y) ^^^ (x &&& z) ^^^ (y &&& z)

/-- `/repo/src/crypto/hash/sha2/core.rs:28-45`: the macro `rnd!`. -/
def rnd (C : Code v) (w : Vector (BitVec v) n) (l : Line) (r : Regs v) : Out ε (Regs v) := do
  let wi ← unwrap w[l.i]?
  let t0 := r.get l.h + C.sigma1 (r.get l.e) + ch (r.get l.e) (r.get l.f) (r.get l.g) + BitVec.ofNat v l.k + wi
  let t1 := C.sigma0 (r.get l.a) + maj (r.get l.a) (r.get l.b) (r.get l.c)
  let r := r.set (r.get l.d + t0) l.d
  return r.set (t0 + t1) l.h

/-- The sequence of `rnd!` lines. -/
def rnds (C : Code v) (w : Vector (BitVec v) n) : List Line → Regs v → Out ε (Regs v)
  | [], r => .ok r
  | l :: ls, r => do
    let r ← rnd C w l r
    rnds C w ls r

/-- `/repo/src/crypto/hash/sha2/sha256.rs:88-93`, `/repo/src/crypto/hash/sha2/sha384_512.rs:133-138`: the words of the block are written to the
first 16 places of `w`, or fewer if there are fewer words. -/
def loadWords : Nat → List (BitVec v) → Vector (BitVec v) n → Vector (BitVec v) n
  | _, [], w => w
  | j, x :: xs, w => if j < 16 then loadWords (j + 1) xs (w.setIfInBounds j x) else w

/-- `/repo/src/crypto/hash/sha2/sha256.rs:96-101`, `/repo/src/crypto/hash/sha2/sha384_512.rs:141-146`: `count` rounds of the loop, from index
`i`. -/
def expand (C : Code v) : (count i : Nat) → Vector (BitVec v) n → Out ε (Vector (BitVec v) n)
  | 0, _, w => .ok w
  | count + 1, i, w => do
    let w2 ← unwrap w[i - 2]?
    let w7 ← unwrap w[i - 7]?
    let w15 ← unwrap w[i - 15]?
    let w16 ← unwrap w[i - 16]?
    rassert (decide (i < n))
    expand C count (i + 1) (w.setIfInBounds i (C.gamma1 w2 + w7 + C.gamma0 w15 + w16))

/-- The fields of the hasher objects: `/repo/src/crypto/hash/sha2/sha256.rs:15-20`, `/repo/src/crypto/hash/sha2/sha384_512.rs:15-20,54-59`. -/
structure State (C : Code v) where
  s : Vector (BitVec v) 8
  w : Vector (BitVec v) C.rounds

/-- `/repo/src/crypto/hash/sha2/sha256.rs:86-191` `sha256_block_compression`, `/repo/src/crypto/hash/sha2/sha384_512.rs:131-252`
`sha512_block_compression`. -/
def blockCompression (C : Code v) (block : List UInt8) (st : State C) : Out ε (State C) := do
  let words := (chunksExact (v / 8) block).map fun bytes => BitVec.ofNat v (fromBE bytes)
  let w := loadWords 0 words st.w
  let w ← expand C (C.rounds - 16) 16 w
  let s := st.s
  let r ← rnds C w C.lines ⟨s[0], s[1], s[2], s[3], s[4], s[5], s[6], s[7]⟩
  return ⟨#v[r.a + s[0], r.b + s[1], r.c + s[2], r.d + s[3], r.e + s[4], r.f + s[5], r.g + s[6], r.h + s[7]], w⟩

/-- `for block in … { block_compression(block, s, w) }`. -/
def compressAll (C : Code v) : List (List UInt8) → State C → Out ε (State C)
  | [], st => .ok st
  | b :: bs, st => do
    let st ← blockCompression C b st
    compressAll C bs st

/-- `/repo/src/crypto/hash/sha2/sha256.rs:48-75` (`sha256_digest` up to the output), `/repo/src/crypto/hash/sha2/sha384_512.rs:94-128`
`sha384_512_digest_core`. -/
def digestCore (m : Build) (C : Code v) (init : Vector (BitVec v) 8) (st : State C) (message : List UInt8) : Out ε (State C) := do
  let st : State C := { st with s := init }
  let st : State C := { st with w := Vector.replicate C.rounds 0 }
  let st ← compressAll C (chunksExact C.block message) st
  let remaining := remainder C.block message
  rassert (decide (message.length < 2 ^ 64))
  let l ← mulU64 m message.length 8
  let k ← calculateK m l (C.block * 8) C.lenBits
  let k7 ← subU64 m k 7
  let remaining := remaining ++ [0x80] ++ List.replicate (k7 / 8) 0 ++ C.lengthField l
  dassert m (remaining.length == C.block || remaining.length == C.block * 2)
  compressAll C (chunksExact C.block remaining) st

/-- The output: `/repo/src/crypto/hash/sha2/sha256.rs:77-82`, `/repo/src/crypto/hash/sha2/sha384_512.rs:44-47,83-86`. -/
def output (words : List (BitVec v)) : List UInt8 := words.flatMap fun x => toBEk (v / 8) x.toNat

/-! ## SHA-256 -/

/-- `/repo/src/crypto/hash/sha2/sha256.rs:206-227` `sigma0`, `sigma1`, `gamma0`, `gamma1`, and the lines 118-181. -/
def code256 : Code 32 where
  rounds := 64
  block := 64
  lenBits := 64
  lengthField l := toBEk 8 l
  sigma0 x := x.rotateRight 2 ^^^ x.rotateRight 13 ^^^ x.rotateRight 22
  sigma1 x := x.rotateRight 6 ^^^ x.rotateRight 11 ^^^ x.rotateRight 25
  gamma0 x := x.rotateRight 7 ^^^ x.rotateRight 18 ^^^ x >>> 3
  gamma1 x := x.rotateRight 17 ^^^ x.rotateRight 19 ^^^ x >>> 10
  lines := [
  ⟨.a, .b, .c, .d, .e, .f, .g, .h, 0, 0x428a2f98⟩,
  ⟨.h, .a, .b, .c, .d, .e, .f, .g, 1, 0x71374491⟩,
  ⟨.g, .h, .a, .b, .c, .d, .e, .f, 2, 0xb5c0fbcf⟩,
  ⟨.f, .g, .h, .a, .b, .c, .d, .e, 3, 0xe9b5dba5⟩,
  ⟨.e, .f, .g, .h, .a, .b, .c, .d, 4, 0x3956c25b⟩,
  ⟨.d, .e, .f, .g, .h, .a, .b, .c, 5, 0x59f111f1⟩,
  ⟨.c, .d, .e, .f, .g, .h, .a, .b, 6, 0x923f82a4⟩,
  ⟨.b, .c, .d, .e, .f, .g, .h, .a, 7, 0xab1c5ed5⟩,
  ⟨.a, .b, .c, .d, .e, .f, .g, .h, 8, 0xd807aa98⟩,
  ⟨.h, .a, .b, .c, .d, .e, .f, .g, 9, 0x12835b01⟩,
  ⟨.g, .h, .a, .b, .c, .d, .e, .f, 10, 0x243185be⟩,
  ⟨.f, .g, .h, .a, .b, .c, .d, .e, 11, 0x550c7dc3⟩,
  ⟨.e, .f, .g, .h, .a, .b, .c, .d, 12, 0x72be5d74⟩,
  ⟨.d, .e, .f, .g, .h, .a, .b, .c, 13, 0x80deb1fe⟩,
  ⟨.c, .d, .e, .f, .g, .h, .a, .b, 14, 0x9bdc06a7⟩,
  ⟨.b, .c, .d, .e, .f, .g, .h, .a, 15, 0xc19bf174⟩,
  ⟨.a, .b, .c, .d, .e, .f, .g, .h, 16, 0xe49b69c1⟩,
  ⟨.h, .a, .b, .c, .d, .e, .f, .g, 17, 0xefbe4786⟩,
  ⟨.g, .h, .a, .b, .c, .d, .e, .f, 18, 0x0fc19dc6⟩,
  ⟨.f, .g, .h, .a, .b, .c, .d, .e, 19, 0x240ca1cc⟩,
  ⟨.e, .f, .g, .h, .a, .b, .c, .d, 20, 0x2de92c6f⟩,
  ⟨.d, .e, .f, .g, .h, .a, .b, .c, 21, 0x4a7484aa⟩,
  ⟨.c, .d, .e, .f, .g, .h, .a, .b, 22, 0x5cb0a9dc⟩,
  ⟨.b, .c, .d, .e, .f, .g, .h, .a, 23, 0x76f988da⟩,
  ⟨.a, .b, .c, .d, .e, .f, .g, .h, 24, 0x983e5152⟩,
  ⟨.h, .a, .b, .c, .d, .e, .f, .g, 25, 0xa831c66d⟩,
  ⟨.g, .h, .a, .b, .c, .d, .e, .f, 26, 0xb00327c8⟩,
  ⟨.f, .g, .h, .a, .b, .c, .d, .e, 27, 0xbf597fc7⟩,
  ⟨.e, .f, .g, .h, .a, .b, .c, .d, 28, 0xc6e00bf3⟩,
  ⟨.d, .e, .f, .g, .h, .a, .b, .c, 29, 0xd5a79147⟩,
  ⟨.c, .d, .e, .f, .g, .h, .a, .b, 30, 0x06ca6351⟩,
  ⟨.b, .c, .d, .e, .f, .g, .h, .a, 31, 0x14292967⟩,
  ⟨.a, .b, .c, .d, .e, .f, .g, .h, 32, 0x27b70a85⟩,
  ⟨.h, .a, .b, .c, .d, .e, .f, .g, 33, 0x2e1b2138⟩,
  ⟨.g, .h, .a, .b, .c, .d, .e, .f, 34, 0x4d2c6dfc⟩,
  ⟨.f, .g, .h, .a, .b, .c, .d, .e, 35, 0x53380d13⟩,
  ⟨.e, .f, .g, .h, .a, .b, .c, .d, 36, 0x650a7354⟩,
  ⟨.d, .e, .f, .g, .h, .a, .b, .c, 37, 0x766a0abb⟩,
  ⟨.c, .d, .e, .f, .g, .h, .a, .b, 38, 0x81c2c92e⟩,
  ⟨.b, .c, .d, .e, .f, .g, .h, .a, 39, 0x92722c85⟩,
  ⟨.a, .b, .c, .d, .e, .f, .g, .h, 40, 0xa2bfe8a1⟩,
  ⟨.h, .a, .b, .c, .d, .e, .f, .g, 41, 0xa81a664b⟩,
  ⟨.g, .h, .a, .b, .c, .d, .e, .f, 42, 0xc24b8b70⟩,
  ⟨.f, .g, .h, .a, .b, .c, .d, .e, 43, 0xc76c51a3⟩,
  ⟨.e, .f, .g, .h, .a, .b, .c, .d, 44, 0xd192e819⟩,
  ⟨.d, .e, .f, .g, .h, .a, .b, .c, 45, 0xd6990624⟩,
  ⟨.c, .d, .e, .f, .g, .h, .a, .b, 46, 0xf40e3585⟩,
  ⟨.b, .c, .d, .e, .f, .g, .h, .a, 47, 0x106aa070⟩,
  ⟨.a, .b, .c, .d, .e, .f, .g, .h, 48, 0x19a4c116⟩,
  ⟨.h, .a, .b, .c, .d, .e, .f, .g, 49, 0x1e376c08⟩,
  ⟨.g, .h, .a, .b, .c, .d, .e, .f, 50, 0x2748774c⟩,
  ⟨.f, .g, .h, .a, .b, .c, .d, .e, 51, 0x34b0bcb5⟩,
  ⟨.e, .f, .g, .h, .a, .b, .c, .d, 52, 0x391c0cb3⟩,
  ⟨.d, .e, .f, .g, .h, .a, .b, .c, 53, 0x4ed8aa4a⟩,
  ⟨.c, .d, .e, .f, .g, .h, .a, .b, 54, 0x5b9cca4f⟩,
  ⟨.b, .c, .d, .e, .f, .g, .h, .a, 55, 0x682e6ff3⟩,
  ⟨.a, .b, .c, .d, .e, .f, .g, .h, 56, 0x748f82ee⟩,
  ⟨.h, .a, .b, .c, .d, .e, .f, .g, 57, 0x78a5636f⟩,
  ⟨.g, .h, .a, .b, .c, .d, .e, .f, 58, 0x84c87814⟩,
  ⟨.f, .g, .h, .a, .b, .c, .d, .e, 59, 0x8cc70208⟩,
  ⟨.e, .f, .g, .h, .a, .b, .c, .d, 60, 0x90befffa⟩,
  ⟨.d, .e, .f, .g, .h, .a, .b, .c, 61, 0xa4506ceb⟩,
  ⟨.c, .d, .e, .f, .g, .h, .a, .b, 62, 0xbef9a3f7⟩,
  ⟨.b, .c, .d, .e, .f, .g, .h, .a, 63, 0xc67178f2⟩]

/-- `/repo/src/crypto/hash/sha2/sha256.rs:229-232` `S_SHA256`. -/
def s256 : Vector (BitVec 32) 8 := #v[0x6a09e667, 0xbb67ae85, 0x3c6ef372, 0xa54ff53a, 0x510e527f, 0x9b05688c, 0x1f83d9ab, 0x5be0cd19]

/-- `/repo/src/crypto/hash/sha2/sha256.rs:15-46` `Sha256`. -/
def Sha256 : Hasher where
  State := State code256
  fresh := ⟨Vector.replicate 8 0, Vector.replicate 64 0⟩
  blockLen := 64
  outLen := 32
  digest m st message := do
    let st ← digestCore m code256 s256 st message
    let result := output st.s.toList
    dassert m (result.length == 32)
    return (result, st)

/-! ## SHA-384 and SHA-512 -/

/-- `/repo/src/crypto/hash/sha2/sha384_512.rs:267-288` `sigma0`, `sigma1`, `gamma0`, `gamma1`, and the lines 163-242. -/
def code512 : Code 64 where
  rounds := 80
  block := 128
  lenBits := 128
  lengthField l := toBEk 8 0 ++ toBEk 8 l
  sigma0 x := x.rotateRight 28 ^^^ x.rotateRight 34 ^^^ x.rotateRight 39
  sigma1 x := x.rotateRight 14 ^^^ x.rotateRight 18 ^^^ x.rotateRight 41
  gamma0 x := x.rotateRight 1 ^^^ x.rotateRight 8 ^^^ x >>> 7
  gamma1 x := x.rotateRight 19 ^^^ x.rotateRight 61 ^^^ x >>> 6
  lines := [
  ⟨.a, .b, .c, .d, .e, .f, .g, .h, 0, 0x428a2f98d728ae22⟩,
  ⟨.h, .a, .b, .c, .d, .e, .f, .g, 1, 0x7137449123ef65cd⟩,
  ⟨.g, .h, .a, .b, .c, .d, .e, .f, 2, 0xb5c0fbcfec4d3b2f⟩,
  ⟨.f, .g, .h, .a, .b, .c, .d, .e, 3, 0xe9b5dba58189dbbc⟩,
  ⟨.e, .f, .g, .h, .a, .b, .c, .d, 4, 0x3956c25bf348b538⟩,
  ⟨.d, .e, .f, .g, .h, .a, .b, .c, 5, 0x59f111f1b605d019⟩,
  ⟨.c, .d, .e, .f, .g, .h, .a, .b, 6, 0x923f82a4af194f9b⟩,
  ⟨.b, .c, .d, .e, .f, .g, .h, .a, 7, 0xab1c5ed5da6d8118⟩,
  ⟨.a, .b, .c, .d, .e, .f, .g, .h, 8, 0xd807aa98a3030242⟩,
  ⟨.h, .a, .b, .c, .d, .e, .f, .g, 9, 0x12835b0145706fbe⟩,
  ⟨.g, .h, .a, .b, .c, .d, .e, .f, 10, 0x243185be4ee4b28c⟩,
  ⟨.f, .g, .h, .a, .b, .c, .d, .e, 11, 0x550c7dc3d5ffb4e2⟩,
  ⟨.e, .f, .g, .h, .a, .b, .c, .d, 12, 0x72be5d74f27b896f⟩,
  ⟨.d, .e, .f, .g, .h, .a, .b, .c, 13, 0x80deb1fe3b1696b1⟩,
  ⟨.c, .d, .e, .f, .g, .h, .a, .b, 14, 0x9bdc06a725c71235⟩,
  ⟨.b, .c, .d, .e, .f, .g, .h, .a, 15, 0xc19bf174cf692694⟩,
  ⟨.a, .b, .c, .d, .e, .f, .g, .h, 16, 0xe49b69c19ef14ad2⟩,
  ⟨.h, .a, .b, .c, .d, .e, .f, .g, 17, 0xefbe4786384f25e3⟩,
  ⟨.g, .h, .a, .b, .c, .d, .e, .f, 18, 0x0fc19dc68b8cd5b5⟩,
  ⟨.f, .g, .h, .a, .b, .c, .d, .e, 19, 0x240ca1cc77ac9c65⟩,
  ⟨.e, .f, .g, .h, .a, .b, .c, .d, 20, 0x2de92c6f592b0275⟩,
  ⟨.d, .e, .f, .g, .h, .a, .b, .c, 21, 0x4a7484aa6ea6e483⟩,
  ⟨.c, .d, .e, .f, .g, .h, .a, .b, 22, 0x5cb0a9dcbd41fbd4⟩,
  ⟨.b, .c, .d, .e, .f, .g, .h, .a, 23, 0x76f988da831153b5⟩,
  ⟨.a, .b, .c, .d, .e, .f, .g, .h, 24, 0x983e5152ee66dfab⟩,
  ⟨.h, .a, .b, .c, .d, .e, .f, .g, 25, 0xa831c66d2db43210⟩,
  ⟨.g, .h, .a, .b, .c, .d, .e, .f, 26, 0xb00327c898fb213f⟩,
  ⟨.f, .g, .h, .a, .b, .c, .d, .e, 27, 0xbf597fc7beef0ee4⟩,
  ⟨.e, .f, .g, .h, .a, .b, .c, .d, 28, 0xc6e00bf33da88fc2⟩,
  ⟨.d, .e, .f, .g, .h, .a, .b, .c, 29, 0xd5a79147930aa725⟩,
  ⟨.c, .d, .e, .f, .g, .h, .a, .b, 30, 0x06ca6351e003826f⟩,
  ⟨.b, .c, .d, .e, .f, .g, .h, .a, 31, 0x142929670a0e6e70⟩,
  ⟨.a, .b, .c, .d, .e, .f, .g, .h, 32, 0x27b70a8546d22ffc⟩,
  ⟨.h, .a, .b, .c, .d, .e, .f, .g, 33, 0x2e1b21385c26c926⟩,
  ⟨.g, .h, .a, .b, .c, .d, .e, .f, 34, 0x4d2c6dfc5ac42aed⟩,
  ⟨.f, .g, .h, .a, .b, .c, .d, .e, 35, 0x53380d139d95b3df⟩,
  ⟨.e, .f, .g, .h, .a, .b, .c, .d, 36, 0x650a73548baf63de⟩,
  ⟨.d, .e, .f, .g, .h, .a, .b, .c, 37, 0x766a0abb3c77b2a8⟩,
  ⟨.c, .d, .e, .f, .g, .h, .a, .b, 38, 0x81c2c92e47edaee6⟩,
  ⟨.b, .c, .d, .e, .f, .g, .h, .a, 39, 0x92722c851482353b⟩,
  ⟨.a, .b, .c, .d, .e, .f, .g, .h, 40, 0xa2bfe8a14cf10364⟩,
  ⟨.h, .a, .b, .c, .d, .e, .f, .g, 41, 0xa81a664bbc423001⟩,
  ⟨.g, .h, .a, .b, .c, .d, .e, .f, 42, 0xc24b8b70d0f89791⟩,
  ⟨.f, .g, .h, .a, .b, .c, .d, .e, 43, 0xc76c51a30654be30⟩,
  ⟨.e, .f, .g, .h, .a, .b, .c, .d, 44, 0xd192e819d6ef5218⟩,
  ⟨.d, .e, .f, .g, .h, .a, .b, .c, 45, 0xd69906245565a910⟩,
  ⟨.c, .d, .e, .f, .g, .h, .a, .b, 46, 0xf40e35855771202a⟩,
  ⟨.b, .c, .d, .e, .f, .g, .h, .a, 47, 0x106aa07032bbd1b8⟩,
  ⟨.a, .b, .c, .d, .e, .f, .g, .h, 48, 0x19a4c116b8d2d0c8⟩,
  ⟨.h, .a, .b, .c, .d, .e, .f, .g, 49, 0x1e376c085141ab53⟩,
  ⟨.g, .h, .a, .b, .c, .d, .e, .f, 50, 0x2748774cdf8eeb99⟩,
  ⟨.f, .g, .h, .a, .b, .c, .d, .e, 51, 0x34b0bcb5e19b48a8⟩,
  ⟨.e, .f, .g, .h, .a, .b, .c, .d, 52, 0x391c0cb3c5c95a63⟩,
  ⟨.d, .e, .f, .g, .h, .a, .b, .c, 53, 0x4ed8aa4ae3418acb⟩,
  ⟨.c, .d, .e, .f, .g, .h, .a, .b, 54, 0x5b9cca4f7763e373⟩,
  ⟨.b, .c, .d, .e, .f, .g, .h, .a, 55, 0x682e6ff3d6b2b8a3⟩,
  ⟨.a, .b, .c, .d, .e, .f, .g, .h, 56, 0x748f82ee5defb2fc⟩,
  ⟨.h, .a, .b, .c, .d, .e, .f, .g, 57, 0x78a5636f43172f60⟩,
  ⟨.g, .h, .a, .b, .c, .d, .e, .f, 58, 0x84c87814a1f0ab72⟩,
  ⟨.f, .g, .h, .a, .b, .c, .d, .e, 59, 0x8cc702081a6439ec⟩,
  ⟨.e, .f, .g, .h, .a, .b, .c, .d, 60, 0x90befffa23631e28⟩,
  ⟨.d, .e, .f, .g, .h, .a, .b, .c, 61, 0xa4506cebde82bde9⟩,
  ⟨.c, .d, .e, .f, .g, .h, .a, .b, 62, 0xbef9a3f7b2c67915⟩,
  ⟨.b, .c, .d, .e, .f, .g, .h, .a, 63, 0xc67178f2e372532b⟩,
  ⟨.a, .b, .c, .d, .e, .f, .g, .h, 64, 0xca273eceea26619c⟩,
  ⟨.h, .a, .b, .c, .d, .e, .f, .g, 65, 0xd186b8c721c0c207⟩,
  ⟨.g, .h, .a, .b, .c, .d, .e, .f, 66, 0xeada7dd6cde0eb1e⟩,
  ⟨.f, .g, .h, .a, .b, .c, .d, .e, 67, 0xf57d4f7fee6ed178⟩,
  ⟨.e, .f, .g, .h, .a, .b, .c, .d, 68, 0x06f067aa72176fba⟩,
  ⟨.d, .e, .f, .g, .h, .a, .b, .c, 69, 0x0a637dc5a2c898a6⟩,
  ⟨.c, .d, .e, .f, .g, .h, .a, .b, 70, 0x113f9804bef90dae⟩,
  ⟨.b, .c, .d, .e, .f, .g, .h, .a, 71, 0x1b710b35131c471b⟩,
  ⟨.a, .b, .c, .d, .e, .f, .g, .h, 72, 0x28db77f523047d84⟩,
  ⟨.h, .a, .b, .c, .d, .e, .f, .g, 73, 0x32caab7b40c72493⟩,
  ⟨.g, .h, .a, .b, .c, .d, .e, .f, 74, 0x3c9ebe0a15c9bebc⟩,
  ⟨.f, .g, .h, .a, .b, .c, .d, .e, 75, 0x431d67c49c100d4c⟩,
  ⟨.e, .f, .g, .h, .a, .b, .c, .d, 76, 0x4cc5d4becb3e42b6⟩,
  ⟨.d, .e, .f, .g, .h, .a, .b, .c, 77, 0x597f299cfc657e2a⟩,
  ⟨.c, .d, .e, .f, .g, .h, .a, .b, 78, 0x5fcb6fab3ad6faec⟩,
  ⟨.b, .c, .d, .e, .f, .g, .h, .a, 79, 0x6c44198c4a475817⟩]

/-- `/repo/src/crypto/hash/sha2/sha384_512.rs:290-299` `S_SHA384`. -/
def s384 : Vector (BitVec 64) 8 := #v[0xcbbb9d5dc1059ed8, 0x629a292a367cd507, 0x9159015a3070dd17, 0x152fecd8f70e5939,
  0x67332667ffc00b31, 0x8eb44a8768581511, 0xdb0c2e0d64f98fa7, 0x47b5481dbefa4fa4]

/-- `/repo/src/crypto/hash/sha2/sha384_512.rs:301-310` `S_SHA512`. -/
def s512 : Vector (BitVec 64) 8 := #v[0x6a09e667f3bcc908, 0xbb67ae8584caa73b, 0x3c6ef372fe94f82b, 0xa54ff53a5f1d36f1,
  0x510e527fade682d1, 0x9b05688c2b3e6c1f, 0x1f83d9abfb41bd6b, 0x5be0cd19137e2179]

/-- `/repo/src/crypto/hash/sha2/sha384_512.rs:15-52` `Sha384`. -/
def Sha384 : Hasher where
  State := State code512
  fresh := ⟨Vector.replicate 8 0, Vector.replicate 80 0⟩
  blockLen := 128
  outLen := 48
  digest m st message := do
    let st ← digestCore m code512 s384 st message
    let result := output (st.s.toList.take 6)
    dassert m (result.length == 48)
    return (result, st)

/-- `/repo/src/crypto/hash/sha2/sha384_512.rs:54-91` `Sha512`. -/
def Sha512 : Hasher where
  State := State code512
  fresh := ⟨Vector.replicate 8 0, Vector.replicate 80 0⟩
  blockLen := 128
  outLen := 64
  digest m st message := do
    let st ← digestCore m code512 s512 st message
    let result := output st.s.toList
    dassert m (result.length == 64)
    return (result, st)

end LCT.Hash.Sha2
