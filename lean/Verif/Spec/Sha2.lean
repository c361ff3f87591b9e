import Verif.Spec.Rfc6979

/-!
# The Secure Hash Algorithms SHA-256, SHA-384 and SHA-512 (FIPS 180-4), for messages made of whole bytes (specification)

`v` is the number of bits of a word: 32 for SHA-256, 64 for SHA-384 and SHA-512.  A block has 16 words.
-/

namespace LCT.Spec.Sha2
variable {v : Nat}

/-! ## Functions on words (FIPS 180-4, sections 3.2, 4.1) -/

def ROTR (n : Nat) (x : BitVec v) : BitVec v := (x >>> n) ||| (x <<< (v - n))
def SHR (n : Nat) (x : BitVec v) : BitVec v := x >>> n
def Ch (x y z : BitVec v) : BitVec v := (x &&& y) ^^^ (~~~x &&& z)
def Maj (x y z : BitVec v) : BitVec v := (x &&& y) ^^^ (x &&& z) ^^^ (y &&& z)

/-- The functions and constants of one algorithm. -/
structure Variant (v : Nat) where
  /-- `Σ₀` and `Σ₁` -/
  (S0 S1 : BitVec v → BitVec v)
  /-- `σ₀` and `σ₁` -/
  (s0 s1 : BitVec v → BitVec v)
  /-- The constants `K`, one for each round. -/
  K : List Nat

/-! ## The message (sections 5.1, 5.2) -/

/-- The number of bytes of a block. -/
def blockBytes (v : Nat) : Nat := 16 * v / 8

/-- The number of bytes of the length field. -/
def lengthBytes (v : Nat) : Nat := 2 * v / 8

/-- The number of zero bytes of the padding: the least number that makes the length a multiple of the block (see `C33`). -/
def zeroBytes (v len : Nat) : Nat := (blockBytes v - (len + 1 + lengthBytes v) % blockBytes v) % blockBytes v

/-- The padded message: a bit 1 and zeros, then the length in bits. -/
def padded (v : Nat) (msg : List UInt8) : List UInt8 :=
  msg ++ [0x80] ++ List.replicate (zeroBytes v msg.length) 0 ++ octets (lengthBytes v) (8 * msg.length)

/-- A list cut into pieces of length `n`. -/
def pieces {α : Type} (n : Nat) (l : List α) : List (List α) := (List.range (l.length / n)).map fun i => (l.drop (i * n)).take n

/-- The words of a block. -/
def wordsOf (v : Nat) (block : List UInt8) : List (BitVec v) := (pieces (v / 8) block).map fun b => BitVec.ofNat v (ofBE b)

/-! ## Hash computation (sections 6.2, 6.4) -/

/-- The message schedule `W₀, W₁, …`. -/
def schedule (A : Variant v) (M : List (BitVec v)) (t : Nat) : BitVec v :=
  if t < 16 then M.getD t 0
  else A.s1 (schedule A M (t - 2)) + schedule A M (t - 7) + A.s0 (schedule A M (t - 15)) + schedule A M (t - 16)
termination_by t
decreasing_by all_goals omega

/-- The eight working variables, or the eight words of a hash value. -/
structure Work (v : Nat) where
  (a b c d e f g h : BitVec v)

/-- One round, with the constant `k` and the word `w`. -/
def round (A : Variant v) (k w : BitVec v) (x : Work v) : Work v :=
  let T1 := x.h + A.S1 x.e + Ch x.e x.f x.g + k + w
  let T2 := A.S0 x.a + Maj x.a x.b x.c
  ⟨T1 + T2, x.a, x.b, x.c, x.d + T1, x.e, x.f, x.g⟩

/-- All rounds. -/
def rounds (A : Variant v) (M : List (BitVec v)) (H : Work v) : Work v :=
  (List.range A.K.length).foldl (fun x t => round A (BitVec.ofNat v (A.K.getD t 0)) (schedule A M t) x) H

/-- The next hash value, from the words of a block. -/
def compress (A : Variant v) (H : Work v) (M : List (BitVec v)) : Work v :=
  let x := rounds A M H
  ⟨x.a + H.a, x.b + H.b, x.c + H.c, x.d + H.d, x.e + H.e, x.f + H.f, x.g + H.g, x.h + H.h⟩

/-- The hash value of a message. -/
def hashValue (A : Variant v) (init : Work v) (msg : List UInt8) : Work v :=
  (pieces (blockBytes v) (padded v msg)).foldl (fun H block => compress A H (wordsOf v block)) init

/-- The words of a hash value. -/
def Work.words (x : Work v) : List (BitVec v) := [x.a, x.b, x.c, x.d, x.e, x.f, x.g, x.h]

/-- Words as bytes. -/
def bytesOf (ws : List (BitVec v)) : List UInt8 := ws.flatMap fun x => octets (v / 8) x.toNat

/-! ## The algorithms -/

/-- The functions of SHA-256 (4.1.2) and its constants (4.2.2). -/
def A256 : Variant 32 where
  S0 x := ROTR 2 x ^^^ ROTR 13 x ^^^ ROTR 22 x
  S1 x := ROTR 6 x ^^^ ROTR 11 x ^^^ ROTR 25 x
  s0 x := ROTR 7 x ^^^ ROTR 18 x ^^^ SHR 3 x
  s1 x := ROTR 17 x ^^^ ROTR 19 x ^^^ SHR 10 x
  K := [
  0x428a2f98, 0x71374491, 0xb5c0fbcf, 0xe9b5dba5, 0x3956c25b, 0x59f111f1, 0x923f82a4, 0xab1c5ed5,
  0xd807aa98, 0x12835b01, 0x243185be, 0x550c7dc3, 0x72be5d74, 0x80deb1fe, 0x9bdc06a7, 0xc19bf174,
  0xe49b69c1, 0xefbe4786, 0x0fc19dc6, 0x240ca1cc, 0x2de92c6f, 0x4a7484aa, 0x5cb0a9dc, 0x76f988da,
  0x983e5152, 0xa831c66d, 0xb00327c8, 0xbf597fc7, 0xc6e00bf3, 0xd5a79147, 0x06ca6351, 0x14292967,
  0x27b70a85, 0x2e1b2138, 0x4d2c6dfc, 0x53380d13, 0x650a7354, 0x766a0abb, 0x81c2c92e, 0x92722c85,
  0xa2bfe8a1, 0xa81a664b, 0xc24b8b70, 0xc76c51a3, 0xd192e819, 0xd6990624, 0xf40e3585, 0x106aa070,
  0x19a4c116, 0x1e376c08, 0x2748774c, 0x34b0bcb5, 0x391c0cb3, 0x4ed8aa4a, 0x5b9cca4f, 0x682e6ff3,
  0x748f82ee, 0x78a5636f, 0x84c87814, 0x8cc70208, 0x90befffa, 0xa4506ceb, 0xbef9a3f7, 0xc67178f2]

/-- The functions of SHA-384 and SHA-512 (4.1.3) and their constants (4.2.3). -/
def A512 : Variant 64 where
  S0 x := ROTR 28 x ^^^ ROTR 34 x ^^^ ROTR 39 x
  S1 x := ROTR 14 x ^^^ ROTR 18 x ^^^ ROTR 41 x
  s0 x := ROTR 1 x ^^^ ROTR 8 x ^^^ SHR 7 x
  s1 x := ROTR 19 x ^^^ ROTR 61 x ^^^ SHR 6 x
  K := [
  0x428a2f98d728ae22, 0x7137449123ef65cd, 0xb5c0fbcfec4d3b2f, 0xe9b5dba58189dbbc,
  0x3956c25bf348b538, 0x59f111f1b605d019, 0x923f82a4af194f9b, 0xab1c5ed5da6d8118,
  0xd807aa98a3030242, 0x12835b0145706fbe, 0x243185be4ee4b28c, 0x550c7dc3d5ffb4e2,
  0x72be5d74f27b896f, 0x80deb1fe3b1696b1, 0x9bdc06a725c71235, 0xc19bf174cf692694,
  0xe49b69c19ef14ad2, 0xefbe4786384f25e3, 0x0fc19dc68b8cd5b5, 0x240ca1cc77ac9c65,
  0x2de92c6f592b0275, 0x4a7484aa6ea6e483, 0x5cb0a9dcbd41fbd4, 0x76f988da831153b5,
  0x983e5152ee66dfab, 0xa831c66d2db43210, 0xb00327c898fb213f, 0xbf597fc7beef0ee4,
  0xc6e00bf33da88fc2, 0xd5a79147930aa725, 0x06ca6351e003826f, 0x142929670a0e6e70,
  0x27b70a8546d22ffc, 0x2e1b21385c26c926, 0x4d2c6dfc5ac42aed, 0x53380d139d95b3df,
  0x650a73548baf63de, 0x766a0abb3c77b2a8, 0x81c2c92e47edaee6, 0x92722c851482353b,
  0xa2bfe8a14cf10364, 0xa81a664bbc423001, 0xc24b8b70d0f89791, 0xc76c51a30654be30,
  0xd192e819d6ef5218, 0xd69906245565a910, 0xf40e35855771202a, 0x106aa07032bbd1b8,
  0x19a4c116b8d2d0c8, 0x1e376c085141ab53, 0x2748774cdf8eeb99, 0x34b0bcb5e19b48a8,
  0x391c0cb3c5c95a63, 0x4ed8aa4ae3418acb, 0x5b9cca4f7763e373, 0x682e6ff3d6b2b8a3,
  0x748f82ee5defb2fc, 0x78a5636f43172f60, 0x84c87814a1f0ab72, 0x8cc702081a6439ec,
  0x90befffa23631e28, 0xa4506cebde82bde9, 0xbef9a3f7b2c67915, 0xc67178f2e372532b,
  0xca273eceea26619c, 0xd186b8c721c0c207, 0xeada7dd6cde0eb1e, 0xf57d4f7fee6ed178,
  0x06f067aa72176fba, 0x0a637dc5a2c898a6, 0x113f9804bef90dae, 0x1b710b35131c471b,
  0x28db77f523047d84, 0x32caab7b40c72493, 0x3c9ebe0a15c9bebc, 0x431d67c49c100d4c,
  0x4cc5d4becb3e42b6, 0x597f299cfc657e2a, 0x5fcb6fab3ad6faec, 0x6c44198c4a475817]

/-- The initial hash values (5.3.3, 5.3.4, 5.3.5). -/
def H256 : Work 32 := ⟨0x6a09e667, 0xbb67ae85, 0x3c6ef372, 0xa54ff53a, 0x510e527f, 0x9b05688c, 0x1f83d9ab, 0x5be0cd19⟩
def H384 : Work 64 := ⟨0xcbbb9d5dc1059ed8, 0x629a292a367cd507, 0x9159015a3070dd17, 0x152fecd8f70e5939,
  0x67332667ffc00b31, 0x8eb44a8768581511, 0xdb0c2e0d64f98fa7, 0x47b5481dbefa4fa4⟩
def H512 : Work 64 := ⟨0x6a09e667f3bcc908, 0xbb67ae8584caa73b, 0x3c6ef372fe94f82b, 0xa54ff53a5f1d36f1,
  0x510e527fade682d1, 0x9b05688c2b3e6c1f, 0x1f83d9abfb41bd6b, 0x5be0cd19137e2179⟩

/-- SHA-256. -/
def sha256 (msg : List UInt8) : List UInt8 := bytesOf (hashValue A256 H256 msg).words

/-- SHA-384: six of the eight words. -/
def sha384 (msg : List UInt8) : List UInt8 := bytesOf ((hashValue A512 H384 msg).words.take 6)

/-- SHA-512. -/
def sha512 (msg : List UInt8) : List UInt8 := bytesOf (hashValue A512 H512 msg).words

/-! ## Where the constants come from -/

/-- `k` is made of the first `v` bits of the fractional part of the cube root of `p`. -/
def CubeRootBits (v p k : Nat) : Prop := ∃ r, r ^ 3 ≤ p * 2 ^ (3 * v) ∧ p * 2 ^ (3 * v) < (r + 1) ^ 3 ∧ k = r % 2 ^ v

/-- `k` is made of the first `v` bits of the fractional part of the square root of `p`. -/
def SquareRootBits (v p k : Nat) : Prop := ∃ r, r ^ 2 ≤ p * 2 ^ (2 * v) ∧ p * 2 ^ (2 * v) < (r + 1) ^ 2 ∧ k = r % 2 ^ v

end LCT.Spec.Sha2
