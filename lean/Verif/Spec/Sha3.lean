import Verif.Spec.Bits
import Verif.Spec.Sha2

/-!
# The Keccak sponge and SHA-3 (FIPS 202), on bit strings (specification)
-/

namespace LCT.Spec.Sha3
open LCT.Spec.Sha2 (pieces)

/-! ## The state (FIPS 202, section 3.1) -/

/-- The state array `A[x, y, z]`; arithmetic on the indices is modulo 5, 5 and 64. -/
abbrev Arr := Fin 5 → Fin 5 → Fin 64 → Bool

/-- 3.1.2: from a string of 1600 bits: `A[x, y, z] = S[64·(5·y + x) + z]`. -/
def toArr (S : List Bool) : Arr := fun x y z => S.getD (64 * (5 * y.val + x.val) + z.val) false

/-- 3.1.3: to a string: planes, made of lanes, made of bits. -/
def ofArr (A : Arr) : List Bool :=
  (List.finRange 5).flatMap fun y => (List.finRange 5).flatMap fun x => (List.finRange 64).map fun z => A x y z

/-! ## The step mappings (section 3.2) -/

/-- 3.2.1 `θ`. -/
def theta (A : Arr) : Arr :=
  let C (x : Fin 5) (z : Fin 64) := (((A x 0 z ^^ A x 1 z) ^^ A x 2 z) ^^ A x 3 z) ^^ A x 4 z
  let D (x : Fin 5) (z : Fin 64) := C (x - 1) z ^^ C (x + 1) (z - 1)
  fun x y z => A x y z ^^ D x z

/-- 3.2.2: the lane that gets the `t`-th offset. -/
def rhoLane : Nat → Fin 5 × Fin 5
  | 0 => (1, 0)
  | t + 1 => ((rhoLane t).2, 2 * (rhoLane t).1 + 3 * (rhoLane t).2)

/-- 3.2.2: the offset of a lane. -/
def rhoOffset (x y : Fin 5) : Nat :=
  match (List.range 24).find? fun t => rhoLane t == (x, y) with
  | some t => (t + 1) * (t + 2) / 2
  | none => 0

/-- 3.2.2 `ρ`. -/
def rho (A : Arr) : Arr := fun x y z => A x y (z - Fin.ofNat 64 (rhoOffset x y))

/-- 3.2.3 `π`. -/
def pi (A : Arr) : Arr := fun x y z => A (x + 3 * y) x z

/-- 3.2.4 `χ`. -/
def chi (A : Arr) : Arr := fun x y z => A x y z ^^ (!(A (x + 1) y z) && A (x + 2) y z)

/-- 3.2.5, algorithm 5: one step of the register `R`, of eight bits. -/
def lfsr (R : List Bool) : List Bool :=
  let R := false :: R
  let r (i : Nat) := R.getD i false
  [r 0 ^^ r 8, r 1, r 2, r 3, r 4 ^^ r 8, r 5 ^^ r 8, r 6 ^^ r 8, r 7]

/-- 3.2.5, algorithm 5 `rc(t)`. -/
def rc (t : Nat) : Bool := ((lfsr^[t % 255]) [true, false, false, false, false, false, false, false]).getD 0 false

/-- 3.2.5: the round constant: `RC[2^j - 1] = rc(j + 7·i)` for `j ≤ 6`, other bits 0. -/
def RC (i : Nat) (z : Fin 64) : Bool := (List.range 7).any fun j => z.val == 2 ^ j - 1 && rc (j + 7 * i)

/-- 3.2.5 `ι`. -/
def iota (i : Nat) (A : Arr) : Arr := fun x y z => if x = 0 ∧ y = 0 then A x y z ^^ RC i z else A x y z

/-! ## Keccak-f[1600] (sections 3.3, 3.4) -/

/-- One round. -/
def Rnd (A : Arr) (i : Nat) : Arr := iota i (chi (pi (rho (theta A))))

/-- The permutation: 24 rounds. -/
def f (S : List Bool) : List Bool := ofArr ((List.range 24).foldl Rnd (toArr S))

/-! ## The sponge (sections 4, 5) -/

/-- 5.1 `pad10*1(x, m)`; `j` is `-m - 2` modulo `x`. -/
def pad (x m : Nat) : List Bool := [true] ++ List.replicate ((x - (m + 2) % x) % x) false ++ [true]

def xorBits (a b : List Bool) : List Bool := List.zipWith xor a b

/-- The blocks of the padded string are xored into the first `r` bits of the state, which is then permuted. -/
def absorb (r : Nat) (P : List Bool) : List Bool :=
  (pieces r P).foldl (fun S p => f (xorBits S (p ++ List.replicate (1600 - r) false))) (List.replicate 1600 false)

/-- `q` blocks of output. -/
def squeeze (r : Nat) : (q : Nat) → List Bool → List Bool
  | 0, _ => []
  | q + 1, S => S.take r ++ squeeze r q (f S)

/-- 4, 5.2: `KECCAK[c](N, d)`, the sponge with capacity `c` and rate `1600 - c`. -/
def keccak (c : Nat) (N : List Bool) (d : Nat) : List Bool :=
  let r := 1600 - c
  (squeeze r (d / r + 1) (absorb r (N ++ pad r N.length))).take d

/-! ## The hash functions (section 6.1), on byte strings -/

/-- The bytes of a bit string, the least significant bit first. -/
def bytesLSB (bits : List Bool) : List UInt8 :=
  (pieces 8 bits).map fun b => UInt8.ofNat (b.foldr (fun x acc => x.toNat + 2 * acc) 0)

/-- SHA3-d, for `d = 8·out`: `KECCAK[2·d](M ‖ 01, d)`. -/
def sha3 (out : Nat) (msg : List UInt8) : List UInt8 := bytesLSB (keccak (16 * out) (bitsLSB msg ++ [false, true]) (8 * out))

/-- The original Keccak-256, without the suffix: `KECCAK[512](M, 256)`. -/
def keccak256 (msg : List UInt8) : List UInt8 := bytesLSB (keccak 512 (bitsLSB msg) 256)

end LCT.Spec.Sha3
