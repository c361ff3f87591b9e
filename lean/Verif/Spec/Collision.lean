import Verif.Spec.Sha2
import Verif.Spec.Sha3

/-!
# Collisions in the core of a hash function (specification)
-/

namespace LCT.Spec.Sha2
variable {v : Nat}

/-- The hash value after some blocks. -/
def after (A : Variant v) (init : Work v) (blocks : List (List UInt8)) : Work v :=
  blocks.foldl (fun H block => compress A H (wordsOf v block)) init

/-- The blocks of a message. -/
def blocksOf (v : Nat) (msg : List UInt8) : List (List UInt8) := pieces (blockBytes v) (padded v msg)

/-- Hashing `a` and `b` calls the compression function, at the block `i` of `a` and the block `j` of `b`, with different arguments, and gets the same
result. -/
def CompressionCollides (A : Variant v) (init : Work v) (a b : List UInt8) : Prop :=
  ∃ (i j : Nat) (x y : List UInt8), (blocksOf v a)[i]? = some x ∧ (blocksOf v b)[j]? = some y ∧
    (after A init ((blocksOf v a).take i), wordsOf v x) ≠ (after A init ((blocksOf v b).take j), wordsOf v y) ∧
    compress A (after A init ((blocksOf v a).take i)) (wordsOf v x) = compress A (after A init ((blocksOf v b).take j)) (wordsOf v y)

/-- Hashing ends with different hash values that agree in the words that are output. -/
def TruncationCollides (A : Variant v) (init : Work v) (words : Nat) (a b : List UInt8) : Prop :=
  hashValue A init a ≠ hashValue A init b ∧ (hashValue A init a).words.take words = (hashValue A init b).words.take words

end LCT.Spec.Sha2

namespace LCT.Spec.Sha3
open LCT.Spec.Sha2 (pieces)

/-- The state after some blocks. -/
def after (r : Nat) (blocks : List (List Bool)) : List Bool :=
  blocks.foldl (fun S p => f (xorBits S (p ++ List.replicate (1600 - r) false))) (List.replicate 1600 false)

/-- The blocks of a message with its suffix. -/
def blocksOf (r : Nat) (suffix : List Bool) (msg : List UInt8) : List (List Bool) :=
  pieces r ((bitsLSB msg ++ suffix) ++ pad r (bitsLSB msg ++ suffix).length)

/-- Hashing ends with different states that agree in the `d` bits that are output. -/
def OutputCollides (r : Nat) (suffix : List Bool) (d : Nat) (a b : List UInt8) : Prop :=
  after r (blocksOf r suffix a) ≠ after r (blocksOf r suffix b) ∧
    (after r (blocksOf r suffix a)).take d = (after r (blocksOf r suffix b)).take d

/-- Hashing `a` and `b` absorbs, before the last block, different lists of blocks after which the states agree outside the first `r` bits. -/
def InnerCollides (r : Nat) (suffix : List Bool) (a b : List UInt8) : Prop :=
  (blocksOf r suffix a).dropLast ≠ (blocksOf r suffix b).dropLast ∧
    (after r (blocksOf r suffix a).dropLast).drop r = (after r (blocksOf r suffix b).dropLast).drop r

end LCT.Spec.Sha3
