import Verif.Spec.Signing

/-!
# What is hashed on the way to a nonce, and what a reused nonce gives away (specification)
-/

namespace LCT.Spec

namespace Rfc6979
variable (mac : List UInt8 → List UInt8 → List UInt8) (hlen : Nat)

/-- The candidate number `i` is the first suitable one, and it is `k`. -/
def FirstAt (q : Nat) (seed : List UInt8) (i k : Nat) : Prop :=
  candidate mac hlen q seed i = k ∧ 0 < k ∧ k < q ∧ ∀ j < i, ¬ (0 < candidate mac hlen q seed j ∧ candidate mac hlen q seed j < q)

/-- The keys and messages given to the keyed hash in 3.2 steps d to g. -/
def startQueries (seed : List UInt8) : List (List UInt8 × List UInt8) :=
  let V0 := List.replicate hlen 1
  let K0 := List.replicate hlen 0
  let K1 := mac K0 (V0 ++ [0] ++ seed)
  let V1 := mac K1 V0
  let K2 := mac K1 (V1 ++ [1] ++ seed)
  [(K0, V0 ++ [0] ++ seed), (K1, V0), (K1, V1 ++ [1] ++ seed), (K2, V1)]

/-- The same for one candidate: step h.2. -/
def candidateQueries (q : Nat) (s : State) : List (List UInt8 × List UInt8) :=
  (List.range (blocks hlen q)).map fun j => (s.K, chain mac s.K s.V j)

/-- The same for the step to the next candidate: step h.3. -/
def nextQueries (q : Nat) (s : State) : List (List UInt8 × List UInt8) :=
  let V := chain mac s.K s.V (blocks hlen q)
  let K := mac s.K (V ++ [0])
  [(s.K, V ++ [0]), (K, V)]

/-- All keys and messages given to the keyed hash until the candidate number `i` is known. -/
def queries (q : Nat) (seed : List UInt8) : Nat → List (List UInt8 × List UInt8)
  | 0 => startQueries mac hlen seed ++ candidateQueries mac hlen q (stateAt mac hlen q seed 0)
  | i + 1 => queries q seed i ++ nextQueries mac hlen q (stateAt mac hlen q seed i) ++
      candidateQueries mac hlen q (stateAt mac hlen q seed (i + 1))

end Rfc6979

/-- The two messages that HMAC hashes, for a key not longer than a block. -/
def hmacHashes (h : List UInt8 → List UInt8) (block : Nat) (query : List UInt8 × List UInt8) : List (List UInt8) :=
  let k0 := hmacKey h block query.1
  let inner := k0.map (· ^^^ 0x36) ++ query.2
  [inner, k0.map (· ^^^ 0x5c) ++ h inner]

/-- All messages that are hashed until the candidate number `i` is known. -/
def nonceHashes (h : List UInt8 → List UInt8) (block hlen q : Nat) (seed : List UInt8) (i : Nat) : List (List UInt8) :=
  (Rfc6979.queries (hmac h block) hlen q seed i).flatMap (hmacHashes h block)

/-- The generator is led from two seeds to the same nonce `k`, and among the messages hashed on the way from the first seed and on the way
from the second there are two different ones with the same hash. -/
def NonceCollision (h : List UInt8 → List UInt8) (block hlen q : Nat) (seed seed' : List UInt8) (k : Nat) : Prop :=
  ∃ i i', Rfc6979.FirstAt (hmac h block) hlen q seed i k ∧ Rfc6979.FirstAt (hmac h block) hlen q seed' i' k ∧
    ∃ x ∈ nonceHashes h block hlen q seed i, ∃ y ∈ nonceHashes h block hlen q seed' i', x ≠ y ∧ h x = h y

/-- What anybody can compute from two signatures `(r, s)` and `(r, s')` of the hashes `e` and `e'`: two candidates for the secret,
`(s·e' - s'·e) / ((s' - s)·r)` and `-(s·e' + s'·e) / ((s' + s)·r)` modulo `n`. -/
def sameRSecrets (n r s s' e e' : Nat) : List (ZMod n) :=
  [((s : ZMod n) * e' - s' * e) * (((s' : ZMod n) - s) * r)⁻¹, -((s : ZMod n) * e' + s' * e) * (((s' : ZMod n) + s) * r)⁻¹]

end LCT.Spec
