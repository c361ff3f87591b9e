import Verif.Spec.Ecdsa
import Verif.Spec.Hmac

/-!
# RFC 6979 (specification)

Everything is parameterised by the keyed hash `mac key message` and its output length `hlen` in bytes.
-/

namespace LCT.Spec

/-- The big-endian encoding of `n` in exactly `k` bytes (of the residue modulo `256 ^ k`). -/
def octets : Nat → Nat → List UInt8
  | 0, _ => []
  | k + 1, n => octets k (n / 256) ++ [UInt8.ofNat n]

namespace Rfc6979

/-- 2.3.2 `bits2int`: the leading `qlen` bits of a bit string, as a number. -/
def bits2int (q : Nat) (bs : List UInt8) : Nat := leadingBits (bitLength q) bs

/-- 2.3.3 `int2octets`: `⌈qlen / 8⌉` bytes, big-endian. -/
def int2octets (q x : Nat) : List UInt8 := octets ((bitLength q + 7) / 8) x

/-- 2.3.4 `bits2octets`: `bits2int` reduced modulo `q`, as octets. -/
def bits2octets (q : Nat) (bs : List UInt8) : List UInt8 := int2octets q (bits2int q bs % q)

/-- 3.2 step d and 3.6: the secret key `x`, the message hash and optional additional data, as fed to the generator. -/
def seed (q x : Nat) (hash extra : List UInt8) : List UInt8 := int2octets q x ++ bits2octets q hash ++ extra

/-- The internal state: `K` and `V`. -/
structure State where
  K : List UInt8
  V : List UInt8

variable (mac : List UInt8 → List UInt8 → List UInt8) (hlen : Nat)

/-- 3.2 steps b to g from a `seed`. -/
def start (seed : List UInt8) : State :=
  let V0 := List.replicate hlen 1
  let K0 := List.replicate hlen 0
  let K1 := mac K0 (V0 ++ [0] ++ seed)
  let V1 := mac K1 V0
  let K2 := mac K1 (V1 ++ [1] ++ seed)
  let V2 := mac K2 V1
  ⟨K2, V2⟩

/-- 3.2 step h.2: `V = HMAC_K(V)` iterated `j` times. -/
def chain (K V : List UInt8) : Nat → List UInt8
  | 0 => V
  | j + 1 => mac K (chain K V j)

/-- The number of blocks needed to reach `qlen` bits. -/
def blocks (q : Nat) : Nat := (bitLength q + (8 * hlen - 1)) / (8 * hlen)

/-- 3.2 steps h.1 and h.2: `T` is the concatenation of the next values of `V`. -/
def T (q : Nat) (s : State) : List UInt8 := (List.range (blocks hlen q)).flatMap fun j => chain mac s.K s.V (j + 1)

/-- 3.2 step h.3, when the candidate is not suitable: `K = HMAC_K(V || 0x00)`, `V = HMAC_K(V)`. -/
def next (q : Nat) (s : State) : State :=
  let V := chain mac s.K s.V (blocks hlen q)
  let K := mac s.K (V ++ [0])
  ⟨K, mac K V⟩

/-- The state before the `i`-th candidate. -/
def stateAt (q : Nat) (seed : List UInt8) : Nat → State
  | 0 => start mac hlen seed
  | i + 1 => next mac hlen q (stateAt q seed i)

/-- The `i`-th candidate for the nonce. -/
def candidate (q : Nat) (seed : List UInt8) (i : Nat) : Nat := bits2int q (T mac hlen q (stateAt mac hlen q seed i))

/-- The nonce prescribed by RFC 6979 is the first candidate `k` with `0 < k < q`. -/
def IsNonce (q : Nat) (seed : List UInt8) (k : Nat) : Prop :=
  ∃ i, candidate mac hlen q seed i = k ∧ 0 < k ∧ k < q ∧
    ∀ j < i, ¬ (0 < candidate mac hlen q seed j ∧ candidate mac hlen q seed j < q)

end Rfc6979

end LCT.Spec
