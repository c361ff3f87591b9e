import Verif.Model.Ethereum.Transaction

/-!
# The transaction builder (specification)

What a user of `TransactionBuilder` can rely on, in terms of the calls made so far and nothing else: which value, if any, each field holds.
-/

namespace LCT.Spec.Eth
open LCT.Ethereum LCT.BigInt

/-- The ten things that can be set. -/
inductive Field where
  | chainId | nonce | gasPrice | maxPriorityFeePerGas | maxFeePerGas | gasLimit | destination | amount | data | accessList
  deriving DecidableEq, Repr

/-- The type of its value. -/
def Field.Val : Field → Type
  | .chainId => ChainId
  | .nonce => EoaNonce
  | .gasPrice => Wei
  | .maxPriorityFeePerGas => Wei
  | .maxFeePerGas => Wei
  | .gasLimit => UInt64
  | .destination => Address
  | .amount => Wei
  | .data => List UInt8
  | .accessList => AccessList

/-- The kinds of payload that can be built. -/
inductive Kind where
  | legacy | eip155 | eip2930 | eip1559
  deriving DecidableEq, Repr

/-- The fields without which a payload cannot be built. -/
def Kind.mandatory : Kind → List Field
  | .legacy => [.nonce, .gasPrice, .gasLimit, .destination, .amount]
  | .eip155 => [.chainId, .nonce, .gasPrice, .gasLimit, .destination, .amount]
  | .eip2930 => [.chainId, .nonce, .gasPrice, .gasLimit, .destination, .amount]
  | .eip1559 => [.chainId, .nonce, .maxPriorityFeePerGas, .maxFeePerGas, .gasLimit, .destination, .amount]

/-- The fields that may be left out; they are then empty. -/
def Kind.optional : Kind → List Field
  | .legacy => [.data]
  | .eip155 => [.data]
  | .eip2930 => [.data, .accessList]
  | .eip1559 => [.data, .accessList]

/-- A call to a method of the builder. -/
inductive Call where
  | set (f : Field) (v : f.Val)
  | build (k : Kind)

/-- The value of a field after a history of calls, the latest call first: the last value set, unless a payload with that field has been built
since.  (A call to build a payload changes nothing if a mandatory field has no value.) -/
def current : List Call → (f : Field) → Option f.Val
  | [], _ => none
  | .set g v :: history, f => if h : g = f then some (h ▸ v) else current history f
  | .build k :: history, f =>
    if f ∈ k.mandatory ++ k.optional ∧ ∀ g ∈ k.mandatory, (current history g).isSome then none else current history f

/-- Some mandatory field has no value. -/
def Missing (history : List Call) (k : Kind) : Prop := ∃ f ∈ k.mandatory, current history f = none

end LCT.Spec.Eth
