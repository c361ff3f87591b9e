import Verif.Spec.Ethereum

/-!
# The byte strings on which a transaction decoder panics (specification)

The property wants none.  These are the ones there are, described in terms of the RLP grammar: `RelaxedItem t p d` says that `d` is one item of type
`t` with payload `p` (any header form), `RelaxedSeq items d` that `d` is the concatenation of such items, and `DeclaresHugeLength d` that `d`
begins with a header declaring `2^64 - 9` bytes or more.
-/

namespace LCT.Spec.Eth
open LCT LCT.Rlp

/-- The payload of a list: complete items, then a header that declares a huge length. -/
def ChokingItems (p : List UInt8) : Prop :=
  ∃ items before rest, p = before ++ rest ∧ RelaxedSeq items before ∧ DeclaresHugeLength rest

/-- An entry of an access list as it should be: an address of 20 bytes and a list of keys of 32 bytes. -/
def GoodEntry (e : ItemType × List UInt8) : Prop :=
  ∃ a : Access, a.address.length = 20 ∧ (∀ k ∈ a.keys, k.length = 32) ∧ e.1 = .List ∧
    RelaxedTrees [.bytes a.address, .list (a.keys.map .bytes)] e.2

/-- An entry of an access list that makes the decoder panic: a list with a huge length in it; or an address and, in the place of the list of keys,
a list with a huge length in it or (in debug builds only) something that is no list. -/
def BadEntry (m : Build) (e : ItemType × List UInt8) : Prop :=
  e.1 = .List ∧ (ChokingItems e.2 ∨ ∃ address keys, RelaxedSeq [(.SingleValue, address), keys] e.2 ∧ address.length = 20 ∧
    ((keys.1 = .SingleValue ∧ m = .debug) ∨ (keys.1 = .List ∧ ChokingItems keys.2)))

/-- An access list that makes the decoder panic: a list with a huge length in it; or a list of good entries and a bad one after them, whatever follows. -/
def BadAccessList (m : Build) (al : ItemType × List UInt8) : Prop :=
  al.1 = .List ∧ (ChokingItems al.2 ∨ ∃ good e rest, RelaxedSeq (good ++ e :: rest) al.2 ∧ (∀ x ∈ good, GoodEntry x) ∧ BadEntry m e)

/-- The fields of an EIP-2930 transaction before the access list, as they should be. -/
def GoodFront2930 (front : List (ItemType × List UInt8)) : Prop :=
  ∃ chainId nonce gasPrice gasLimit recipient amount data : List UInt8,
    front = [chainId, nonce, gasPrice, gasLimit, recipient, amount, data].map (.SingleValue, ·) ∧
    nonce.length ≤ 8 ∧ ofBE nonce < 2 ^ 64 - 1 ∧ gasLimit.length ≤ 8 ∧ recipient.length = 20

/-- The same of an EIP-1559 transaction. -/
def GoodFront1559 (front : List (ItemType × List UInt8)) : Prop :=
  ∃ chainId nonce maxPriorityFee maxFee gasLimit recipient amount data : List UInt8,
    front = [chainId, nonce, maxPriorityFee, maxFee, gasLimit, recipient, amount, data].map (.SingleValue, ·) ∧
    nonce.length ≤ 8 ∧ ofBE nonce < 2 ^ 64 - 1 ∧ gasLimit.length ≤ 8 ∧ recipient.length = 20

/-- A byte string that makes the decoders of legacy and EIP-155 transactions panic: in debug builds one that itself declares a huge length; in every
build a list with a huge length among its items. -/
def ChokesUntyped (m : Build) (data : List UInt8) : Prop :=
  (m = .debug ∧ DeclaresHugeLength data) ∨ ∃ p, RelaxedItem .List p data ∧ ChokingItems p

/-- A byte string that makes the decoder of a typed transaction panic: one of the above, or a list of as many items as there should be, with good
fields before the access list and a bad access list. -/
def ChokesTyped (m : Build) (goodFront : List (ItemType × List UInt8) → Prop) (data : List UInt8) : Prop :=
  ChokesUntyped m data ∨ ∃ p front al y r s, RelaxedItem .List p data ∧ RelaxedSeq (front ++ [al, y, r, s]) p ∧ goodFront front ∧
    BadAccessList m al

end LCT.Spec.Eth
