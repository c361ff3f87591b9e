import Verif.Spec.KeyClient
import Verif.Spec.Secp256k1
import Verif.Lemmas.Crypto.Secp256k1
import Verif.Spec.Display
import Verif.Spec.Builder
import Verif.Spec.TxPanics
import Verif.Spec.Texts
import Verif.Spec.Sha2
import Verif.Model.Ethereum.Account
import Verif.Model.Ethereum.Display

/-!
# Programs that use Ethereum accounts and transactions (specification)

As in `Spec/KeyClient`, a program is a client that makes one call after another on what earlier calls returned.  Besides numbers, keys and signatures
it holds builders ("drafts"), payloads and signed transactions.  The curve is secp256k1, and nonces come from RFC 6979 with SHA-256.
-/

namespace LCT.Spec.Eth
open LCT.BigInt LCT.Crypto LCT.Random LCT.Hash LCT.Ethereum LCT.Rlp

/-- The fields that are amounts of Wei. -/
inductive WeiField where
  | gasPrice | maxPriorityFee | maxFee | amount

/-- A call. -/
inductive WalletRequest where
  /-- a call on numbers, keys and signatures -/
  | key (q : KeyRequest)
  /-- `EoaPrivateKey::new` with 32 bytes -/
  | secret (data : List UInt8) (len : data.length = 32)
  /-- `EoaPublicKey::address` of a public key, printed -/
  | address (q : Nat)
  /-- `TransactionBuilder::new` -/
  | draft
  /-- `chain_id` of a builder with `ChainId::from(n)` -/
  | setChainId (d : Nat) (n : UInt64)
  /-- `nonce` of a builder with `EoaNonce::from_u64(n)`, if that is a nonce -/
  | setNonce (d : Nat) (n : UInt64)
  /-- `gas_price`, `max_priority_fee_per_gas`, `max_fee_per_gas` or `amount` of a builder with `Wei::try_from(text)`, if that is one -/
  | setWei (d : Nat) (field : WeiField) (text : List UInt8)
  /-- `gas_limit` of a builder -/
  | setGasLimit (d : Nat) (n : UInt64)
  /-- `destination` of a builder with `Address::try_from(text)`, if that is one -/
  | setDestination (d : Nat) (text : List UInt8)
  /-- `data` of a builder -/
  | setData (d : Nat) (data : List UInt8)
  /-- `access_list` of a builder -/
  | setAccessList (d : Nat) (l : AccessList)
  /-- `take_and_build_payload_…` of a builder -/
  | build (d : Nat) (kind : Kind)
  /-- `take_and_sign_with_options` of a payload with a private key -/
  | sign (p k : Nat) (o : SigningOptions)
  /-- `encode` of a transaction -/
  | encode (t : Nat)
  /-- `decode` of a byte string as a transaction of some kind (of typed ones, what follows the type byte) -/
  | decode (kind : Kind) (data : List UInt8)
  /-- `to_string` of a transaction -/
  | show (t : Nat)

/-- What a client sees of the outcome of a call. -/
inductive WalletReply where
  | key (r : KeyReply)
  /-- whether there is a result -/
  | some (present : Bool)
  | done
  | text (t : List UInt8)
  | bytes (b : List UInt8)
  | notSigned (e : SigningError)
  | notDecoded (e : RlpErr)

/-- A client decides on the next call from the replies so far. -/
abbrev WalletClient := List WalletReply → WalletRequest

/-! ## Mathematics -/

/-- An unfinished transaction: the values that have been set. -/
structure Draft where
  chainId : Option Nat
  nonce : Option Nat
  gasPrice : Option Nat
  maxPriorityFee : Option Nat
  maxFee : Option Nat
  gasLimit : Option Nat
  recipient : Option (List UInt8)
  amount : Option Nat
  data : Option (List UInt8)
  accessList : Option (List Access)

def Draft.empty : Draft := ⟨none, none, none, none, none, none, none, none, none, none⟩

def Draft.setWei (d : Draft) (n : Nat) : WeiField → Draft
  | .gasPrice => { d with gasPrice := some n }
  | .maxPriorityFee => { d with maxPriorityFee := some n }
  | .maxFee => { d with maxFee := some n }
  | .amount => { d with amount := some n }

/-- The payload of a kind that a draft is complete for; data and access list are empty if they have not been set. -/
def Draft.payload (d : Draft) : Kind → Option Payload
  | .legacy => do some (.legacy ⟨← d.nonce, ← d.gasPrice, ← d.gasLimit, ← d.recipient, ← d.amount, d.data.getD []⟩)
  | .eip155 => do some (.eip155 ⟨← d.chainId, ← d.nonce, ← d.gasPrice, ← d.gasLimit, ← d.recipient, ← d.amount, d.data.getD []⟩)
  | .eip2930 => do
    some (.eip2930 ⟨← d.chainId, ← d.nonce, ← d.gasPrice, ← d.gasLimit, ← d.recipient, ← d.amount, d.data.getD [], d.accessList.getD []⟩)
  | .eip1559 => do
    some (.eip1559 ⟨← d.chainId, ← d.nonce, ← d.maxPriorityFee, ← d.maxFee, ← d.gasLimit, ← d.recipient, ← d.amount, d.data.getD [],
      d.accessList.getD []⟩)

/-- What is left of a draft after a payload of a kind has been taken from it: the fields which that kind does not have. -/
def Draft.rest (d : Draft) : Kind → Draft
  | .legacy => { Draft.empty with chainId := d.chainId, maxPriorityFee := d.maxPriorityFee, maxFee := d.maxFee, accessList := d.accessList }
  | .eip155 => { Draft.empty with maxPriorityFee := d.maxPriorityFee, maxFee := d.maxFee, accessList := d.accessList }
  | .eip2930 => { Draft.empty with maxPriorityFee := d.maxPriorityFee, maxFee := d.maxFee }
  | .eip1559 => { Draft.empty with gasPrice := d.gasPrice }

/-- The signed transaction that a payload and a signature make: `v` is `27 + parity`, `35 + 2·chainId + parity` (EIP-155) or the parity itself. -/
def Payload.signed (parity r s : Nat) : Payload → Signed
  | .legacy t => .legacy t (27 + parity) r s
  | .eip155 t => .eip155 t (35 + 2 * t.chainId + parity) r s
  | .eip2930 t => .eip2930 t parity r s
  | .eip1559 t => .eip1559 t parity r s

/-- The bytes of a signed transaction: the RLP list, after the type byte if the kind has one. -/
def Signed.wire : Signed → List UInt8
  | .legacy t v r s => rlp (signedList t.fields v r s)
  | .eip155 t v r s => rlp (signedList t.fields v r s)
  | .eip2930 t y r s => 1 :: rlp (signedList t.fields y r s)
  | .eip1559 t y r s => 2 :: rlp (signedList t.fields y r s)

/-- The byte string is read as this signed transaction of this kind: an RLP list of its fields, with the values that the types admit.  Headers and
numbers need not be the shortest (C37, C59), and the chain id of an EIP-155 transaction is `(v - 35) / 4`, which is not what EIP-155 says (C41). -/
def ReadAs (data : List UInt8) : Kind → Signed → Prop
  | .legacy, .legacy t v r s => t.Valid ∧ v < 256 ∧ IsListOf (t.kinds v r s) data
  | .eip155, .eip155 t v r s => t.Valid ∧ 35 ≤ v ∧ t.chainId = (v - 35) / 4 ∧ IsListOf (t.kinds v r s) data
  | .eip2930, .eip2930 t y r s => t.Valid ∧ y ≤ 1 ∧ IsListOf (t.kinds y r s) data
  | .eip1559, .eip1559 t y r s => t.Valid ∧ y ≤ 1 ∧ IsListOf (t.kinds y r s) data
  | _, _ => False

/-- The byte string has the nine fields of an EIP-155 transaction, but `v` is below 35. -/
def OtherType (data : List UInt8) (k : Kind) : Prop :=
  k = .eip155 ∧ ∃ (t : Eip155) (v r s : Nat), t.Valid ∧ v < 35 ∧ IsListOf (t.kinds v r s) data

/-- The byte string makes the decoder panic (C56). -/
def Chokes (m : Build) (data : List UInt8) : Kind → Prop
  | .legacy | .eip155 => ChokesUntyped m data
  | .eip2930 => ChokesTyped m GoodFront2930 data
  | .eip1559 => ChokesTyped m GoodFront1559 data

/-- The text is read as this amount of Wei: `0x` and an even number of hex digits or none, possibly after a `+`; or nothing; or digits 0 to 9 and
`a`, which stands for ten, possibly after a sign (C58). -/
def WeiText (s : List UInt8) (z : Int) : Prop :=
  (∃ t, s = 48 :: 120 :: t ∧ ((t = [] ∧ z = 0) ∨ (HexNumeral t z ∧ t.head? ≠ some 45))) ∨ (s = [] ∧ z = 0) ∨ SignedNumeral 10 11 s z

/-- The text is `0x` and the 40 hex digits, in upper or lower case, of the address. -/
def AddressText (s a : List UInt8) : Prop :=
  a.length = 20 ∧ ∃ h, s = 48 :: 120 :: h ∧ h.length = 40 ∧ (∀ c ∈ h, IsHexDigit c) ∧ h.map lowerChar = hexOf a

/-- What the client holds, in mathematical terms. -/
structure Wallet where
  keys : Holds Secp256k1.p 0 7
  drafts : List Draft
  payloads : List Payload
  transactions : List Signed

/-- The answers of `Spec/KeyClient` for secp256k1 and SHA-256. -/
abbrev EthKeyIdeal (rand : Nat → Out RandomError (List UInt8)) (x : Holds Secp256k1.p 0 7) (q : KeyRequest)
    (an : Option (KeyReply × Holds Secp256k1.p 0 7)) : Prop :=
  KeyIdeal Sha2.Sha256 Sha2.sha256 Secp256k1.n LCT.Secp256k1.G rand x q an

/-- The standards answer a call: with a reply and what the client holds from then on, or (`none`) with a panic.  `rand` are the random bytes that the
operating system delivers during the call; the build matters for the byte strings on which decoders panic. -/
inductive WalletIdeal (m : Build) (rand : Nat → Out RandomError (List UInt8)) (x : Wallet) : WalletRequest → Option (WalletReply × Wallet) → Prop where
  | key {q r ks} : EthKeyIdeal rand x.keys q (.some (r, ks)) → WalletIdeal m rand x (.key q) (.some (.key r, { x with keys := ks }))
  | keyPanic {q} : EthKeyIdeal rand x.keys q none → WalletIdeal m rand x (.key q) none
  | secret {data len} : 0 < ofBE data → ofBE data < Secp256k1.n →
    WalletIdeal m rand x (.secret data len) (.some (.some true, { x with keys := { x.keys with secrets := x.keys.secrets ++ [ofBE data] } }))
  | noSecret {data len} : ofBE data = 0 ∨ Secp256k1.n ≤ ofBE data → WalletIdeal m rand x (.secret data len) (.some (.some false, x))
  | address {q Q} : x.keys.keys[q]? = .some Q →
    WalletIdeal m rand x (.address q) (.some (.text (addressText (addressOf Sha3.keccak256 (xCoord Q) (yCoord Q))), x))
  | draft : WalletIdeal m rand x .draft (.some (.done, { x with drafts := x.drafts ++ [Draft.empty] }))
  | setChainId {d n dr} : x.drafts[d]? = .some dr →
    WalletIdeal m rand x (.setChainId d n) (.some (.done, { x with drafts := x.drafts.set d { dr with chainId := some n.toNat } }))
  /-- EIP-2681: nonces are below `2^64 - 1`. -/
  | setNonce {d n dr} : x.drafts[d]? = .some dr → n.toNat < 2 ^ 64 - 1 →
    WalletIdeal m rand x (.setNonce d n) (.some (.some true, { x with drafts := x.drafts.set d { dr with nonce := some n.toNat } }))
  | noNonce {d n dr} : x.drafts[d]? = .some dr → 2 ^ 64 - 1 ≤ n.toNat → WalletIdeal m rand x (.setNonce d n) (.some (.some false, x))
  | setWei {d f t dr} {n : Nat} : x.drafts[d]? = .some dr → WeiText t n →
    WalletIdeal m rand x (.setWei d f t) (.some (.some true, { x with drafts := x.drafts.set d (dr.setWei n f) }))
  | noWei {d f t dr} : x.drafts[d]? = .some dr → (∀ z, ¬ WeiText t z) → WalletIdeal m rand x (.setWei d f t) (.some (.some false, x))
  | setGasLimit {d n dr} : x.drafts[d]? = .some dr →
    WalletIdeal m rand x (.setGasLimit d n) (.some (.done, { x with drafts := x.drafts.set d { dr with gasLimit := some n.toNat } }))
  | setDestination {d t dr a} : x.drafts[d]? = .some dr → AddressText t a →
    WalletIdeal m rand x (.setDestination d t) (.some (.some true, { x with drafts := x.drafts.set d { dr with recipient := some a } }))
  | noDestination {d t dr} : x.drafts[d]? = .some dr → (∀ a, ¬ AddressText t a) →
    WalletIdeal m rand x (.setDestination d t) (.some (.some false, x))
  | setData {d b dr} : x.drafts[d]? = .some dr →
    WalletIdeal m rand x (.setData d b) (.some (.done, { x with drafts := x.drafts.set d { dr with data := some b } }))
  | setAccessList {d l dr} : x.drafts[d]? = .some dr →
    WalletIdeal m rand x (.setAccessList d l) (.some (.done, { x with drafts := x.drafts.set d { dr with accessList := some (accesses l) } }))
  | build {d k dr P} : x.drafts[d]? = .some dr → dr.payload k = some P →
    WalletIdeal m rand x (.build d k) (.some (.some true, { x with drafts := x.drafts.set d (dr.rest k), payloads := x.payloads ++ [P] }))
  | missing {d k dr} : x.drafts[d]? = .some dr → dr.payload k = none → WalletIdeal m rand x (.build d k) (.some (.some false, x))
  /-- The signature of the hash of the payload's preimage, as `Spec/KeyClient` has it. -/
  | sign {p k o P id ks r s} : x.payloads[p]? = .some P →
    EthKeyIdeal rand x.keys (.sign k (Sha3.keccak256 P.preimage) o) (.some (.signed id, ks)) → ks.signatures = x.keys.signatures ++ [(r, s)] →
    WalletIdeal m rand x (.sign p k o)
      (.some (.done, { x with transactions := x.transactions ++ [P.signed (if idOdd id then 1 else 0) r s] }))
  | notSigned {p k o P e ks} : x.payloads[p]? = .some P →
    EthKeyIdeal rand x.keys (.sign k (Sha3.keccak256 P.preimage) o) (.some (.notSigned e, ks)) →
    WalletIdeal m rand x (.sign p k o) (.some (.notSigned e, x))
  | encode {t T} : x.transactions[t]? = .some T → WalletIdeal m rand x (.encode t) (.some (.bytes T.wire, x))
  | decode {k data T} : ReadAs data k T →
    WalletIdeal m rand x (.decode k data) (.some (.done, { x with transactions := x.transactions ++ [T] }))
  | otherType {k data} : OtherType data k → WalletIdeal m rand x (.decode k data) (.some (.notDecoded .TransactionTypeMismatch, x))
  | malformed {k data} : (∀ T, ¬ ReadAs data k T) → ¬ OtherType data k → ¬ Chokes m data k →
    WalletIdeal m rand x (.decode k data) (.some (.notDecoded .InvalidFormat, x))
  | choke {k data} : Chokes m data k → WalletIdeal m rand x (.decode k data) none
  | show {t T} : x.transactions[t]? = .some T → WalletIdeal m rand x (.show t) (.some (.text T.text, x))

/-- The client talks to the standards: after these replies it holds these things.  `env i` are the random bytes delivered during the `i`-th call. -/
inductive WalletRun (m : Build) (c : WalletClient) (env : Nat → Nat → Out RandomError (List UInt8)) : List WalletReply → Wallet → Prop where
  | start : WalletRun m c env [] ⟨⟨[], [], [], []⟩, [], [], []⟩
  | call {rs x r x'} : WalletRun m c env rs x → WalletIdeal m (env rs.length) x (c rs) (.some (r, x')) → WalletRun m c env (rs ++ [r]) x'

/-- The call can be written in Rust when the client holds these things and is none of those on which numbers deviate (C04, C08, C58: a text that is
read as a negative amount); byte strings and encodings are shorter than `2^64` bytes. -/
def WalletRequest.Proper (x : Wallet) : WalletRequest → Prop
  | .key q => q.Proper x.keys
  | .secret _ _ | .draft => True
  | .address q => q < x.keys.keys.length
  | .setChainId d _ | .setNonce d _ | .setGasLimit d _ | .setDestination d _ | .setData d _ | .setAccessList d _ | .build d _ => d < x.drafts.length
  | .setWei d _ t => d < x.drafts.length ∧ ∀ z, WeiText t z → 0 ≤ z
  | .sign p k _ => k < x.keys.secrets.length ∧ ∃ P, x.payloads[p]? = some P ∧ P.preimage.length < 2 ^ 64
  | .encode t => ∃ T, x.transactions[t]? = some T ∧ T.wire.length < 2 ^ 64
  | .decode _ data => data.length < 2 ^ 64
  | .show t => t < x.transactions.length

/-! ## The same client with the library -/

inductive AnyPayload where
  | legacy (p : PayloadLegacy)
  | eip155 (p : PayloadEip155)
  | eip2930 (p : PayloadEip2930)
  | eip1559 (p : PayloadEip1559)

inductive AnyTransaction where
  | legacy (t : TransactionLegacy)
  | eip155 (t : TransactionEip155)
  | eip2930 (t : TransactionEip2930)
  | eip1559 (t : TransactionEip1559)

/-- What the client holds.  The keys of accounts are kept with the other keys, which they wrap; and a payload can be signed again, although Rust
takes it away from the client. -/
structure WalletObjects where
  keys : Objects
  drafts : List Builder
  payloads : List AnyPayload
  transactions : List AnyTransaction

/-- The outcome of a call as a reply. -/
def walletReply {ε α : Type} (x : Out ε α) (ok : α → WalletReply × WalletObjects) (err : ε → WalletReply × WalletObjects) :
    Out Unit (WalletReply × WalletObjects) :=
  match x with
  | .ok r => .ok (ok r)
  | .err e => .ok (err e)
  | .panic => .panic
  | .hang => .hang

def withWei (b : Builder) (n : Wei) : WeiField → Builder
  | .gasPrice => b.withGasPrice n
  | .maxPriorityFee => b.withMaxPriorityFeePerGas n
  | .maxFee => b.withMaxFeePerGas n
  | .amount => b.withAmount n

/-- The error of signing; building errors of another kind do not come up. -/
def signingReply : BuildingError → WalletReply
  | .SigningError e => .notSigned e
  | .MissingFields => .some false

/-- `take_and_build_payload_…`: the payload, if there is one, and the builder afterwards. -/
def buildAny {ε : Type} (b : Builder) : Kind → Out ε (Option AnyPayload × Builder)
  | .legacy => do let (r, b) ← b.takeAndBuildLegacy; return (r.toOption.map .legacy, b)
  | .eip155 => do let (r, b) ← b.takeAndBuildEip155; return (r.toOption.map .eip155, b)
  | .eip2930 => do let (r, b) ← b.takeAndBuildEip2930; return (r.toOption.map .eip2930, b)
  | .eip1559 => do let (r, b) ← b.takeAndBuildEip1559; return (r.toOption.map .eip1559, b)

/-- `take_and_sign_with_options`. -/
def AnyPayload.sign (m : Build) (w f nf : Nat) (rand : Nat → Out RandomError (List UInt8)) (key : PrivateKey) (o : SigningOptions) :
    AnyPayload → Out BuildingError AnyTransaction
  | .legacy p => do return .legacy (← p.sign m w f nf rand key o)
  | .eip155 p => do return .eip155 (← p.sign m w f nf rand key o)
  | .eip2930 p => do return .eip2930 (← p.sign m w f nf rand key o)
  | .eip1559 p => do return .eip1559 (← p.sign m w f nf rand key o)

/-- `encode`. -/
def AnyTransaction.encode {ε : Type} (m : Build) (w : Nat) : AnyTransaction → Out ε (List UInt8)
  | .legacy t => t.encode m w
  | .eip155 t => t.encode m w
  | .eip2930 t => t.encode m w
  | .eip1559 t => t.encode m w

/-- `to_string`. -/
def AnyTransaction.display {ε : Type} (m : Build) (w : Nat) : AnyTransaction → Out ε (List UInt8)
  | .legacy t => t.display m w
  | .eip155 t => t.display m w
  | .eip2930 t => t.display m w
  | .eip1559 t => t.display m w

/-- `decode`. -/
def decodeAny (m : Build) (w : Nat) (data : List UInt8) : Kind → Out RlpErr AnyTransaction
  | .legacy => do return .legacy (← decode m (decTransactionLegacy m w) data)
  | .eip155 => do return .eip155 (← decode m (decTransactionEip155 m w) data)
  | .eip2930 => do return .eip2930 (← decode m (decTransactionEip2930 m w) data)
  | .eip1559 => do return .eip1559 (← decode m (decTransactionEip1559 m w) data)

/-- The library answers a call.  Signing gets fuel `f` for its rounds and `nf` for the candidates in a round.  Calls that name things that do not
exist are counted as panics. -/
def walletAnswer (m : Build) (w f nf : Nat) (cp : Params) (rand : Nat → Out RandomError (List UInt8)) (x : WalletObjects) :
    WalletRequest → Out Unit (WalletReply × WalletObjects)
  | .key q => do
    let (r, ks) ← keyAnswer m w Sha2.Sha256 f nf Sha2.Sha256.fresh cp rand x.keys q
    return (.key r, { x with keys := ks })
  | .secret data len => do
    match ← EoaPrivateKey.new m w data len with
    | some k => return (.some true, { x with keys := { x.keys with secrets := x.keys.secrets ++ [k] } })
    | none => return (.some false, x)
  | .address q => do
    let a ← EoaPublicKey.address m w (← unwrap x.keys.keys[q]?)
    let t ← a.display m
    return (.text t, x)
  | .draft => return (.done, { x with drafts := x.drafts ++ [Builder.new] })
  | .setChainId d n => do
    let b ← unwrap x.drafts[d]?
    let c ← ChainId.fromU64 w n
    return (.done, { x with drafts := x.drafts.set d (b.withChainId c) })
  | .setNonce d n => do
    let b ← unwrap x.drafts[d]?
    match EoaNonce.fromU64 n with
    | some v => return (.some true, { x with drafts := x.drafts.set d (b.withNonce v) })
    | none => return (.some false, x)
  | .setWei d f t => do
    let b ← unwrap x.drafts[d]?
    walletReply (Wei.tryFromStr m w t) (fun n => (.some true, { x with drafts := x.drafts.set d (withWei b n f) })) (fun _ => (.some false, x))
  | .setGasLimit d n => do
    let b ← unwrap x.drafts[d]?
    return (.done, { x with drafts := x.drafts.set d (b.withGasLimit n) })
  | .setDestination d t => do
    let b ← unwrap x.drafts[d]?
    walletReply (Address.tryFromStr t) (fun a => (.some true, { x with drafts := x.drafts.set d (b.withDestination a) })) (fun _ => (.some false, x))
  | .setData d data => do
    let b ← unwrap x.drafts[d]?
    return (.done, { x with drafts := x.drafts.set d (b.withData data) })
  | .setAccessList d l => do
    let b ← unwrap x.drafts[d]?
    return (.done, { x with drafts := x.drafts.set d (b.withAccessList l) })
  | .build d k => do
    match ← buildAny (← unwrap x.drafts[d]?) k with
    | (some p, b) => return (.some true, { x with drafts := x.drafts.set d b, payloads := x.payloads ++ [p] })
    | (none, b) => return (.some false, { x with drafts := x.drafts.set d b })
  | .sign p k o => do
    let key ← unwrap x.keys.secrets[k]?
    let payload ← unwrap x.payloads[p]?
    walletReply (payload.sign m w f nf rand key o) (fun t => (.done, { x with transactions := x.transactions ++ [t] })) (fun e => (signingReply e, x))
  | .encode t => do
    let bytes ← (← unwrap x.transactions[t]?).encode m w
    return (.bytes bytes, x)
  | .decode k data => walletReply (decodeAny m w data k) (fun t => (.done, { x with transactions := x.transactions ++ [t] })) (fun e => (.notDecoded e, x))
  | .show t => do
    let text ← (← unwrap x.transactions[t]?).display m w
    return (.text text, x)

/-- The first `n` calls of a client. -/
def walletSession (m : Build) (w f nf : Nat) (cp : Params) (env : Nat → Nat → Out RandomError (List UInt8)) (c : WalletClient) :
    Nat → Out Unit (List WalletReply × WalletObjects)
  | 0 => .ok ([], ⟨⟨[], [], [], []⟩, [], [], []⟩)
  | n + 1 => do
    let (rs, x) ← walletSession m w f nf cp env c n
    let (r, x) ← walletAnswer m w f nf cp (env rs.length) x (c rs)
    return (rs ++ [r], x)

end LCT.Spec.Eth
