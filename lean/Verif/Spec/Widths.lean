import Verif.Spec.BigInt
import Verif.Model.Crypto.Ecdsa
import Verif.Model.Ethereum.Transaction

/-!
# What it means that two builds with different digit types behave alike (specification)

One build has digits of `w` bits and the other one has digits of `w'` bits.
-/

namespace LCT.Spec
open LCT.BigInt LCT.Curve LCT.Crypto LCT.Ethereum

/-- Two calls agree: both return, and their values are related by `R`; or both return the same error; or both panic; or both are
stopped. -/
inductive Agree {ε α β : Type} (R : α → β → Prop) : Out ε α → Out ε β → Prop
  | ok {a : α} {b : β} : R a b → Agree R (.ok a) (.ok b)
  | err (e : ε) : Agree R (.err e) (.err e)
  | panic : Agree R .panic .panic
  | hang : Agree R .hang .hang

/-- Related optional values. -/
inductive AgreeOpt {α β : Type} (R : α → β → Prop) : Option α → Option β → Prop
  | some {a : α} {b : β} : R a b → AgreeOpt R (some a) (some b)
  | none : AgreeOpt R none none

/-- Related results. -/
inductive AgreeRes {ε α β : Type} (R : α → β → Prop) : Except ε α → Except ε β → Prop
  | ok {a : α} {b : β} : R a b → AgreeRes R (.ok a) (.ok b)
  | error (e : ε) : AgreeRes R (.error e) (.error e)

variable (w w' : Nat)

/-- The numbers `x` and `x'` stand for the same integer. -/
def SameInt (x x' : BInt) : Prop := ∃ a : Int, Denotes w x a ∧ Denotes w' x' a

/-- The same point. -/
structure SamePoint (a a' : Point) : Prop where
  x : SameInt w w' a.x a'.x
  y : SameInt w w' a.y a'.y

/-- The same curve. -/
structure SameCurve (c c' : Curve) : Prop where
  a : SameInt w w' c.a c'.a
  b : SameInt w w' c.b c'.b
  p : SameInt w w' c.p c'.p

/-- The same curve parameters. -/
structure SameParams (c c' : Params) : Prop where
  curve : SameCurve w w' c.curve c'.curve
  basePoint : SamePoint w w' c.basePoint c'.basePoint
  order : SameInt w w' c.order c'.order
  cofactor : c.cofactor = c'.cofactor

/-- The same private key. -/
structure SamePrivate (k k' : PrivateKey) : Prop where
  data : SameInt w w' k.data k'.data
  params : SameParams w w' k.params k'.params

/-- The same public key. -/
structure SamePublic (k k' : PublicKey) : Prop where
  data : SamePoint w w' k.data k'.data
  params : SameParams w w' k.params k'.params

/-- The same signature. -/
structure SameSignature (sig sig' : Signature) : Prop where
  r : SameInt w w' sig.r sig'.r
  s : SameInt w w' sig.s sig'.s
  params : SameParams w w' sig.params sig'.params

/-- The same legacy payload. -/
structure SamePayloadLegacy (t t' : PayloadLegacy) : Prop where
  nonce : t.nonce = t'.nonce
  gasPrice : SameInt w w' t.gasPrice t'.gasPrice
  gasLimit : t.gasLimit = t'.gasLimit
  destination : t.destination = t'.destination
  amount : SameInt w w' t.amount t'.amount
  data : t.data = t'.data

/-- The same EIP-155 payload. -/
structure SamePayloadEip155 (t t' : PayloadEip155) : Prop where
  chainId : SameInt w w' t.chainId t'.chainId
  nonce : t.nonce = t'.nonce
  gasPrice : SameInt w w' t.gasPrice t'.gasPrice
  gasLimit : t.gasLimit = t'.gasLimit
  destination : t.destination = t'.destination
  amount : SameInt w w' t.amount t'.amount
  data : t.data = t'.data

/-- The same EIP-2930 payload. -/
structure SamePayloadEip2930 (t t' : PayloadEip2930) : Prop where
  chainId : SameInt w w' t.chainId t'.chainId
  nonce : t.nonce = t'.nonce
  gasPrice : SameInt w w' t.gasPrice t'.gasPrice
  gasLimit : t.gasLimit = t'.gasLimit
  destination : t.destination = t'.destination
  amount : SameInt w w' t.amount t'.amount
  data : t.data = t'.data
  accessList : t.accessList = t'.accessList

/-- The same EIP-1559 payload. -/
structure SamePayloadEip1559 (t t' : PayloadEip1559) : Prop where
  chainId : SameInt w w' t.chainId t'.chainId
  nonce : t.nonce = t'.nonce
  maxPriorityFeePerGas : SameInt w w' t.maxPriorityFeePerGas t'.maxPriorityFeePerGas
  maxFeePerGas : SameInt w w' t.maxFeePerGas t'.maxFeePerGas
  gasLimit : t.gasLimit = t'.gasLimit
  destination : t.destination = t'.destination
  amount : SameInt w w' t.amount t'.amount
  data : t.data = t'.data
  accessList : t.accessList = t'.accessList

/-- The same legacy transaction. -/
structure SameLegacy (t t' : TransactionLegacy) : Prop where
  payload : SamePayloadLegacy w w' t.payload t'.payload
  v : t.v = t'.v
  r : SameInt w w' t.r t'.r
  s : SameInt w w' t.s t'.s

/-- The same EIP-155 transaction. -/
structure SameEip155 (t t' : TransactionEip155) : Prop where
  payload : SamePayloadEip155 w w' t.payload t'.payload
  v : SameInt w w' t.v t'.v
  r : SameInt w w' t.r t'.r
  s : SameInt w w' t.s t'.s

/-- The same EIP-2930 transaction. -/
structure SameEip2930 (t t' : TransactionEip2930) : Prop where
  payload : SamePayloadEip2930 w w' t.payload t'.payload
  yParity : t.yParity = t'.yParity
  r : SameInt w w' t.r t'.r
  s : SameInt w w' t.s t'.s

/-- The same EIP-1559 transaction. -/
structure SameEip1559 (t t' : TransactionEip1559) : Prop where
  payload : SamePayloadEip1559 w w' t.payload t'.payload
  yParity : t.yParity = t'.yParity
  r : SameInt w w' t.r t'.r
  s : SameInt w w' t.s t'.s

/-- Builders with the same fields set, to the same values. -/
structure SameBuilder (t t' : Builder) : Prop where
  chainId : AgreeOpt (SameInt w w') t.chainId t'.chainId
  nonce : t.nonce = t'.nonce
  gasPrice : AgreeOpt (SameInt w w') t.gasPrice t'.gasPrice
  maxPriorityFeePerGas : AgreeOpt (SameInt w w') t.maxPriorityFeePerGas t'.maxPriorityFeePerGas
  maxFeePerGas : AgreeOpt (SameInt w w') t.maxFeePerGas t'.maxFeePerGas
  gasLimit : t.gasLimit = t'.gasLimit
  destination : t.destination = t'.destination
  amount : AgreeOpt (SameInt w w') t.amount t'.amount
  data : t.data = t'.data
  accessList : t.accessList = t'.accessList

end LCT.Spec
