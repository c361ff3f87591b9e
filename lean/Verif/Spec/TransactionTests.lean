import Verif.Model.TransactionTests
import Verif.Spec.Signing

/-!
# What published transactions claim (specification)

A vector gives the fields of a transaction and a private key as texts, and the text of the signed transaction.  It is right if the signed transaction
is the one that the standards prescribe: the payload signed with the nonce of RFC 6979 (SHA-256, no additional data), with low `s`.
-/

namespace LCT.Spec.Eth
open LCT.BigInt LCT.Crypto LCT.Random LCT.Hash LCT.Ethereum LCT.TransactionTests

/-- Two characters (`0x`, but nobody looks at them), and a text for which `R` holds. -/
def After2 (R : List UInt8 → Prop) (t : List UInt8) : Prop := ∃ a b u, t = a :: b :: u ∧ R u

/-- At least one hex digit, possibly after `+`, for a number below `2^64`. -/
def U64Text (u : List UInt8) (n : Nat) : Prop := SignedNumeral 16 16 u n ∧ u.head? ≠ some 45 ∧ n < 2 ^ 64

/-- A private key: an even number of hex digits (possibly after a sign) for a number between zero and the order. -/
def KeyText (t : List UInt8) (d : Nat) : Prop := After2 (HexNumeral · d) t ∧ 0 < d ∧ d < Secp256k1.n

/-- A gas limit.  No digits stand for zero. -/
def LimitText (t : List UInt8) (n : Nat) : Prop := After2 (fun u => u = [] ∧ n = 0 ∨ U64Text u n) t

/-- A nonce.  Whatever is no number of 64 bits stands for zero; the largest such number is not a nonce. -/
def NonceText (t : List UInt8) (n : Nat) : Prop := After2 (fun u => U64Text u n ∨ (∀ k, ¬ U64Text u k) ∧ n = 0) t ∧ n < 2 ^ 64 - 1

/-- Data: two hex digits for each byte, in upper or lower case. -/
def DataText (t bs : List UInt8) : Prop := After2 (fun u => u.length % 2 = 0 ∧ (∀ c ∈ u, IsHexDigit c) ∧ u.map lowerChar = hexOf bs) t

/-- The text with a digit `0` more if its length is odd: in front, but after `0x`. -/
def Padded (t t' : List UInt8) : Prop :=
  t.length % 2 = 0 ∧ t' = t ∨ t.length % 2 = 1 ∧ ((∃ u, t = 48 :: 120 :: u ∧ t' = 48 :: 120 :: 48 :: u) ∨ (¬ ∃ u, t = 48 :: 120 :: u) ∧ t' = 48 :: t)

/-- A fee. -/
def FeeText (t : List UInt8) (n : Nat) : Prop := ∃ t', Padded t t' ∧ WeiText t' n

/-- The text is `0x` and the 64 hex digits of the storage key. -/
def StorageText (s k : List UInt8) : Prop :=
  k.length = 32 ∧ ∃ h, s = 48 :: 120 :: h ∧ h.length = 64 ∧ (∀ c ∈ h, IsHexDigit c) ∧ h.map lowerChar = hexOf k

/-- The entry of an access list. -/
def AccessText (t : List UInt8 × List (List UInt8)) (a : Access) : Prop := AddressText t.1 a.address ∧ List.Forall₂ StorageText t.2 a.keys

/-! ## Which vectors count, and what they claim -/

/-- The text is one of a gas limit that does not fit: there are digits or other characters, but no number of 64 bits. -/
def NoLimit (t : List UInt8) : Prop := After2 (fun u => u ≠ [] ∧ ∀ k, ¬ U64Text u k) t

/-- The tests ignore a vector without one of the fields, or with a gas limit that does not fit. -/
def Untyped.Ignored (v : Untyped) : Prop :=
  v.nonce = none ∨ v.gasPrice = none ∨ v.gasLimit = none ∨ v.recipient = none ∨ v.value = none ∨ v.data = none ∨ ∃ t, v.gasLimit = some t ∧ NoLimit t

def Typed.Ignored2930 (v : Typed) : Prop :=
  v.type ≠ 1 ∨ v.chainId = none ∨ v.nonce = none ∨ v.gasPrice = none ∨ v.gasLimit = none ∨ v.recipient = none ∨ v.value = none ∨ v.data = none ∨
    ∃ t, v.gasLimit = some t ∧ NoLimit t

def Typed.Ignored1559 (v : Typed) : Prop :=
  v.type ≠ 2 ∨ v.chainId = none ∨ v.nonce = none ∨ v.maxPriorityFee = none ∨ v.maxFee = none ∨ v.gasLimit = none ∨ v.recipient = none ∨
    v.value = none ∨ v.data = none ∨ ∃ t, v.gasLimit = some t ∧ NoLimit t

/-- The fields are those of the payload, and the key is `d`.  With a chain id the payload is one of EIP-155. -/
def Untyped.Reads (chain : Option Nat) (v : Untyped) (d : Nat) (P : Payload) : Prop :=
  ∃ nonce gasPrice gasLimit recipient value data, v.nonce = some nonce ∧ v.gasPrice = some gasPrice ∧ v.gasLimit = some gasLimit ∧
    v.recipient = some recipient ∧ v.value = some value ∧ v.data = some data ∧ KeyText v.key d ∧
    ∃ n g l a x bs, NonceText nonce n ∧ WeiText gasPrice (g : Nat) ∧ LimitText gasLimit l ∧ AddressText recipient a ∧ WeiText value (x : Nat) ∧
      DataText data bs ∧
      P = match chain with
        | none => .legacy ⟨n, g, l, a, x, bs⟩
        | some c => .eip155 ⟨c, n, g, l, a, x, bs⟩

def Typed.Reads2930 (v : Typed) (d : Nat) (P : Payload) : Prop :=
  ∃ chainId nonce gasPrice gasLimit recipient value data, v.chainId = some chainId ∧ v.nonce = some nonce ∧ v.gasPrice = some gasPrice ∧
    v.gasLimit = some gasLimit ∧ v.recipient = some recipient ∧ v.value = some value ∧ v.data = some data ∧ KeyText v.key d ∧
    nonce.toNat < 2 ^ 64 - 1 ∧
    ∃ g l a x bs list, FeeText gasPrice g ∧ LimitText gasLimit l ∧ AddressText recipient a ∧ WeiText value (x : Nat) ∧ DataText data bs ∧
      List.Forall₂ AccessText (v.accessList.getD []) list ∧
      P = .eip2930 ⟨chainId.toNat, nonce.toNat, g, l, a, x, bs, list⟩

def Typed.Reads1559 (v : Typed) (d : Nat) (P : Payload) : Prop :=
  ∃ chainId nonce maxPriorityFee maxFee gasLimit recipient value data, v.chainId = some chainId ∧ v.nonce = some nonce ∧
    v.maxPriorityFee = some maxPriorityFee ∧ v.maxFee = some maxFee ∧ v.gasLimit = some gasLimit ∧ v.recipient = some recipient ∧
    v.value = some value ∧ v.data = some data ∧ KeyText v.key d ∧ nonce.toNat < 2 ^ 64 - 1 ∧
    ∃ mp mf l a x bs list, FeeText maxPriorityFee mp ∧ FeeText maxFee mf ∧ LimitText gasLimit l ∧ AddressText recipient a ∧ WeiText value (x : Nat) ∧
      DataText data bs ∧ List.Forall₂ AccessText (v.accessList.getD []) list ∧
      P = .eip1559 ⟨chainId.toNat, nonce.toNat, mp, mf, l, a, x, bs, list⟩

/-- The number that is signed: the hash of the payload. -/
noncomputable def Payload.digest (P : Payload) : Nat := leadingBits 256 (Sha3.keccak256 P.preimage)

/-- `k` is the nonce of RFC 6979 for this key and payload, and it gives a signature. -/
def GoodNonce (d : Nat) (P : Payload) (k : Nat) : Prop :=
  NonceOf Sha2.Sha256 Sha2.sha256 Secp256k1.n d (Sha3.keccak256 P.preimage) false (.ok []) k ∧
    ¬ Unusable Secp256k1.n LCT.Secp256k1.G d P.digest k

/-- `T` is the payload signed with the key `d`, as RFC 6979, SEC 1 and the Ethereum standards prescribe it. -/
def SignsTo (d : Nat) (P : Payload) (T : Signed) : Prop :=
  P.digest ≠ 0 ∧ ∃ k id, GoodNonce d P k ∧
    let r := ecdsaR Secp256k1.n LCT.Secp256k1.G k
    let s := lowS true Secp256k1.n (ecdsaS Secp256k1.n LCT.Secp256k1.G d P.digest k)
    IdDescribes Secp256k1.n LCT.Secp256k1.G (d • LCT.Secp256k1.G) P.digest r s id ∧ T = P.signed (if idOdd id then 1 else 0) r s

/-- What a vector claims: its fields are those of a payload, and its text is that of the signed transaction, in lower-case hex digits. -/
def Claims {V : Type} (reads : V → Nat → Payload → Prop) (signed : V → List UInt8) (v : V) : Prop :=
  ∃ d P T, reads v d P ∧ SignsTo d P T ∧ After2 (· = hexOf T.wire) (signed v)

/-- Nothing is too large for the machine, and signing succeeds at the first attempt (which nobody can guarantee, but which nobody expects to fail). -/
def Payload.Feasible (d : Nat) (P : Payload) : Prop :=
  P.preimage.length < 2 ^ 64 ∧ (P.digest ≠ 0 → ∃ k, GoodNonce d P k) ∧ ∀ T, SignsTo d P T → T.wire.length < 2 ^ 64

/-- The assumptions about a vector: no negative amounts (the tests would sign what is no transaction), and payloads that can be signed. -/
def Untyped.Fair (chain : Option Nat) (v : Untyped) : Prop :=
  (∀ t z, v.gasPrice = some t ∨ v.value = some t → WeiText t z → 0 ≤ z) ∧ ∀ d P, Untyped.Reads chain v d P → P.Feasible d

def Typed.Fair (reads : Typed → Nat → Payload → Prop) (v : Typed) : Prop :=
  (∀ t t' z, v.gasPrice = some t ∨ v.maxPriorityFee = some t ∨ v.maxFee = some t → Padded t t' → WeiText t' z → 0 ≤ z) ∧
  (∀ t z, v.value = some t → WeiText t z → 0 ≤ z) ∧ ∀ d P, reads v d P → P.Feasible d

open Classical in
/-- The file is right, and large enough: every vector that counts claims what is true, and there are more than `threshold` of them. -/
def RightFile {V : Type} (ignored claim : V → Prop) (threshold : Nat) (vs : List V) : Prop :=
  (∀ v ∈ vs, ¬ ignored v → claim v) ∧ threshold < vs.countP fun v => decide (¬ ignored v)

end LCT.Spec.Eth
