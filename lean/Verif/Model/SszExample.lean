import Verif.Model.Codecs
import Verif.Model.RandomTests
import Verif.Model.Ssz

/-!
# The worked example of SSZ

`/repo/tests/blockchain/ethereum/ssz_worked_example.rs`: three structs of a user, with implementations of `SszType` written by hand, and a test of
them.  The aliases of lines 201-206 are written out.
-/

namespace LCT.SszExample
open LCT.Out LCT.Codecs LCT.Ssz LCT.RandomTests

/-- `[u8; n]`. -/
abbrev Octets (n : Nat) : Type := { bs : List (BitVec 8) // bs.length = n }

/-- `u64` as an SSZ type. -/
abbrev u64 : SszType (BitVec 64) := uintImpl 8

/-- `[u8; n]` as an SSZ type. -/
abbrev octets (n : Nat) : SszType (Octets n) := arrayImpl n (uintImpl 1)

/-- `/repo/tests/blockchain/ethereum/ssz_worked_example.rs:170-174`. -/
structure Checkpoint where
  epoch : BitVec 64
  root : Octets 32
  deriving DecidableEq

/-- `/repo/tests/blockchain/ethereum/ssz_worked_example.rs:111-118`. -/
structure AttestationData where
  slot : BitVec 64
  index : BitVec 64
  beaconBlockRoot : Octets 32
  source : Checkpoint
  target : Checkpoint
  deriving DecidableEq

/-- `/repo/tests/blockchain/ethereum/ssz_worked_example.rs:69-74`. -/
structure IndexedAttestation where
  attestingIndices : List (BitVec 64)
  data : AttestationData
  signature : Octets 96
  deriving DecidableEq

/-- `T::size().unwrap()`. -/
def sizeOf {α : Type} (m : Build) (T : SszType α) : Out Err Nat := do
  match ← T.size m with
  | some n => return n
  | none => .panic

/-- `T::decode_from(iter.next().unwrap())?`: the value, and the items that are left. -/
def next {α : Type} (m : Build) (T : SszType α) : List (List UInt8) → Out Err (α × List (List UInt8))
  | [] => .panic
  | item :: items => do
    let a ← decode m T item
    return (a, items)

/-- `/repo/tests/blockchain/ethereum/ssz_worked_example.rs:176-199`. -/
def checkpointImpl : SszType Checkpoint where
  size m := do
    let a ← sizeOf m u64
    let b ← sizeOf m (octets 32)
    let sum ← addU32 m a b
    return some sum
  toBytes m c := do
    let it ← encodeElement m u64 Item.new c.epoch
    let it ← encodeElement m (octets 32) it c.root
    let (data, _) ← takeData it
    return data
  tryFromBytes m bs := do
    let s1 ← u64.size m
    let s2 ← (octets 32).size m
    let items ← decodeAsItems m bs [s1, s2]
    let (epoch, items) ← next m u64 items
    let (root, _) ← next m (octets 32) items
    return { epoch, root }

/-- `/repo/tests/blockchain/ethereum/ssz_worked_example.rs:120-168`. -/
def attestationDataImpl : SszType AttestationData where
  size m := do
    let a ← sizeOf m u64
    let b ← sizeOf m u64
    let sum ← addU32 m a b
    let c ← sizeOf m (octets 32)
    let sum ← addU32 m sum c
    let d ← sizeOf m checkpointImpl
    let sum ← addU32 m sum d
    let e ← sizeOf m checkpointImpl
    let sum ← addU32 m sum e
    return some sum
  toBytes m d := do
    let it ← encodeElement m u64 Item.new d.slot
    let it ← encodeElement m u64 it d.index
    let it ← encodeElement m (octets 32) it d.beaconBlockRoot
    let it ← encodeElement m checkpointImpl it d.source
    let it ← encodeElement m checkpointImpl it d.target
    let (data, _) ← takeData it
    return data
  tryFromBytes m bs := do
    let s1 ← u64.size m
    let s2 ← u64.size m
    let s3 ← (octets 32).size m
    let s4 ← checkpointImpl.size m
    let s5 ← checkpointImpl.size m
    let items ← decodeAsItems m bs [s1, s2, s3, s4, s5]
    let (slot, items) ← next m u64 items
    let (index, items) ← next m u64 items
    let (beaconBlockRoot, items) ← next m (octets 32) items
    let (source, items) ← next m checkpointImpl items
    let (target, _) ← next m checkpointImpl items
    return { slot, index, beaconBlockRoot, source, target }

/-- `/repo/tests/blockchain/ethereum/ssz_worked_example.rs:76-109`. -/
def indexedAttestationImpl : SszType IndexedAttestation where
  size _ := .ok none
  toBytes m a := do
    let it ← encodeElement m (listImpl u64) Item.new a.attestingIndices
    let it ← encodeElement m attestationDataImpl it a.data
    let it ← encodeElement m (octets 96) it a.signature
    let (data, _) ← takeData it
    return data
  tryFromBytes m bs := do
    let s1 ← (listImpl u64).size m
    let s2 ← attestationDataImpl.size m
    let s3 ← (octets 96).size m
    let items ← decodeAsItems m bs [s1, s2, s3]
    let (attestingIndices, items) ← next m (listImpl u64) items
    let (data, items) ← next m attestationDataImpl items
    let (signature, _) ← next m (octets 96) items
    return { attestingIndices, data, signature }

/-- `/repo/tests/blockchain/ethereum/ssz_worked_example.rs:59-66`, for any value and any text.  A failed assertion is a panic, and so is `unwrap` of an
error. -/
def workedExample (m : Build) (value : IndexedAttestation) (encodedHex : List UInt8) : Out Unit Unit := do
  let encoded ← unwrapped (encode m indexedAttestationImpl value)
  rassert (bytesToLowerHex encoded == encodedHex)
  let data ← unwrapped (hexToBytes encodedHex)
  let decoded ← unwrapped (decode m indexedAttestationImpl data)
  rassert (decoded == value)

end LCT.SszExample
