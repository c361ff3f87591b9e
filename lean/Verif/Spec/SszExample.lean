import Verif.Model.SszExample
import Verif.Spec.Ssz

/-!
# The layout of attestations (specification)

https://eth2book.info/altair/part2/building_blocks/ssz/#worked-example
-/

namespace LCT.Spec.Ssz
open LCT.SszExample

/-- An array of bytes, as it is. -/
def octetsOf {n : Nat} (v : Octets n) : List UInt8 := v.val.map fun b => UInt8.ofNat b.toNat

/-- Forty bytes: the epoch and the root. -/
def checkpointBytes (c : Checkpoint) : List UInt8 := le 8 c.epoch.toNat ++ octetsOf c.root

/-- 128 bytes. -/
def attestationDataBytes (d : AttestationData) : List UInt8 :=
  le 8 d.slot.toNat ++ le 8 d.index.toNat ++ octetsOf d.beaconBlockRoot ++ checkpointBytes d.source ++ checkpointBytes d.target

/-- The list of indices is of variable size: it comes last, and the four bytes at its place say where it begins, `228 = 4 + 128 + 96`. -/
def attestationBytes (a : IndexedAttestation) : List UInt8 :=
  le 4 228 ++ attestationDataBytes a.data ++ octetsOf a.signature ++ (a.attestingIndices.map fun i => le 8 i.toNat).flatten

end LCT.Spec.Ssz
