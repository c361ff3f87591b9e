import Verif.Lemmas.Ssz.Canonical
import Verif.Lemmas.Ssz.Grammar
import Verif.Spec.SszExample

/-!
# The hand-written implementations are those of the grammar
-/

namespace LCT.SszExample
open LCT.Out LCT.Ssz LCT.Spec.Ssz

abbrev u64Ty : Ty := .uint .w64
abbrev octetsTy (n : Nat) : Ty := .vec n (.uint .w8)
abbrev checkpointTy : Ty := .container [u64Ty, octetsTy 32]
abbrev attestationDataTy : Ty := .container [u64Ty, u64Ty, octetsTy 32, checkpointTy, checkpointTy]
abbrev indexedAttestationTy : Ty := .container [.list u64Ty, attestationDataTy, octetsTy 96]

def Checkpoint.toVal (c : Checkpoint) : checkpointTy.Val := (c.epoch, (c.root, ()))
def AttestationData.toVal (d : AttestationData) : attestationDataTy.Val :=
  (d.slot, (d.index, (d.beaconBlockRoot, (d.source.toVal, (d.target.toVal, ())))))
def IndexedAttestation.toVal (a : IndexedAttestation) : indexedAttestationTy.Val := (a.attestingIndices, (a.data.toVal, (a.signature, ())))

/-- Two implementations do the same, up to a change of representation. -/
def Same {α β : Type} (f : α → β) (S : SszType α) (T : SszType β) : Prop :=
  ∀ m, S.size m = T.size m ∧ (∀ a, S.toBytes m a = T.toBytes m (f a)) ∧ ∀ bs, (S.tryFromBytes m bs >>= fun a => Out.ok (f a)) = T.tryFromBytes m bs

theorem Same.element {α β : Type} {f : α → β} {S : SszType α} {T : SszType β} (h : Same f S T) (m : Build) (it : Item) (a : α) :
    encodeElement m S it a = encodeElement m T it (f a) := by
  unfold encodeElement
  rw [(h m).1, (h m).2.1]

theorem next_bind {α γ : Type} (m : Build) (T : SszType α) (items : List (List UInt8)) (k : α × List (List UInt8) → Out Err γ) :
    (next m T items >>= k) = match items with
      | [] => .panic
      | item :: items => T.tryFromBytes m item >>= fun a => k (a, items) := by
  cases items with
  | nil => rfl
  | cons i is =>
    show ((T.tryFromBytes m i >>= fun a => pure (a, is)) >>= k) = T.tryFromBytes m i >>= fun a => k (a, is)
    cases T.tryFromBytes m i <;> rfl

theorem Same.field {α β γ δ ε' : Type} {f : α → β} {S : SszType α} {T : SszType β} (h : Same f S T) {F : Fields γ} (m : Build) (items : List (List UInt8))
    (k : α × List (List UInt8) → Out Err δ) (l : β × γ → Out Err ε') (g : δ → Out Err ε')
    (hk : ∀ a items, (k (a, items) >>= g) = (F.decode m items >>= fun c => l (f a, c))) :
    ((next m S items >>= k) >>= g) = ((addField T F).decode m items >>= l) := by
  rw [next_bind]
  cases items with
  | nil => rfl
  | cons i is =>
    show ((S.tryFromBytes m i >>= fun a => k (a, is)) >>= g) = ((T.tryFromBytes m i >>= fun a => F.decode m is >>= fun b => pure (a, b)) >>= l)
    rw [← (h m).2.2 i]
    cases S.tryFromBytes m i with
    | ok a =>
      show (k (a, is) >>= g) = ((F.decode m is >>= fun b => pure (f a, b)) >>= l)
      rw [hk]
      cases F.decode m is <;> rfl
    | err e => rfl
    | panic => rfl
    | hang => rfl

theorem Same.refl {α : Type} (T : SszType α) : Same id T T := fun m => ⟨rfl, fun _ => rfl, fun bs => by cases T.tryFromBytes m bs <;> rfl⟩

theorem checkpoint_size (m : Build) : checkpointImpl.size m = .ok (some 40) := by cases m <;> rfl
theorem checkpoint_same : Same Checkpoint.toVal checkpointImpl (impl checkpointTy) := fun m => by
  refine ⟨by cases m <;> rfl, fun c => ?_, fun bs => ?_⟩
  · simp only [checkpointImpl, impl, fields, containerImpl, addField, noFields]
    show (encodeElement m u64 Item.new c.epoch >>= fun it => encodeElement m (octets 32) it c.root >>= fun it => _) =
      ((encodeElement m u64 Item.new c.epoch >>= fun it => encodeElement m (octets 32) it c.root >>= fun it => Out.ok it) >>= _)
    cases encodeElement m u64 Item.new c.epoch with
    | ok it =>
      show (encodeElement m (octets 32) it c.root >>= _) = ((encodeElement m (octets 32) it c.root >>= fun it => Out.ok it) >>= _)
      cases encodeElement m (octets 32) it c.root <;> rfl
    | err e => rfl
    | panic => rfl
    | hang => rfl
  · show ((decodeAsItems m bs [some 8, some 32] >>= fun items => next m u64 items >>= fun p => next m (octets 32) p.2 >>= fun q =>
        (pure { epoch := p.1, root := q.1 } : Out Err Checkpoint)) >>= fun a => Out.ok a.toVal) =
      (decodeAsItems m bs [some 8, some 32] >>= fun items => (fields [u64Ty, octetsTy 32]).decode m items)
    cases decodeAsItems m bs [some 8, some 32] with
    | ok items =>
      show ((next m u64 items >>= fun p => next m (octets 32) p.2 >>= fun q => (pure { epoch := p.1, root := q.1 } : Out Err Checkpoint)) >>=
        fun a => Out.ok a.toVal) = (fields [u64Ty, octetsTy 32]).decode m items
      have hid : (fields [u64Ty, octetsTy 32]).decode m items = ((addField u64 (addField (octets 32) noFields)).decode m items >>= Out.ok) := by
        show (addField u64 (addField (octets 32) noFields)).decode m items = _
        cases (addField u64 (addField (octets 32) noFields)).decode m items <;> rfl
      rw [hid]
      refine (Same.refl u64).field m items _ _ _ fun a items => ?_
      refine (Same.refl (octets 32)).field m items _ _ _ fun b items => ?_
      rfl
    | err e => rfl
    | panic => rfl
    | hang => rfl

theorem ok_bind {α β : Type} (a : α) (k : α → Out Err β) : ((Out.ok a : Out Err α) >>= k) = k a := rfl

theorem attestationData_size (m : Build) : attestationDataImpl.size m = .ok (some 128) := by cases m <;> rfl
theorem attestationData_same : Same AttestationData.toVal attestationDataImpl (impl attestationDataTy) := fun m => by
  refine ⟨by cases m <;> rfl, fun d => ?_, fun bs => ?_⟩
  · show (encodeElement m u64 Item.new d.slot >>= fun it => encodeElement m u64 it d.index >>= fun it =>
        encodeElement m (octets 32) it d.beaconBlockRoot >>= fun it => encodeElement m checkpointImpl it d.source >>= fun it =>
        encodeElement m checkpointImpl it d.target >>= fun it => takeData it >>= fun p => pure p.1) =
      ((encodeElement m u64 Item.new d.slot >>= fun it => encodeElement m u64 it d.index >>= fun it =>
        encodeElement m (octets 32) it d.beaconBlockRoot >>= fun it => encodeElement m (impl checkpointTy) it d.source.toVal >>= fun it =>
        encodeElement m (impl checkpointTy) it d.target.toVal >>= fun it => Out.ok it) >>= fun it => takeData it >>= fun p => pure p.1)
    simp only [out_bind_assoc, ok_bind, checkpoint_same.element]
  · show ((decodeAsItems m bs [some 8, some 8, some 32, some 40, some 40] >>= fun items => next m u64 items >>= fun p => next m u64 p.2 >>= fun q =>
        next m (octets 32) q.2 >>= fun r => next m checkpointImpl r.2 >>= fun s => next m checkpointImpl s.2 >>= fun t =>
        (pure { slot := p.1, index := q.1, beaconBlockRoot := r.1, source := s.1, target := t.1 } : Out Err AttestationData)) >>= fun a => Out.ok a.toVal) =
      (decodeAsItems m bs [some 8, some 8, some 32, some 40, some 40] >>= fun items =>
        (fields [u64Ty, u64Ty, octetsTy 32, checkpointTy, checkpointTy]).decode m items)
    cases decodeAsItems m bs [some 8, some 8, some 32, some 40, some 40] with
    | ok items =>
      have hid : (fields [u64Ty, u64Ty, octetsTy 32, checkpointTy, checkpointTy]).decode m items = ((addField u64 (addField u64 (addField (octets 32)
          (addField (impl checkpointTy) (addField (impl checkpointTy) noFields))))).decode m items >>= Out.ok) := by
        show (addField u64 (addField u64 (addField (octets 32) (addField (impl checkpointTy) (addField (impl checkpointTy) noFields))))).decode m items = _
        cases (addField u64 (addField u64 (addField (octets 32) (addField (impl checkpointTy) (addField (impl checkpointTy) noFields))))).decode m items <;> rfl
      rw [ok_bind, ok_bind, hid]
      refine (Same.refl u64).field m items _ _ _ fun a items => ?_
      refine (Same.refl u64).field m items _ _ _ fun b items => ?_
      refine (Same.refl (octets 32)).field m items _ _ _ fun c items => ?_
      refine checkpoint_same.field m items _ _ _ fun d items => ?_
      refine checkpoint_same.field m items _ _ _ fun e items => ?_
      rfl
    | err e => rfl
    | panic => rfl
    | hang => rfl

theorem indexedAttestation_same : Same IndexedAttestation.toVal indexedAttestationImpl (impl indexedAttestationTy) := fun m => by
  refine ⟨by cases m <;> rfl, fun a => ?_, fun bs => ?_⟩
  · show (encodeElement m (listImpl u64) Item.new a.attestingIndices >>= fun it => encodeElement m attestationDataImpl it a.data >>= fun it =>
        encodeElement m (octets 96) it a.signature >>= fun it => takeData it >>= fun p => pure p.1) =
      ((encodeElement m (listImpl u64) Item.new a.attestingIndices >>= fun it => encodeElement m (impl attestationDataTy) it a.data.toVal >>= fun it =>
        encodeElement m (octets 96) it a.signature >>= fun it => Out.ok it) >>= fun it => takeData it >>= fun p => pure p.1)
    simp only [out_bind_assoc, ok_bind, attestationData_same.element]
  · have hs : (impl attestationDataTy).size m = .ok (some 128) := by cases m <;> rfl
    show ((decodeAsItems m bs [none, some 128, some 96] >>= fun items => next m (listImpl u64) items >>= fun p => next m attestationDataImpl p.2 >>= fun q =>
        next m (octets 96) q.2 >>= fun r =>
        (pure { attestingIndices := p.1, data := q.1, signature := r.1 } : Out Err IndexedAttestation)) >>= fun a => Out.ok a.toVal) =
      (decodeAsItems m bs [none, some 128, some 96] >>= fun items => (fields [.list u64Ty, attestationDataTy, octetsTy 96]).decode m items)
    cases decodeAsItems m bs [none, some 128, some 96] with
    | ok items =>
      have hid : (fields [.list u64Ty, attestationDataTy, octetsTy 96]).decode m items = ((addField (listImpl u64) (addField (impl attestationDataTy)
          (addField (octets 96) noFields))).decode m items >>= Out.ok) := by
        show (addField (listImpl u64) (addField (impl attestationDataTy) (addField (octets 96) noFields))).decode m items = _
        cases (addField (listImpl u64) (addField (impl attestationDataTy) (addField (octets 96) noFields))).decode m items <;> rfl
      rw [ok_bind, ok_bind, hid]
      refine (Same.refl (listImpl u64)).field m items _ _ _ fun a items => ?_
      refine attestationData_same.field m items _ _ _ fun b items => ?_
      refine (Same.refl (octets 96)).field m items _ _ _ fun c items => ?_
      rfl
    | err e => rfl
    | panic => rfl
    | hang => rfl

theorem IndexedAttestation.toVal_injective {a b : IndexedAttestation} (h : a.toVal = b.toVal) : a = b := by
  obtain ⟨ai, ⟨s, i, r, ⟨e1, r1⟩, ⟨e2, r2⟩⟩, sg⟩ := a
  obtain ⟨bi, ⟨s', i', r', ⟨e1', r1'⟩, ⟨e2', r2'⟩⟩, sg'⟩ := b
  cases h
  rfl

theorem legal : indexedAttestationTy.Legal := by simp [Ty.Legal, allLegal]
theorem small : indexedAttestationTy.Small := by simp [Ty.Small, allSmall, Ty.head, heads, Ty.isVariable, anyVariable, Width.bytes]
theorem noVarList : NoVarList indexedAttestationTy := by simp [NoVarList, NoVarLists, Ty.isVariable]

/-! ## The layout -/

theorem ser_vec (n : Nat) (t : Ty) (vs : (Ty.vec n t).Val) :
    serialize (.vec n t) vs = assemble ((show { vs : List t.Val // _ } from vs).val.map fun v => ⟨t.isVariable, serialize t v⟩) := by rw [serialize]
theorem ser_list (t : Ty) (vs : (Ty.list t).Val) :
    serialize (.list t) vs = assemble ((show List t.Val from vs).map fun v => ⟨t.isVariable, serialize t v⟩) := by rw [serialize]
theorem ser_uint (w : Width) (x : (Ty.uint w).Val) : serialize (.uint w) x = le w.bytes (BitVec.toNat (w := 8 * w.bytes) x) := by rw [serialize]
theorem ser_u64 (x : BitVec 64) : serialize u64Ty x = le 8 x.toNat := ser_uint .w64 x

theorem serialize_octets {n : Nat} (v : Octets n) : serialize (octetsTy n) v = octetsOf v := by
  refine (ser_vec n (.uint .w8) v).trans ?_
  refine (assemble_fixed (fun b : BitVec 8 => serialize (.uint .w8) b) v.val).trans ?_
  unfold octetsOf
  induction v.val with
  | nil => rfl
  | cons b bs ih =>
    rw [List.map_cons, List.flatten_cons, ih, show serialize (.uint .w8) b = le 1 (BitVec.toNat b) from ser_uint .w8 b]
    rfl

theorem octetsOf_length {n : Nat} (v : Octets n) : (octetsOf v).length = n := by rw [octetsOf, List.length_map, v.2]

theorem le_length (k n : Nat) : (le k n).length = k := by
  induction k generalizing n with
  | zero => rfl
  | succ k ih => rw [le, List.length_cons, ih]

theorem checkpointBytes_length (c : Checkpoint) : (checkpointBytes c).length = 40 := by
  rw [checkpointBytes, List.length_append, le_length, octetsOf_length]

theorem attestationDataBytes_length (d : AttestationData) : (attestationDataBytes d).length = 128 := by
  simp only [attestationDataBytes, List.length_append, le_length, octetsOf_length, checkpointBytes_length]

theorem serialize_checkpoint (c : Checkpoint) : serialize checkpointTy c.toVal = checkpointBytes c := by
  rw [serialize]
  show assemble [⟨false, serialize u64Ty c.epoch⟩, ⟨false, serialize (octetsTy 32) c.root⟩] = _
  rw [serialize_octets, assemble_fixed' _ (by simp), ser_u64]
  simp only [List.map_cons, List.map_nil, List.flatten_cons, List.flatten_nil, List.append_nil]
  rfl

theorem serialize_attestationData (d : AttestationData) : serialize attestationDataTy d.toVal = attestationDataBytes d := by
  rw [serialize]
  show assemble [⟨false, serialize u64Ty d.slot⟩, ⟨false, serialize u64Ty d.index⟩, ⟨false, serialize (octetsTy 32) d.beaconBlockRoot⟩,
    ⟨false, serialize checkpointTy d.source.toVal⟩, ⟨false, serialize checkpointTy d.target.toVal⟩] = _
  rw [serialize_octets, serialize_checkpoint, serialize_checkpoint, assemble_fixed' _ (by simp), ser_u64, ser_u64]
  simp only [List.map_cons, List.map_nil, List.flatten_cons, List.flatten_nil, List.append_nil, attestationDataBytes, List.append_assoc]

theorem serialize_attestation (a : IndexedAttestation) : serialize indexedAttestationTy a.toVal = attestationBytes a := by
  rw [serialize]
  show assemble [⟨true, serialize (.list u64Ty) a.attestingIndices⟩, ⟨false, serialize attestationDataTy a.data.toVal⟩,
    ⟨false, serialize (octetsTy 96) a.signature⟩] = _
  rw [serialize_octets, serialize_attestationData]
  have hi : serialize (.list u64Ty) a.attestingIndices = (a.attestingIndices.map fun i => le 8 i.toNat).flatten := by
    refine (ser_list u64Ty a.attestingIndices).trans ?_
    refine (assemble_fixed (fun b : BitVec 64 => serialize u64Ty b) a.attestingIndices).trans ?_
    congr 1
  rw [hi]
  simp [assemble, fixedParts, variableParts, variableOffset, fixedLengths, attestationBytes, attestationDataBytes_length, octetsOf_length]

theorem attestationBytes_length (a : IndexedAttestation) : (attestationBytes a).length = 228 + 8 * a.attestingIndices.length := by
  have h : ((a.attestingIndices.map fun i => le 8 i.toNat).flatten).length = 8 * a.attestingIndices.length := by
    induction a.attestingIndices with
    | nil => rfl
    | cons i is ih => rw [List.map_cons, List.flatten_cons, List.length_append, ih, le_length, List.length_cons]; omega
  simp only [attestationBytes, List.length_append, le_length, attestationDataBytes_length, octetsOf_length, h]

end LCT.SszExample
