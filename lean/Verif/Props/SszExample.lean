import Verif.Lemmas.Ssz.Example
import Verif.Lemmas.VectorTests
import Verif.Props.Codecs
import Verif.Props.Ssz

/-!
# C99: the worked example of SSZ, for all attestations
-/

namespace LCT.Props
open LCT.Spec LCT.Spec.Ssz LCT.Out LCT.Ssz LCT.Codecs LCT.RandomTests LCT.VectorTests LCT.SszExample

theorem example_decode (m : Build) (bs : List UInt8) (a : IndexedAttestation) :
    decode m indexedAttestationImpl bs = .ok a ↔ decode m (impl indexedAttestationTy) bs = .ok a.toVal := by
  have h := (indexedAttestation_same m).2.2 bs
  unfold decode
  rw [← h]
  cases indexedAttestationImpl.tryFromBytes m bs with
  | ok b =>
    refine ⟨fun h => (by cases h; rfl), fun h => ?_⟩
    rw [IndexedAttestation.toVal_injective (a := b) (b := a) (ok_inj h)]
  | err e => exact ⟨fun h => (by cases h), fun h => (by cases h)⟩
  | panic => exact ⟨fun h => (by cases h), fun h => (by cases h)⟩
  | hang => exact ⟨fun h => (by cases h), fun h => (by cases h)⟩

/-- C99: an attestation encodes to the bytes that the consensus specification prescribes, written out in `attestationBytes`; with `2^29 - 28` indices or
more, which is too long for offsets, the encoder panics. -/
theorem C99_layout (m : Build) (a : IndexedAttestation) :
    encode m indexedAttestationImpl a = if 228 + 8 * a.attestingIndices.length < 2 ^ 32 then .ok (attestationBytes a) else .panic := by
  have h := C50_layout m indexedAttestationTy legal small a.toVal
  rw [serialize_attestation, attestationBytes_length] at h
  rw [← h]
  unfold encode encodeTo
  rw [(indexedAttestation_same m).2.1]

/-- C99: and the bytes decode to the attestation. -/
theorem C99_round_trip (m : Build) (a : IndexedAttestation) (h : 228 + 8 * a.attestingIndices.length < 2 ^ 32) :
    decode m indexedAttestationImpl (attestationBytes a) = .ok a := by
  rw [example_decode, ← serialize_attestation]
  exact (C48_round_trip_simple m _ legal small noVarList _ (by rw [serialize_attestation, attestationBytes_length]; exact h)).2

/-- C99: no data makes the decoder panic. -/
theorem C99_no_panic (m : Build) (bs : List UInt8) : (decode m indexedAttestationImpl bs).Returns := by
  have h := C49_no_panic_partial m indexedAttestationTy legal small noVarList bs
  unfold decode at h ⊢
  rw [← (indexedAttestation_same m).2.2 bs] at h
  cases hd : indexedAttestationImpl.tryFromBytes m bs with
  | ok a => exact .inl ⟨a, rfl⟩
  | err e => exact .inr ⟨e, rfl⟩
  | panic => rw [hd] at h; exact absurd h Out.not_returns_panic
  | hang =>
    rw [hd] at h
    rcases h with ⟨_, h⟩ | ⟨_, h⟩ <;> cases h

theorem reads_fixed {t : Ty} (hl : t.Legal) (hs : t.Small) (hv : t.isVariable = false) {bs : List UInt8} {v : t.Val} (h : Reads t bs v)
    (hlen : bs.length = t.head) : bs = serialize t v :=
  (C51_canonical_fixed .debug t hl hs hv bs v ((C51_accepts_iff .debug t hl hs bs v).mpr h) hlen).symm

theorem reads_canon {t : Ty} (hl : t.Legal) (hs : t.Small) (hc : Canon t) {bs : List UInt8} {v : t.Val} (h : Reads t bs v) : bs = serialize t v :=
  (C51_canonical_partial .debug t hl hs hc bs v ((C51_accepts_iff .debug t hl hs bs v).mpr h)).symm

theorem reads_serialize {t : Ty} (hl : t.Legal) (hs : t.Small) (hn : NoVarList t) (v : t.Val) (h : (serialize t v).length < 2 ^ 32) :
    Reads t (serialize t v) v := (C51_accepts_iff .debug t hl hs _ v).mp (C48_round_trip_simple .debug t hl hs hn v h).2

theorem serialize_indices (is : List (BitVec 64)) : serialize (.list u64Ty) is = (is.map fun i => le 8 i.toNat).flatten :=
  (ser_list u64Ty is).trans ((assemble_fixed (fun b : BitVec 64 => serialize u64Ty b) is).trans rfl)

/-- C99, what is accepted: the fixed part at the beginning, with an offset anywhere in the data, from which to the end are the indices.  (The offset 228,
without anything between, is not required: see C51.) -/
theorem C99_accepts_iff (m : Build) (bs : List UInt8) (a : IndexedAttestation) :
    decode m indexedAttestationImpl bs = .ok a ↔ bs.length < 2 ^ 32 ∧ ∃ o, o ≤ bs.length ∧
      le 4 o ++ attestationDataBytes a.data ++ octetsOf a.signature <+: bs ∧ (a.attestingIndices.map fun i => le 8 i.toNat).flatten = bs.drop o := by
  have lg := legal
  have sm := small
  have lp : ∀ o c1 c2 c3, (fixedPartsAt o (fieldParts [.list u64Ty, attestationDataTy, octetsTy 96] [c1, c2, c3])).flatten = le 4 o ++ c2 ++ c3 := fun o c1 c2 c3 => by
    simp [fixedPartsAt, fieldParts, variableLengths, variableParts, Ty.isVariable, anyVariable]
  have vp : ∀ c1 c2 c3, (variableParts (fieldParts [.list u64Ty, attestationDataTy, octetsTy 96] [c1, c2, c3])).flatten = c1 := fun c1 c2 c3 => by
    simp [fieldParts, variableParts, Ty.isVariable, anyVariable]
  have l2 : attestationDataTy.Legal := by simp [Ty.Legal, allLegal]
  have s2 : attestationDataTy.Small := by simp [Ty.Small, allSmall, Ty.head, heads, Ty.isVariable, anyVariable, Width.bytes]
  have v2 : attestationDataTy.isVariable = false := by simp [Ty.isVariable, anyVariable]
  have n2 : NoVarList attestationDataTy := by simp [NoVarList, NoVarLists]
  have l3 : (octetsTy 96).Legal := by simp [Ty.Legal]
  have s3 : (octetsTy 96).Small := by simp [Ty.Small, Ty.head, Ty.isVariable, Width.bytes]
  rw [example_decode, C51_accepts_iff m _ legal small, Reads]
  constructor
  · rintro ⟨items, o, fit, ⟨hlen, ho, hp, hv⟩, hr⟩
    match items, fit with
    | [c1, c2, c3], .cons _ (.cons f2 (.cons _ .nil)) =>
      obtain ⟨r1, r2, r3, -⟩ := hr
      have e1 : c1 = serialize (.list u64Ty) a.attestingIndices := reads_canon (t := .list u64Ty) trivial trivial (.inl rfl) r1
      have e2 : c2 = serialize attestationDataTy a.data.toVal := reads_fixed l2 s2 v2 r2 (f2 v2)
      have e3 : c3 = serialize (octetsTy 96) a.signature := reads_canon l3 s3 rfl r3
      rw [serialize_indices] at e1
      rw [serialize_attestationData] at e2
      rw [serialize_octets] at e3
      subst e1 e2 e3
      rw [lp] at hp
      rw [vp] at hv
      exact ⟨hlen, o, ho, hp, hv⟩
  · rintro ⟨hlen, o, ho, hp, hv⟩
    refine ⟨[(a.attestingIndices.map fun i => le 8 i.toNat).flatten, attestationDataBytes a.data, octetsOf a.signature], o, ?_, ⟨hlen, ho, ?_, ?_⟩, ?_⟩
    · refine .cons (fun h => (by simp [Ty.isVariable] at h)) (.cons (fun _ => ?_) (.cons (fun _ => ?_) .nil))
      · rw [attestationDataBytes_length]
        rfl
      · rw [octetsOf_length]
        rfl
    · rw [lp]
      exact hp
    · rw [vp]
      exact hv
    · refine ⟨?_, ?_, ?_, trivial⟩
      · show Reads (.list u64Ty) _ a.attestingIndices
        rw [← serialize_indices]
        refine reads_serialize (t := .list u64Ty) trivial trivial ⟨rfl, trivial⟩ _ ?_
        rw [serialize_indices, hv, List.length_drop]
        omega
      · show Reads attestationDataTy _ a.data.toVal
        rw [← serialize_attestationData]
        exact reads_serialize l2 s2 n2 _ (by rw [serialize_attestationData, attestationDataBytes_length]; norm_num)
      · show Reads (octetsTy 96) _ a.signature
        rw [← serialize_octets]
        exact reads_serialize l3 s3 trivial _ (by rw [serialize_octets, octetsOf_length]; norm_num)

/-- C99: the test passes for an attestation and a text exactly if the text is the encoding that is prescribed, in lower case. -/
theorem C99_test (m : Build) (a : IndexedAttestation) (t : List UInt8) (h : 228 + 8 * a.attestingIndices.length < 2 ^ 32) :
    (workedExample m a t = .ok () ↔ t = hexOf (attestationBytes a)) ∧ (workedExample m a t = .ok () ∨ workedExample m a t = .panic) := by
  have e : workedExample m a t = (do
      rassert (hexOf (attestationBytes a) == t)
      let data ← unwrapped (hexToBytes t)
      let decoded ← unwrapped (decode m indexedAttestationImpl data)
      rassert (decoded == a)) := by
    unfold workedExample
    rw [C99_layout, if_pos h]
    show (rassert (bytesToLowerHex (attestationBytes a) == t) >>= _) = _
    rw [bytesToLowerHex_eq]
  by_cases ht : hexOf (attestationBytes a) = t
  · subst ht
    have : workedExample m a (hexOf (attestationBytes a)) = .ok () := by
      rw [e, beq_self_eq_true, ← bytesToLowerHex_eq, C17_round_trip]
      show (unwrapped (decode m indexedAttestationImpl (attestationBytes a)) >>= fun decoded => rassert (decoded == a)) = _
      rw [C99_round_trip m a h]
      show rassert (a == a) = _
      rw [beq_self_eq_true]
      rfl
    exact ⟨⟨fun _ => rfl, fun _ => this⟩, .inl this⟩
  · have : workedExample m a t = .panic := by
      rw [e, beq_eq_false_iff_ne.mpr ht]
      rfl
    exact ⟨⟨fun h => (by rw [this] at h; cases h), fun h => absurd h.symm ht⟩, .inr this⟩

/-- An attestation with two indices. -/
def someAttestation : IndexedAttestation where
  attestingIndices := [33652, 59750]
  data :=
    { slot := 3080829, index := 9, beaconBlockRoot := ⟨List.replicate 32 0x4f, rfl⟩
      source := { epoch := 96274, root := ⟨List.replicate 32 0xd2, rfl⟩ }, target := { epoch := 96275, root := ⟨List.replicate 32 0x9b, rfl⟩ } }
  signature := ⟨List.replicate 96 0xaa, rfl⟩

example (m : Build) : decode m indexedAttestationImpl (attestationBytes someAttestation) = .ok someAttestation :=
  C99_round_trip m someAttestation (by decide)
example (m : Build) : encode m indexedAttestationImpl someAttestation = .ok (attestationBytes someAttestation) := by
  rw [C99_layout, if_pos (by decide)]
example : (attestationBytes someAttestation).take 20 = [0xe4, 0, 0, 0, 0x7d, 0x02, 0x2f, 0, 0, 0, 0, 0, 9, 0, 0, 0, 0, 0, 0, 0] := by decide
example (m : Build) : workedExample m someAttestation (hexOf (attestationBytes someAttestation)) = .ok () :=
  ((C99_test m someAttestation _ (by decide)).1).mpr rfl
/-- A gap before the indices is accepted. -/
example (m : Build) : decode m indexedAttestationImpl (le 4 229 ++ attestationDataBytes someAttestation.data ++ octetsOf someAttestation.signature ++ [77] ++
    le 8 33652 ++ le 8 59750) = .ok someAttestation :=
  (C99_accepts_iff m _ _).mpr ⟨by decide +kernel, 229, by decide +kernel, by decide +kernel, by decide +kernel⟩

end LCT.Props
