import Verif.Lemmas.Builds
import Verif.Model.Rlp

/-!
# RLP in debug and release builds
-/

namespace LCT.Mono
open Lean.Order (monotone)

@[partial_fixpoint_monotone] theorem Rlp.decodeLongHeader :
    ∀ (b : Build → Build), monotone b → ∀ t lenLen data, monotone fun m => @LCT.Rlp.decodeLongHeader (b m) t lenLen data := by
  intro b hb t lenLen data
  refine pass (F := fun m => @LCT.Rlp.decodeLongHeader m t lenLen data) ?_ hb
  unfold LCT.Rlp.decodeLongHeader
  mono

@[partial_fixpoint_monotone] theorem Rlp.decodeDataHeader :
    ∀ (b : Build → Build), monotone b → ∀ data, monotone fun m => @LCT.Rlp.decodeDataHeader (b m) data := by
  intro b hb data
  refine pass (F := fun m => @LCT.Rlp.decodeDataHeader m data) ?_ hb
  unfold LCT.Rlp.decodeDataHeader
  mono

@[partial_fixpoint_monotone] theorem Rlp.decodeData :
    ∀ (b : Build → Build), monotone b → ∀ data, monotone fun m => @LCT.Rlp.decodeData (b m) data := by
  intro b hb data
  refine pass (F := fun m => @LCT.Rlp.decodeData m data) ?_ hb
  unfold LCT.Rlp.decodeData
  mono

@[partial_fixpoint_monotone] theorem Rlp.decodeListLoop :
    ∀ (b : Build → Build), monotone b → ∀ x1 x2, monotone fun m => @LCT.Rlp.decodeListLoop (b m) x1 x2 := by
  intro b hb x1 x2
  refine pass (F := fun m => @LCT.Rlp.decodeListLoop m x1 x2) ?_ hb
  induction x1 generalizing x2 with
  | zero =>
    unfold LCT.Rlp.decodeListLoop
    mono
  | succ _ ih =>
    unfold LCT.Rlp.decodeListLoop
    mono using ih

@[partial_fixpoint_monotone] theorem Rlp.decodeListPayload :
    ∀ (b : Build → Build), monotone b → ∀ payload, monotone fun m => @LCT.Rlp.decodeListPayload (b m) payload := by
  intro b hb payload
  refine pass (F := fun m => @LCT.Rlp.decodeListPayload m payload) ?_ hb
  unfold LCT.Rlp.decodeListPayload
  mono

@[partial_fixpoint_monotone] theorem Rlp.DecItem.newFromData :
    ∀ (b : Build → Build), monotone b → ∀ data, monotone fun m => @LCT.Rlp.DecItem.newFromData (b m) data := by
  intro b hb data
  refine pass (F := fun m => @LCT.Rlp.DecItem.newFromData m data) ?_ hb
  unfold LCT.Rlp.DecItem.newFromData
  mono

@[partial_fixpoint_monotone] theorem Rlp.DecItem.decodeAsItems :
    ∀ (b : Build → Build), monotone b → ∀ d, monotone fun m => @LCT.Rlp.DecItem.decodeAsItems (b m) d := by
  intro b hb d
  refine pass (F := fun m => @LCT.Rlp.DecItem.decodeAsItems m d) ?_ hb
  unfold LCT.Rlp.DecItem.decodeAsItems
  mono

@[partial_fixpoint_monotone] theorem Rlp.decode :
    ∀ (b : Build → Build), monotone b → ∀ α (dec : Build → LCT.Rlp.Dec α), monotone dec → ∀ data,
      monotone fun m => LCT.Rlp.decode (b m) (dec m) data := by
  intro b hb α dec hdec data
  unfold LCT.Rlp.decode
  mono

@[partial_fixpoint_monotone] theorem Rlp.decAll :
    ∀ α (dec : Build → LCT.Rlp.Dec α), monotone dec → ∀ ds, monotone fun m => LCT.Rlp.decAll (dec m) ds := by
  intro α dec hdec ds
  induction ds with
  | nil =>
    unfold LCT.Rlp.decAll
    mono
  | cons d ds ih =>
    unfold LCT.Rlp.decAll
    have h := Lean.Order.monotone_apply d dec hdec
    mono

@[partial_fixpoint_monotone] theorem Rlp.decVec_apply :
    ∀ (b : Build → Build), monotone b → ∀ α (dec : Build → LCT.Rlp.Dec α), monotone dec → ∀ d,
      monotone fun m => LCT.Rlp.decVec (b m) (dec m) d := by
  intro b hb α dec hdec d
  unfold LCT.Rlp.decVec
  have h := Lean.Order.monotone_of_monotone_apply _ (Rlp.decAll α dec hdec)
  mono

@[partial_fixpoint_monotone] theorem Rlp.decVec :
    ∀ (b : Build → Build), monotone b → ∀ α (dec : Build → LCT.Rlp.Dec α), monotone dec → monotone fun m => LCT.Rlp.decVec (b m) (dec m) := by
  intro b hb α dec hdec
  exact Lean.Order.monotone_of_monotone_apply _ fun d => Rlp.decVec_apply b hb α dec hdec d

@[partial_fixpoint_monotone] theorem Rlp.decTree :
    ∀ (b : Build → Build), monotone b → ∀ fuel, monotone fun m => LCT.Rlp.decTree (b m) fuel := by
  intro b hb fuel
  induction fuel with
  | zero =>
    unfold LCT.Rlp.decTree
    mono
  | succ fuel ih =>
    unfold LCT.Rlp.decTree
    mono

@[partial_fixpoint_monotone] theorem Rlp.decodeTree :
    ∀ (b : Build → Build), monotone b → ∀ data, monotone fun m => @LCT.Rlp.decodeTree (b m) data := by
  intro b hb data
  refine pass (F := fun m => @LCT.Rlp.decodeTree m data) ?_ hb
  unfold LCT.Rlp.decodeTree
  mono

end LCT.Mono
