import Verif.Lemmas.Builds.Ethereum
import Verif.Model.Examples

/-!
# The example programs in debug and release builds
-/

namespace LCT.Mono
open Lean.Order (monotone)

/-- `expect` keeps panics. -/
@[partial_fixpoint_monotone] theorem Examples.expect :
    ∀ ε ε' α (f : Build → Out ε' α), monotone f → monotone fun m => (LCT.Examples.expect (f m) : Out ε α) := by
  intro ε ε' α f hf
  exact comp LCT.Examples.expect rfl f hf

@[partial_fixpoint_monotone] theorem Examples.txDecoder :
    ∀ (b : Build → Build), monotone b → ∀ ε w arg, monotone fun m => @LCT.Examples.txDecoder ε (b m) w arg := by
  intro b hb ε w arg
  refine pass (F := fun m => @LCT.Examples.txDecoder ε m w arg) ?_ hb
  unfold LCT.Examples.txDecoder
  mono
  rename_i first rest
  refine iff.2 ?_
  rcases iff.1 (Rlp.decode (fun m => m) Lean.Order.monotone_id _ (fun m => LCT.Ethereum.decTransactionEip155 m w)
    (Ethereum.decTransactionEip155 (fun m => m) Lean.Order.monotone_id w) (first :: rest)) with h | h
  · left
    rw [h]
  · rw [h]
    cases LCT.Rlp.decode .release (LCT.Ethereum.decTransactionEip155 .release w) (first :: rest) with
    | ok t => exact (iff (f := fun m => do let text ← LCT.Ethereum.TransactionEip155.display m w t; pure (Ethereum.writeln text))).1 (by mono)
    | err e =>
      cases e with
      | InvalidFormat => exact .inl rfl
      | TransactionTypeMismatch =>
        exact (iff (f := fun m => do
          let t ← LCT.Examples.expect (LCT.Rlp.decode m (LCT.Ethereum.decTransactionLegacy m w) (first :: rest))
          let text ← LCT.Ethereum.TransactionLegacy.display m w t
          pure (Ethereum.writeln text))).1 (by mono)
    | panic => exact .inl rfl
    | hang => exact .inr rfl

@[partial_fixpoint_monotone] theorem Examples.keyToAddress :
    ∀ (b : Build → Build), monotone b → ∀ ε w arg, monotone fun m => @LCT.Examples.keyToAddress ε (b m) w arg := by
  intro b hb ε w arg
  refine pass (F := fun m => @LCT.Examples.keyToAddress ε m w arg) ?_ hb
  unfold LCT.Examples.keyToAddress
  mono

@[partial_fixpoint_monotone] theorem Examples.decJson :
    ∀ (b : Build → Build), monotone b → ∀ fuel, monotone fun m => LCT.Examples.decJson (b m) fuel := by
  intro b hb fuel
  induction fuel with
  | zero =>
    unfold LCT.Examples.decJson
    mono
  | succ fuel ih =>
    unfold LCT.Examples.decJson
    mono

@[partial_fixpoint_monotone] theorem Examples.rlpDecoder :
    ∀ (b : Build → Build), monotone b → ∀ ε pretty arg, monotone fun m => @LCT.Examples.rlpDecoder ε (b m) pretty arg := by
  intro b hb ε pretty arg
  refine pass (F := fun m => @LCT.Examples.rlpDecoder ε m pretty arg) ?_ hb
  unfold LCT.Examples.rlpDecoder
  mono
  rename_i rlpData _
  exact comp (fun x => match x with
    | .err e => pure (Ethereum.writeln (Ethereum.lit "Decoding failed: " ++ Examples.rlpMessage e))
    | .panic => .panic
    | .hang => .hang
    | .ok value => pure (Ethereum.writeln (pretty value))) rfl
    (fun m => LCT.Rlp.decode m (LCT.Examples.decJson m (rlpData.length + 1)) rlpData) (by mono)

@[partial_fixpoint_monotone] theorem Examples.pow32 :
    ∀ (b : Build → Build), monotone b → ∀ ε n, monotone fun m => @LCT.Examples.pow32 ε (b m) n := by
  intro b hb ε n
  refine pass (F := fun m => @LCT.Examples.pow32 ε m n) ?_ hb
  unfold LCT.Examples.pow32
  mono

@[partial_fixpoint_monotone] theorem Examples.mulU64 :
    ∀ (b : Build → Build), monotone b → ∀ ε a x1, monotone fun m => @LCT.Examples.mulU64 ε (b m) a x1 := by
  intro b hb ε a x1
  refine pass (F := fun m => @LCT.Examples.mulU64 ε m a x1) ?_ hb
  unfold LCT.Examples.mulU64
  mono

@[partial_fixpoint_monotone] theorem Examples.vanityReport :
    ∀ (b : Build → Build), monotone b → ∀ ε estimatedCount count clock, monotone fun m => @LCT.Examples.vanityReport ε (b m) estimatedCount count clock := by
  intro b hb ε estimatedCount count clock
  refine pass (F := fun m => @LCT.Examples.vanityReport ε m estimatedCount count clock) ?_ hb
  unfold LCT.Examples.vanityReport
  mono

@[partial_fixpoint_monotone] theorem Examples.vanityLoop :
    ∀ (b : Build → Build), monotone b → ∀ ε w clock random pre estimatedCount x1 x2 x3, monotone fun m => @LCT.Examples.vanityLoop ε (b m) w clock random pre estimatedCount x1 x2 x3 := by
  intro b hb ε w clock random pre estimatedCount x1 x2 x3
  refine pass (F := fun m => @LCT.Examples.vanityLoop ε m w clock random pre estimatedCount x1 x2 x3) ?_ hb
  induction x1 generalizing x2 x3 with
  | zero =>
    unfold LCT.Examples.vanityLoop
    mono
  | succ _ ih =>
    unfold LCT.Examples.vanityLoop
    mono using ih

@[partial_fixpoint_monotone] theorem Examples.vanityAddress :
    ∀ (b : Build → Build), monotone b → ∀ ε w fuel clock random arg, monotone fun m => @LCT.Examples.vanityAddress ε (b m) w fuel clock random arg := by
  intro b hb ε w fuel clock random arg
  refine pass (F := fun m => @LCT.Examples.vanityAddress ε m w fuel clock random arg) ?_ hb
  unfold LCT.Examples.vanityAddress
  mono

end LCT.Mono
