import Verif.Lemmas.Builds.BigInt
import Verif.Model.Math.Curve

/-!
# Modular arithmetic and curves in debug and release builds
-/

namespace LCT.Mono
open Lean.Order (monotone)

@[partial_fixpoint_monotone] theorem BigInt.BInt.lt :
    ∀ (b : Build → Build), monotone b → ∀ ε x y, monotone fun m => @LCT.BigInt.BInt.lt ε (b m) x y := by
  intro b hb ε x y
  refine pass (F := fun m => @LCT.BigInt.BInt.lt ε m x y) ?_ hb
  unfold LCT.BigInt.BInt.lt
  mono

@[partial_fixpoint_monotone] theorem BigInt.BInt.gt :
    ∀ (b : Build → Build), monotone b → ∀ ε x y, monotone fun m => @LCT.BigInt.BInt.gt ε (b m) x y := by
  intro b hb ε x y
  refine pass (F := fun m => @LCT.BigInt.BInt.gt ε m x y) ?_ hb
  unfold LCT.BigInt.BInt.gt
  mono

@[partial_fixpoint_monotone] theorem BigInt.BInt.le :
    ∀ (b : Build → Build), monotone b → ∀ ε x y, monotone fun m => @LCT.BigInt.BInt.le ε (b m) x y := by
  intro b hb ε x y
  refine pass (F := fun m => @LCT.BigInt.BInt.le ε m x y) ?_ hb
  unfold LCT.BigInt.BInt.le
  mono

@[partial_fixpoint_monotone] theorem BigInt.BInt.ge :
    ∀ (b : Build → Build), monotone b → ∀ ε x y, monotone fun m => @LCT.BigInt.BInt.ge ε (b m) x y := by
  intro b hb ε x y
  refine pass (F := fun m => @LCT.BigInt.BInt.ge ε m x y) ?_ hb
  unfold LCT.BigInt.BInt.ge
  mono

section
variable {ε α β : Type}
open LCT.BigInt

instance (m : Build) (x : BInt) : Plain (x.asDigits m : Out ε _) := by unfold LCT.BigInt.BInt.asDigits; infer_instance
instance (m : Build) (x : List Nat) : Plain (isZeroDigits m x : Out ε _) := by unfold LCT.BigInt.isZeroDigits; infer_instance
instance (m : Build) (x y : List Nat) : Plain (eqDigits m x y : Out ε _) := by unfold LCT.BigInt.eqDigits; infer_instance
instance (m : Build) (x y : List Nat) : Plain (cmpDigits m x y : Out ε _) := by
  unfold LCT.BigInt.cmpDigits
  cases compare x.length y.length <;> infer_instance
instance (m : Build) (x : BInt) : Plain (x.isZero m : Out ε _) := by unfold LCT.BigInt.BInt.isZero; infer_instance
instance (m : Build) (x y : BInt) : Plain (BInt.bothZero m x y : Out ε _) := by unfold LCT.BigInt.BInt.bothZero; infer_instance
instance (m : Build) (x y : BInt) : Plain (BInt.beq m x y : Out ε _) := by unfold LCT.BigInt.BInt.beq; infer_instance
instance (m : Build) (x y : BInt) : Plain (BInt.cmp m x y : Out ε _) := by
  unfold LCT.BigInt.BInt.cmp
  cases x.sign <;> cases y.sign <;> infer_instance
instance (m : Build) (x y : BInt) : Plain (BInt.lt m x y : Out ε _) := by unfold LCT.BigInt.BInt.lt; infer_instance
instance (m : Build) (x y : BInt) : Plain (BInt.gt m x y : Out ε _) := by unfold LCT.BigInt.BInt.gt; infer_instance
instance (m : Build) (x y : BInt) : Plain (BInt.le m x y : Out ε _) := by unfold LCT.BigInt.BInt.le; infer_instance
instance (m : Build) (x y : BInt) : Plain (BInt.ge m x y : Out ε _) := by unfold LCT.BigInt.BInt.ge; infer_instance
instance (x : List Nat) : Plain (lenDigitsM x : Out ε _) := by unfold LCT.BigInt.lenDigitsM; infer_instance
instance (w n : Nat) (s : Sign) : Plain (BInt.fromU128 w n s : Out ε _) := by unfold LCT.BigInt.BInt.fromU128; infer_instance
instance (w : Nat) (i : Int) : Plain (BInt.ofInt w i : Out ε _) := by
  unfold LCT.BigInt.BInt.ofInt LCT.BigInt.BInt.fromI128
  dsimp only
  infer_instance
instance (w : Nat) : Plain (BInt.zero w : Out ε _) := by unfold LCT.BigInt.BInt.zero; infer_instance
instance (w : Nat) : Plain (BInt.one w : Out ε _) := by unfold LCT.BigInt.BInt.one; infer_instance
instance (x : BInt) : Plain (BInt.isEven x : Out ε _) := by unfold LCT.BigInt.BInt.isEven; infer_instance
instance (m : Build) (w : Nat) (x : List Nat) : Plain (bitLenDigits m w x : Out ε _) := by unfold LCT.BigInt.bitLenDigits; infer_instance
instance (x : BInt) : Plain (BInt.isOdd x : Out ε _) := by unfold LCT.BigInt.BInt.isOdd; infer_instance
instance (m : Build) (w : Nat) (x : BInt) : Plain (BInt.bitLen m w x : Out ε _) := by unfold LCT.BigInt.BInt.bitLen; infer_instance
instance (m : Build) (w : Nat) (x y : BInt) : Plain (LCT.Curve.inRange m w x y : Out ε _) := by unfold LCT.Curve.inRange; infer_instance

end

@[partial_fixpoint_monotone] theorem Modular.dassertM :
    ∀ (b : Build → Build), monotone b → ∀ ε (c : Build → Out ε Bool) [∀ m, Plain (c m)], monotone c →
      monotone fun m => @LCT.Modular.dassertM ε (b m) (c m) := by
  intro b hb ε c hp hc x y h
  have h1 := hb x y h
  have h2 := hc x y h
  show LCT.Modular.dassertM (b x) (c x) = .panic ∨ LCT.Modular.dassertM (b x) (c x) = LCT.Modular.dassertM (b y) (c y)
  cases hx : b x with
  | debug =>
    rcases (hp x).plain with h3 | ⟨v, h3⟩
    · left
      rw [h3]
      rfl
    · have h4 : c y = .ok v := by
        rcases h2 with h2 | h2
        · rw [h3] at h2
          cases h2
        · rw [← h2, h3]
      rw [h3, h4]
      cases b y <;> cases v
      · exact .inl rfl
      · exact .inr rfl
      · exact .inl rfl
      · exact .inr rfl
  | release =>
    rcases h1 with h1 | h1
    · rw [hx] at h1
      cases h1
    · rw [← h1, hx]
      exact .inr rfl

@[partial_fixpoint_monotone] theorem Modular.modulo :
    ∀ (b : Build → Build), monotone b → ∀ ε w a n, monotone fun m => @LCT.Modular.modulo ε (b m) w a n := by
  intro b hb ε w a n
  refine pass (F := fun m => @LCT.Modular.modulo ε m w a n) ?_ hb
  unfold LCT.Modular.modulo
  mono

@[partial_fixpoint_monotone] theorem Modular.invert :
    ∀ (b : Build → Build), monotone b → ∀ ε w a n, monotone fun m => @LCT.Modular.invert ε (b m) w a n := by
  intro b hb ε w a n
  refine pass (F := fun m => @LCT.Modular.invert ε m w a n) ?_ hb
  unfold LCT.Modular.invert
  mono

@[partial_fixpoint_monotone] theorem Modular.mulRem :
    ∀ (b : Build → Build), monotone b → ∀ ε w a x1 n, monotone fun m => @LCT.Modular.mulRem ε (b m) w a x1 n := by
  intro b hb ε w a x1 n
  refine pass (F := fun m => @LCT.Modular.mulRem ε m w a x1 n) ?_ hb
  unfold LCT.Modular.mulRem
  mono

@[partial_fixpoint_monotone] theorem Modular.powLoop :
    ∀ (b : Build → Build), monotone b → ∀ ε w n x1 x2 x3 x4, monotone fun m => @LCT.Modular.powLoop ε (b m) w n x1 x2 x3 x4 := by
  intro b hb ε w n x1 x2 x3 x4
  refine pass (F := fun m => @LCT.Modular.powLoop ε m w n x1 x2 x3 x4) ?_ hb
  induction x1 generalizing x2 x3 x4 with
  | zero =>
    unfold LCT.Modular.powLoop
    mono
  | succ _ ih =>
    unfold LCT.Modular.powLoop
    mono using ih

@[partial_fixpoint_monotone] theorem Modular.pow :
    ∀ (b : Build → Build), monotone b → ∀ ε w a exp n, monotone fun m => @LCT.Modular.pow ε (b m) w a exp n := by
  intro b hb ε w a exp n
  refine pass (F := fun m => @LCT.Modular.pow ε m w a exp n) ?_ hb
  unfold LCT.Modular.pow
  mono

@[partial_fixpoint_monotone] theorem Modular.nonResidueLoop :
    ∀ (b : Build → Build), monotone b → ∀ ε w p one t1 t2 x1 x2, monotone fun m => @LCT.Modular.nonResidueLoop ε (b m) w p one t1 t2 x1 x2 := by
  intro b hb ε w p one t1 t2 x1 x2
  refine pass (F := fun m => @LCT.Modular.nonResidueLoop ε m w p one t1 t2 x1 x2) ?_ hb
  induction x1 generalizing x2 with
  | zero =>
    unfold LCT.Modular.nonResidueLoop
    mono
  | succ _ ih =>
    unfold LCT.Modular.nonResidueLoop
    mono using ih

@[partial_fixpoint_monotone] theorem Modular.leastM :
    ∀ (b : Build → Build), monotone b → ∀ ε w p one r x1 x2 x3, monotone fun m => @LCT.Modular.leastM ε (b m) w p one r x1 x2 x3 := by
  intro b hb ε w p one r x1 x2 x3
  refine pass (F := fun m => @LCT.Modular.leastM ε m w p one r x1 x2 x3) ?_ hb
  induction x1 generalizing x2 x3 with
  | zero =>
    unfold LCT.Modular.leastM
    mono
  | succ _ ih =>
    unfold LCT.Modular.leastM
    mono using ih

@[partial_fixpoint_monotone] theorem Modular.sqrtLoop :
    ∀ (b : Build → Build), monotone b → ∀ ε w p one x1 x2 x3 x4 x5, monotone fun m => @LCT.Modular.sqrtLoop ε (b m) w p one x1 x2 x3 x4 x5 := by
  intro b hb ε w p one x1 x2 x3 x4 x5
  refine pass (F := fun m => @LCT.Modular.sqrtLoop ε m w p one x1 x2 x3 x4 x5) ?_ hb
  induction x1 generalizing x2 x3 x4 x5 with
  | zero =>
    unfold LCT.Modular.sqrtLoop
    mono
  | succ _ ih =>
    unfold LCT.Modular.sqrtLoop
    mono using ih

@[partial_fixpoint_monotone] theorem Modular.sqrt :
    ∀ (b : Build → Build), monotone b → ∀ ε w a p, monotone fun m => @LCT.Modular.sqrt ε (b m) w a p := by
  intro b hb ε w a p
  refine pass (F := fun m => @LCT.Modular.sqrt ε m w a p) ?_ hb
  unfold LCT.Modular.sqrt LCT.Modular.sqrtWithin
  mono

@[partial_fixpoint_monotone] theorem Curve.Point.isIdentity :
    ∀ (b : Build → Build), monotone b → ∀ ε pt, monotone fun m => @LCT.Curve.Point.isIdentity ε (b m) pt := by
  intro b hb ε pt
  refine pass (F := fun m => @LCT.Curve.Point.isIdentity ε m pt) ?_ hb
  unfold LCT.Curve.Point.isIdentity
  mono

@[partial_fixpoint_monotone] theorem Curve.Point.beq :
    ∀ (b : Build → Build), monotone b → ∀ ε a x1, monotone fun m => @LCT.Curve.Point.beq ε (b m) a x1 := by
  intro b hb ε a x1
  refine pass (F := fun m => @LCT.Curve.Point.beq ε m a x1) ?_ hb
  unfold LCT.Curve.Point.beq
  mono

@[partial_fixpoint_monotone] theorem Curve.inRange :
    ∀ (b : Build → Build), monotone b → ∀ ε w c p, monotone fun m => @LCT.Curve.inRange ε (b m) w c p := by
  intro b hb ε w c p
  refine pass (F := fun m => @LCT.Curve.inRange ε m w c p) ?_ hb
  unfold LCT.Curve.inRange
  mono

@[partial_fixpoint_monotone] theorem Curve.invertUnwrap :
    ∀ (b : Build → Build), monotone b → ∀ ε w v p, monotone fun m => @LCT.Curve.invertUnwrap ε (b m) w v p := by
  intro b hb ε w v p
  refine pass (F := fun m => @LCT.Curve.invertUnwrap ε m w v p) ?_ hb
  unfold LCT.Curve.invertUnwrap
  mono

@[partial_fixpoint_monotone] theorem Curve.thirdPoint :
    ∀ (b : Build → Build), monotone b → ∀ ε w c a mm x, monotone fun m => @LCT.Curve.thirdPoint ε (b m) w c a mm x := by
  intro b hb ε w c a mm x
  refine pass (F := fun m => @LCT.Curve.thirdPoint ε m w c a mm x) ?_ hb
  unfold LCT.Curve.thirdPoint
  mono

@[partial_fixpoint_monotone] theorem Curve.doublePoint :
    ∀ (b : Build → Build), monotone b → ∀ ε w c a, monotone fun m => @LCT.Curve.doublePoint ε (b m) w c a := by
  intro b hb ε w c a
  refine pass (F := fun m => @LCT.Curve.doublePoint ε m w c a) ?_ hb
  unfold LCT.Curve.doublePoint
  mono

@[partial_fixpoint_monotone] theorem Curve.chord :
    ∀ (b : Build → Build), monotone b → ∀ ε w c a x1, monotone fun m => @LCT.Curve.chord ε (b m) w c a x1 := by
  intro b hb ε w c a x1
  refine pass (F := fun m => @LCT.Curve.chord ε m w c a x1) ?_ hb
  unfold LCT.Curve.chord
  mono

@[partial_fixpoint_monotone] theorem Curve.addPoints :
    ∀ (b : Build → Build), monotone b → ∀ ε w c a x1, monotone fun m => @LCT.Curve.addPoints ε (b m) w c a x1 := by
  intro b hb ε w c a x1
  refine pass (F := fun m => @LCT.Curve.addPoints ε m w c a x1) ?_ hb
  unfold LCT.Curve.addPoints
  mono

@[partial_fixpoint_monotone] theorem Curve.mulLoop :
    ∀ (b : Build → Build), monotone b → ∀ ε w c x1 x2 x3, monotone fun m => @LCT.Curve.mulLoop ε (b m) w c x1 x2 x3 := by
  intro b hb ε w c x1 x2 x3
  refine pass (F := fun m => @LCT.Curve.mulLoop ε m w c x1 x2 x3) ?_ hb
  induction x1 generalizing x2 x3 with
  | nil =>
    unfold LCT.Curve.mulLoop
    mono
  | cons _ _ ih =>
    unfold LCT.Curve.mulLoop
    mono using ih

@[partial_fixpoint_monotone] theorem Curve.mulPoint :
    ∀ (b : Build → Build), monotone b → ∀ ε w c point n, monotone fun m => @LCT.Curve.mulPoint ε (b m) w c point n := by
  intro b hb ε w c point n
  refine pass (F := fun m => @LCT.Curve.mulPoint ε m w c point n) ?_ hb
  unfold LCT.Curve.mulPoint
  mono

end LCT.Mono
