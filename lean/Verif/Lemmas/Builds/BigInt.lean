import Verif.Lemmas.Builds
import Verif.Model.BigInt.Gcd

/-!
# Big integers in debug and release builds
-/

namespace LCT.Mono
open Lean.Order (monotone)

@[partial_fixpoint_monotone] theorem BigInt.addDD :
    ∀ (b : Build → Build), monotone b → ∀ ε w a x1, monotone fun m => @LCT.BigInt.addDD ε (b m) w a x1 := by
  intro b hb ε w a x1
  refine pass (F := fun m => @LCT.BigInt.addDD ε m w a x1) ?_ hb
  unfold LCT.BigInt.addDD
  mono

@[partial_fixpoint_monotone] theorem BigInt.mulDD :
    ∀ (b : Build → Build), monotone b → ∀ ε w a x1, monotone fun m => @LCT.BigInt.mulDD ε (b m) w a x1 := by
  intro b hb ε w a x1
  refine pass (F := fun m => @LCT.BigInt.mulDD ε m w a x1) ?_ hb
  unfold LCT.BigInt.mulDD
  mono

@[partial_fixpoint_monotone] theorem BigInt.subU :
    ∀ (b : Build → Build), monotone b → ∀ ε q a x1, monotone fun m => @LCT.BigInt.subU ε (b m) q a x1 := by
  intro b hb ε q a x1
  refine pass (F := fun m => @LCT.BigInt.subU ε m q a x1) ?_ hb
  unfold LCT.BigInt.subU
  mono

@[partial_fixpoint_monotone] theorem BigInt.isZeroDigits :
    ∀ (b : Build → Build), monotone b → ∀ ε ds, monotone fun m => @LCT.BigInt.isZeroDigits ε (b m) ds := by
  intro b hb ε ds
  refine pass (F := fun m => @LCT.BigInt.isZeroDigits ε m ds) ?_ hb
  unfold LCT.BigInt.isZeroDigits
  mono

@[partial_fixpoint_monotone] theorem BigInt.cmpDigits :
    ∀ (b : Build → Build), monotone b → ∀ ε a x1, monotone fun m => @LCT.BigInt.cmpDigits ε (b m) a x1 := by
  intro b hb ε a x1
  refine pass (F := fun m => @LCT.BigInt.cmpDigits ε m a x1) ?_ hb
  unfold LCT.BigInt.cmpDigits
  mono

@[partial_fixpoint_monotone] theorem BigInt.eqDigits :
    ∀ (b : Build → Build), monotone b → ∀ ε a x1, monotone fun m => @LCT.BigInt.eqDigits ε (b m) a x1 := by
  intro b hb ε a x1
  refine pass (F := fun m => @LCT.BigInt.eqDigits ε m a x1) ?_ hb
  unfold LCT.BigInt.eqDigits
  mono

@[partial_fixpoint_monotone] theorem BigInt.bitLenDigits :
    ∀ (b : Build → Build), monotone b → ∀ ε w a, monotone fun m => @LCT.BigInt.bitLenDigits ε (b m) w a := by
  intro b hb ε w a
  refine pass (F := fun m => @LCT.BigInt.bitLenDigits ε m w a) ?_ hb
  unfold LCT.BigInt.bitLenDigits
  mono

@[partial_fixpoint_monotone] theorem BigInt.addDigits :
    ∀ (b : Build → Build), monotone b → ∀ ε w a x1 n, monotone fun m => @LCT.BigInt.addDigits ε (b m) w a x1 n := by
  intro b hb ε w a x1 n
  refine pass (F := fun m => @LCT.BigInt.addDigits ε m w a x1 n) ?_ hb
  unfold LCT.BigInt.addDigits
  mono

@[partial_fixpoint_monotone] theorem BigInt.subDigits :
    ∀ (b : Build → Build), monotone b → ∀ ε w a x1 n, monotone fun m => @LCT.BigInt.subDigits ε (b m) w a x1 n := by
  intro b hb ε w a x1 n
  refine pass (F := fun m => @LCT.BigInt.subDigits ε m w a x1 n) ?_ hb
  unfold LCT.BigInt.subDigits
  mono

@[partial_fixpoint_monotone] theorem BigInt.mulRow :
    ∀ (b : Build → Build), monotone b → ∀ ε w s x1 x2 x3, monotone fun m => @LCT.BigInt.mulRow ε (b m) w s x1 x2 x3 := by
  intro b hb ε w s x1 x2 x3
  refine pass (F := fun m => @LCT.BigInt.mulRow ε m w s x1 x2 x3) ?_ hb
  induction x1 generalizing x2 x3 with
  | nil =>
    unfold LCT.BigInt.mulRow
    mono
  | cons _ _ ih =>
    cases x2
    all_goals
      unfold LCT.BigInt.mulRow
      try dsimp only
      mono using ih

@[partial_fixpoint_monotone] theorem BigInt.mulRows :
    ∀ (b : Build → Build), monotone b → ∀ ε w greater x1 x2, monotone fun m => @LCT.BigInt.mulRows ε (b m) w greater x1 x2 := by
  intro b hb ε w greater x1 x2
  refine pass (F := fun m => @LCT.BigInt.mulRows ε m w greater x1 x2) ?_ hb
  induction x1 generalizing x2 with
  | nil =>
    unfold LCT.BigInt.mulRows
    mono
  | cons _ _ ih =>
    unfold LCT.BigInt.mulRows
    mono using ih

@[partial_fixpoint_monotone] theorem BigInt.mulDigits :
    ∀ (b : Build → Build), monotone b → ∀ ε w a x1 n, monotone fun m => @LCT.BigInt.mulDigits ε (b m) w a x1 n := by
  intro b hb ε w a x1 n
  refine pass (F := fun m => @LCT.BigInt.mulDigits ε m w a x1 n) ?_ hb
  unfold LCT.BigInt.mulDigits
  mono

@[partial_fixpoint_monotone] theorem BigInt.shiftRightDigits :
    ∀ (b : Build → Build), monotone b → ∀ ε w digits n, monotone fun m => @LCT.BigInt.shiftRightDigits ε (b m) w digits n := by
  intro b hb ε w digits n
  refine pass (F := fun m => @LCT.BigInt.shiftRightDigits ε m w digits n) ?_ hb
  unfold LCT.BigInt.shiftRightDigits
  mono

@[partial_fixpoint_monotone] theorem BigInt.BInt.asDigits :
    ∀ (b : Build → Build), monotone b → ∀ ε x, monotone fun m => @LCT.BigInt.BInt.asDigits ε (b m) x := by
  intro b hb ε x
  refine pass (F := fun m => @LCT.BigInt.BInt.asDigits ε m x) ?_ hb
  unfold LCT.BigInt.BInt.asDigits
  mono

@[partial_fixpoint_monotone] theorem BigInt.BInt.isZero :
    ∀ (b : Build → Build), monotone b → ∀ ε x, monotone fun m => @LCT.BigInt.BInt.isZero ε (b m) x := by
  intro b hb ε x
  refine pass (F := fun m => @LCT.BigInt.BInt.isZero ε m x) ?_ hb
  unfold LCT.BigInt.BInt.isZero
  mono

@[partial_fixpoint_monotone] theorem BigInt.BInt.add :
    ∀ (b : Build → Build), monotone b → ∀ ε w x y, monotone fun m => @LCT.BigInt.BInt.add ε (b m) w x y := by
  intro b hb ε w x y
  refine pass (F := fun m => @LCT.BigInt.BInt.add ε m w x y) ?_ hb
  unfold LCT.BigInt.BInt.add
  mono

@[partial_fixpoint_monotone] theorem BigInt.BInt.sub :
    ∀ (b : Build → Build), monotone b → ∀ ε w x y, monotone fun m => @LCT.BigInt.BInt.sub ε (b m) w x y := by
  intro b hb ε w x y
  refine pass (F := fun m => @LCT.BigInt.BInt.sub ε m w x y) ?_ hb
  unfold LCT.BigInt.BInt.sub
  mono

@[partial_fixpoint_monotone] theorem BigInt.BInt.mul :
    ∀ (b : Build → Build), monotone b → ∀ ε w x y, monotone fun m => @LCT.BigInt.BInt.mul ε (b m) w x y := by
  intro b hb ε w x y
  refine pass (F := fun m => @LCT.BigInt.BInt.mul ε m w x y) ?_ hb
  unfold LCT.BigInt.BInt.mul
  mono

@[partial_fixpoint_monotone] theorem BigInt.BInt.shr :
    ∀ (b : Build → Build), monotone b → ∀ ε w x n, monotone fun m => @LCT.BigInt.BInt.shr ε (b m) w x n := by
  intro b hb ε w x n
  refine pass (F := fun m => @LCT.BigInt.BInt.shr ε m w x n) ?_ hb
  unfold LCT.BigInt.BInt.shr
  mono

@[partial_fixpoint_monotone] theorem BigInt.BInt.bothZero :
    ∀ (b : Build → Build), monotone b → ∀ ε x y, monotone fun m => @LCT.BigInt.BInt.bothZero ε (b m) x y := by
  intro b hb ε x y
  refine pass (F := fun m => @LCT.BigInt.BInt.bothZero ε m x y) ?_ hb
  unfold LCT.BigInt.BInt.bothZero
  mono

@[partial_fixpoint_monotone] theorem BigInt.BInt.beq :
    ∀ (b : Build → Build), monotone b → ∀ ε x y, monotone fun m => @LCT.BigInt.BInt.beq ε (b m) x y := by
  intro b hb ε x y
  refine pass (F := fun m => @LCT.BigInt.BInt.beq ε m x y) ?_ hb
  unfold LCT.BigInt.BInt.beq
  mono

@[partial_fixpoint_monotone] theorem BigInt.BInt.cmp :
    ∀ (b : Build → Build), monotone b → ∀ ε x y, monotone fun m => @LCT.BigInt.BInt.cmp ε (b m) x y := by
  intro b hb ε x y
  refine pass (F := fun m => @LCT.BigInt.BInt.cmp ε m x y) ?_ hb
  unfold LCT.BigInt.BInt.cmp
  mono

@[partial_fixpoint_monotone] theorem BigInt.BInt.bitLen :
    ∀ (b : Build → Build), monotone b → ∀ ε w x, monotone fun m => @LCT.BigInt.BInt.bitLen ε (b m) w x := by
  intro b hb ε w x
  refine pass (F := fun m => @LCT.BigInt.BInt.bitLen ε m w x) ?_ hb
  unfold LCT.BigInt.BInt.bitLen
  mono

@[partial_fixpoint_monotone] theorem BigInt.BInt.leBits :
    ∀ (b : Build → Build), monotone b → ∀ ε w x, monotone fun m => @LCT.BigInt.BInt.leBits ε (b m) w x := by
  intro b hb ε w x
  refine pass (F := fun m => @LCT.BigInt.BInt.leBits ε m w x) ?_ hb
  unfold LCT.BigInt.BInt.leBits
  mono

@[partial_fixpoint_monotone] theorem BigInt.BInt.trailingZeros :
    ∀ (b : Build → Build), monotone b → ∀ ε w x, monotone fun m => @LCT.BigInt.BInt.trailingZeros ε (b m) w x := by
  intro b hb ε w x
  refine pass (F := fun m => @LCT.BigInt.BInt.trailingZeros ε m w x) ?_ hb
  unfold LCT.BigInt.BInt.trailingZeros
  mono

@[partial_fixpoint_monotone] theorem BigInt.BInt.byteLen :
    ∀ (b : Build → Build), monotone b → ∀ ε w x, monotone fun m => @LCT.BigInt.BInt.byteLen ε (b m) w x := by
  intro b hb ε w x
  refine pass (F := fun m => @LCT.BigInt.BInt.byteLen ε m w x) ?_ hb
  unfold LCT.BigInt.BInt.byteLen
  mono

@[partial_fixpoint_monotone] theorem BigInt.BInt.toBeBytes :
    ∀ (b : Build → Build), monotone b → ∀ ε w x, monotone fun m => @LCT.BigInt.BInt.toBeBytes ε (b m) w x := by
  intro b hb ε w x
  refine pass (F := fun m => @LCT.BigInt.BInt.toBeBytes ε m w x) ?_ hb
  unfold LCT.BigInt.BInt.toBeBytes
  mono

@[partial_fixpoint_monotone] theorem BigInt.BInt.toLowerHex :
    ∀ (b : Build → Build), monotone b → ∀ ε w x, monotone fun m => @LCT.BigInt.BInt.toLowerHex ε (b m) w x := by
  intro b hb ε w x
  refine pass (F := fun m => @LCT.BigInt.BInt.toLowerHex ε m w x) ?_ hb
  unfold LCT.BigInt.BInt.toLowerHex
  mono

@[partial_fixpoint_monotone] theorem BigInt.BInt.display :
    ∀ (b : Build → Build), monotone b → ∀ ε w x, monotone fun m => @LCT.BigInt.BInt.display ε (b m) w x := by
  intro b hb ε w x
  refine pass (F := fun m => @LCT.BigInt.BInt.display ε m w x) ?_ hb
  unfold LCT.BigInt.BInt.display
  mono

@[partial_fixpoint_monotone] theorem BigInt.BInt.radixLoop :
    ∀ (b : Build → Build), monotone b → ∀ w radix radixBig x1 x2, monotone fun m => @LCT.BigInt.BInt.radixLoop (b m) w radix radixBig x1 x2 := by
  intro b hb w radix radixBig x1 x2
  refine pass (F := fun m => @LCT.BigInt.BInt.radixLoop m w radix radixBig x1 x2) ?_ hb
  induction x1 generalizing x2 with
  | nil =>
    unfold LCT.BigInt.BInt.radixLoop
    mono
  | cons _ _ ih =>
    unfold LCT.BigInt.BInt.radixLoop
    mono using ih

@[partial_fixpoint_monotone] theorem BigInt.BInt.fromStrRadix :
    ∀ (b : Build → Build), monotone b → ∀ w s radix, monotone fun m => @LCT.BigInt.BInt.fromStrRadix (b m) w s radix := by
  intro b hb w s radix
  refine pass (F := fun m => @LCT.BigInt.BInt.fromStrRadix m w s radix) ?_ hb
  unfold LCT.BigInt.BInt.fromStrRadix
  mono

@[partial_fixpoint_monotone] theorem BigInt.BUint.fromStrRadix :
    ∀ (b : Build → Build), monotone b → ∀ w s radix, monotone fun m => @LCT.BigInt.BUint.fromStrRadix (b m) w s radix := by
  intro b hb w s radix
  refine pass (F := fun m => @LCT.BigInt.BUint.fromStrRadix m w s radix) ?_ hb
  unfold LCT.BigInt.BUint.fromStrRadix
  mono

@[partial_fixpoint_monotone] theorem BigInt.BUint.tryFromStr :
    ∀ (b : Build → Build), monotone b → ∀ w s, monotone fun m => @LCT.BigInt.BUint.tryFromStr (b m) w s := by
  intro b hb w s
  refine pass (F := fun m => @LCT.BigInt.BUint.tryFromStr m w s) ?_ hb
  unfold LCT.BigInt.BUint.tryFromStr
  mono

@[partial_fixpoint_monotone] theorem BigInt.qHat :
    ∀ (b : Build → Build), monotone b → ∀ ε w n0 n1 n2 d0 d1, monotone fun m => @LCT.BigInt.qHat ε (b m) w n0 n1 n2 d0 d1 := by
  intro b hb ε w n0 n1 n2 d0 d1
  refine pass (F := fun m => @LCT.BigInt.qHat ε m w n0 n1 n2 d0 d1) ?_ hb
  unfold LCT.BigInt.qHat
  mono

@[partial_fixpoint_monotone] theorem BigInt.subMulLoop :
    ∀ (b : Build → Build), monotone b → ∀ ε w c x1 x2 x3 x4, monotone fun m => @LCT.BigInt.subMulLoop ε (b m) w c x1 x2 x3 x4 := by
  intro b hb ε w c x1 x2 x3 x4
  refine pass (F := fun m => @LCT.BigInt.subMulLoop ε m w c x1 x2 x3 x4) ?_ hb
  induction x1 generalizing x2 x3 x4 with
  | nil =>
    unfold LCT.BigInt.subMulLoop
    mono
  | cons _ _ ih =>
    cases x2
    all_goals
      unfold LCT.BigInt.subMulLoop
      try dsimp only
      mono using ih

@[partial_fixpoint_monotone] theorem BigInt.subMulDigits :
    ∀ (b : Build → Build), monotone b → ∀ ε w a x1 c, monotone fun m => @LCT.BigInt.subMulDigits ε (b m) w a x1 c := by
  intro b hb ε w a x1 c
  refine pass (F := fun m => @LCT.BigInt.subMulDigits ε m w a x1 c) ?_ hb
  unfold LCT.BigInt.subMulDigits
  mono

@[partial_fixpoint_monotone] theorem BigInt.assignAddDigits :
    ∀ (b : Build → Build), monotone b → ∀ ε w a x1, monotone fun m => @LCT.BigInt.assignAddDigits ε (b m) w a x1 := by
  intro b hb ε w a x1
  refine pass (F := fun m => @LCT.BigInt.assignAddDigits ε m w a x1) ?_ hb
  unfold LCT.BigInt.assignAddDigits
  mono

@[partial_fixpoint_monotone] theorem BigInt.divStep :
    ∀ (b : Build → Build), monotone b → ∀ ε w divisor d d0 d1 win, monotone fun m => @LCT.BigInt.divStep ε (b m) w divisor d d0 d1 win := by
  intro b hb ε w divisor d d0 d1 win
  refine pass (F := fun m => @LCT.BigInt.divStep ε m w divisor d d0 d1 win) ?_ hb
  unfold LCT.BigInt.divStep
  mono

@[partial_fixpoint_monotone] theorem BigInt.divAt :
    ∀ (b : Build → Build), monotone b → ∀ ε w divisor d d0 d1 j st, monotone fun m => @LCT.BigInt.divAt ε (b m) w divisor d d0 d1 j st := by
  intro b hb ε w divisor d d0 d1 j st
  refine pass (F := fun m => @LCT.BigInt.divAt ε m w divisor d d0 d1 j st) ?_ hb
  unfold LCT.BigInt.divAt
  mono

@[partial_fixpoint_monotone] theorem BigInt.divLoop :
    ∀ (b : Build → Build), monotone b → ∀ ε w divisor d d0 d1 x1 x2 x3, monotone fun m => @LCT.BigInt.divLoop ε (b m) w divisor d d0 d1 x1 x2 x3 := by
  intro b hb ε w divisor d d0 d1 x1 x2 x3
  refine pass (F := fun m => @LCT.BigInt.divLoop ε m w divisor d d0 d1 x1 x2 x3) ?_ hb
  induction x1 generalizing x2 x3 with
  | zero =>
    unfold LCT.BigInt.divLoop
    mono
  | succ _ ih =>
    unfold LCT.BigInt.divLoop
    mono using ih

@[partial_fixpoint_monotone] theorem BigInt.divKnuth :
    ∀ (b : Build → Build), monotone b → ∀ ε w dividend divisor nq nr, monotone fun m => @LCT.BigInt.divKnuth ε (b m) w dividend divisor nq nr := by
  intro b hb ε w dividend divisor nq nr
  refine pass (F := fun m => @LCT.BigInt.divKnuth ε m w dividend divisor nq nr) ?_ hb
  unfold LCT.BigInt.divKnuth
  mono

@[partial_fixpoint_monotone] theorem BigInt.divRemDigits :
    ∀ (b : Build → Build), monotone b → ∀ ε w dividend divisor nq nr, monotone fun m => @LCT.BigInt.divRemDigits ε (b m) w dividend divisor nq nr := by
  intro b hb ε w dividend divisor nq nr
  refine pass (F := fun m => @LCT.BigInt.divRemDigits ε m w dividend divisor nq nr) ?_ hb
  unfold LCT.BigInt.divRemDigits
  mono

@[partial_fixpoint_monotone] theorem BigInt.BInt.divRem :
    ∀ (b : Build → Build), monotone b → ∀ ε w a x1, monotone fun m => @LCT.BigInt.BInt.divRem ε (b m) w a x1 := by
  intro b hb ε w a x1
  refine pass (F := fun m => @LCT.BigInt.BInt.divRem ε m w a x1) ?_ hb
  unfold LCT.BigInt.BInt.divRem
  mono

@[partial_fixpoint_monotone] theorem BigInt.BInt.div :
    ∀ (b : Build → Build), monotone b → ∀ ε w a x1, monotone fun m => @LCT.BigInt.BInt.div ε (b m) w a x1 := by
  intro b hb ε w a x1
  refine pass (F := fun m => @LCT.BigInt.BInt.div ε m w a x1) ?_ hb
  unfold LCT.BigInt.BInt.div
  mono

@[partial_fixpoint_monotone] theorem BigInt.BInt.rem :
    ∀ (b : Build → Build), monotone b → ∀ ε w a x1, monotone fun m => @LCT.BigInt.BInt.rem ε (b m) w a x1 := by
  intro b hb ε w a x1
  refine pass (F := fun m => @LCT.BigInt.BInt.rem ε m w a x1) ?_ hb
  unfold LCT.BigInt.BInt.rem
  mono

@[partial_fixpoint_monotone] theorem BigInt.addDg :
    ∀ (b : Build → Build), monotone b → ∀ ε w a x1, monotone fun m => @LCT.BigInt.addDg ε (b m) w a x1 := by
  intro b hb ε w a x1
  refine pass (F := fun m => @LCT.BigInt.addDg ε m w a x1) ?_ hb
  unfold LCT.BigInt.addDg
  mono

@[partial_fixpoint_monotone] theorem BigInt.mulDg :
    ∀ (b : Build → Build), monotone b → ∀ ε w a x1, monotone fun m => @LCT.BigInt.mulDg ε (b m) w a x1 := by
  intro b hb ε w a x1
  refine pass (F := fun m => @LCT.BigInt.mulDg ε m w a x1) ?_ hb
  unfold LCT.BigInt.mulDg
  mono

@[partial_fixpoint_monotone] theorem BigInt.dpccLoop :
    ∀ (b : Build → Build), monotone b → ∀ ε w x1 x2, monotone fun m => @LCT.BigInt.dpccLoop ε (b m) w x1 x2 := by
  intro b hb ε w x1 x2
  refine pass (F := fun m => @LCT.BigInt.dpccLoop ε m w x1 x2) ?_ hb
  induction x1 generalizing x2 with
  | zero =>
    unfold LCT.BigInt.dpccLoop
    mono
  | succ _ ih =>
    unfold LCT.BigInt.dpccLoop
    mono using ih

@[partial_fixpoint_monotone] theorem BigInt.mulSubUnsigned :
    ∀ (b : Build → Build), monotone b → ∀ ε w n x d1 y d2, monotone fun m => @LCT.BigInt.mulSubUnsigned ε (b m) w n x d1 y d2 := by
  intro b hb ε w n x d1 y d2
  refine pass (F := fun m => @LCT.BigInt.mulSubUnsigned ε m w n x d1 y d2) ?_ hb
  unfold LCT.BigInt.mulSubUnsigned
  mono

@[partial_fixpoint_monotone] theorem BigInt.signedSub :
    ∀ (b : Build → Build), monotone b → ∀ ε w n s1 g1 s2 g2, monotone fun m => @LCT.BigInt.signedSub ε (b m) w n s1 g1 s2 g2 := by
  intro b hb ε w n s1 g1 s2 g2
  refine pass (F := fun m => @LCT.BigInt.signedSub ε m w n s1 g1 s2 g2) ?_ hb
  unfold LCT.BigInt.signedSub
  mono

@[partial_fixpoint_monotone] theorem BigInt.mulSubSigned :
    ∀ (b : Build → Build), monotone b → ∀ ε w n x d1 g1 y d2 g2, monotone fun m => @LCT.BigInt.mulSubSigned ε (b m) w n x d1 g1 y d2 g2 := by
  intro b hb ε w n x d1 g1 y d2 g2
  refine pass (F := fun m => @LCT.BigInt.mulSubSigned ε m w n x d1 g1 y d2 g2) ?_ hb
  unfold LCT.BigInt.mulSubSigned
  mono

@[partial_fixpoint_monotone] theorem BigInt.dpccAB :
    ∀ (b : Build → Build), monotone b → ∀ ε w n d s, monotone fun m => @LCT.BigInt.dpccAB ε (b m) w n d s := by
  intro b hb ε w n d s
  refine pass (F := fun m => @LCT.BigInt.dpccAB ε m w n d s) ?_ hb
  unfold LCT.BigInt.dpccAB
  mono

@[partial_fixpoint_monotone] theorem BigInt.dpccU :
    ∀ (b : Build → Build), monotone b → ∀ ε w n d s, monotone fun m => @LCT.BigInt.dpccU ε (b m) w n d s := by
  intro b hb ε w n d s
  refine pass (F := fun m => @LCT.BigInt.dpccU ε m w n d s) ?_ hb
  unfold LCT.BigInt.dpccU
  mono

@[partial_fixpoint_monotone] theorem BigInt.euclidStep :
    ∀ (b : Build → Build), monotone b → ∀ ε w n nb s, monotone fun m => @LCT.BigInt.euclidStep ε (b m) w n nb s := by
  intro b hb ε w n nb s
  refine pass (F := fun m => @LCT.BigInt.euclidStep ε m w n nb s) ?_ hb
  unfold LCT.BigInt.euclidStep
  mono

@[partial_fixpoint_monotone] theorem BigInt.gcdBody :
    ∀ (b : Build → Build), monotone b → ∀ ε w n nb fuel s, monotone fun m => @LCT.BigInt.gcdBody ε (b m) w n nb fuel s := by
  intro b hb ε w n nb fuel s
  refine pass (F := fun m => @LCT.BigInt.gcdBody ε m w n nb fuel s) ?_ hb
  unfold LCT.BigInt.gcdBody
  mono

@[partial_fixpoint_monotone] theorem BigInt.gcdLoop :
    ∀ (b : Build → Build), monotone b → ∀ ε w n nb inner x1 x2, monotone fun m => @LCT.BigInt.gcdLoop ε (b m) w n nb inner x1 x2 := by
  intro b hb ε w n nb inner x1 x2
  refine pass (F := fun m => @LCT.BigInt.gcdLoop ε m w n nb inner x1 x2) ?_ hb
  induction x1 generalizing x2 with
  | zero =>
    unfold LCT.BigInt.gcdLoop
    mono
  | succ _ ih =>
    unfold LCT.BigInt.gcdLoop
    mono using ih

@[partial_fixpoint_monotone] theorem BigInt.gcdDigits :
    ∀ (b : Build → Build), monotone b → ∀ ε w fuel a x1, monotone fun m => @LCT.BigInt.gcdDigits ε (b m) w fuel a x1 := by
  intro b hb ε w fuel a x1
  refine pass (F := fun m => @LCT.BigInt.gcdDigits ε m w fuel a x1) ?_ hb
  unfold LCT.BigInt.gcdDigits
  mono

@[partial_fixpoint_monotone] theorem BigInt.BInt.gcd :
    ∀ (b : Build → Build), monotone b → ∀ ε w fuel a x1, monotone fun m => @LCT.BigInt.BInt.gcd ε (b m) w fuel a x1 := by
  intro b hb ε w fuel a x1
  refine pass (F := fun m => @LCT.BigInt.BInt.gcd ε m w fuel a x1) ?_ hb
  unfold LCT.BigInt.BInt.gcd
  mono

end LCT.Mono
