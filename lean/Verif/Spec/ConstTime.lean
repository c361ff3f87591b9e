import Verif.Model.ConstTime
import Verif.Spec.Hex

/-!
# Constant time (specification)
-/

namespace LCT.Spec

/-- The position of the first character that is not a hex digit; the length if there is none. -/
def firstBad : List UInt8 → Nat
  | [] => 0
  | c :: rest => if (hexVal c).isSome then firstBad rest + 1 else 0

/-! Two encoders that are not constant time, to show that the notion tells them apart. -/

section
open CT CT.Expr CT.Stmt

/-- One byte of `tableEncoder`. -/
def tableRound : Stmt Codecs.CodecsError :=
  load .high_nibble .table (cast (shr (var (w := 8) .byte) 4)) ;;
  push (var .high_nibble) ;;
  load .low_nibble .table (cast (and (var (w := 8) .byte) (lit 0x0f))) ;;
  push (var .low_nibble)

/-- Looks the digits up in a table. -/
def tableEncoder : Stmt Codecs.CodecsError :=
  withCapacity 2 1 ;;
  forBytes .byte .input tableRound

/-- The digits `0` to `9` (the sign of `nibble - 10` is set) and `a` to `f` in two branches. -/
def branchDigit (x : CT.Var) : Stmt Codecs.CodecsError :=
  ite (isZero (shr (wsub (var (w := 8) x) (lit 10)) 7)) (push (add (var x) (lit 87))) (push (add (var x) (lit 48)))

/-- Decides by branches. -/
def branchEncoder : Stmt Codecs.CodecsError :=
  withCapacity 2 1 ;;
  forBytes .byte .input (
    assign 8 .low_nibble (and (var (w := 8) .byte) (lit 0x0f)) ;;
    assign 8 .high_nibble (shr (var (w := 8) .byte) 4) ;;
    branchDigit .high_nibble ;;
    branchDigit .low_nibble)

end

end LCT.Spec
