import Verif.Basic

/-!
# Specification: debug and release builds agree
-/

namespace LCT.Spec

/-- A debug build panics, or it gives the same outcome as a release build: the same value, the same error, or both run for ever. -/
def SameResult {ε α : Type} (f : Build → Out ε α) : Prop := f .debug = .panic ∨ f .debug = f .release

end LCT.Spec
