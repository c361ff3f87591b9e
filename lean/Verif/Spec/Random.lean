import Verif.Model.Random

/-!
# What the operating system promises (specification)
-/

namespace LCT.Spec
open LCT.Random

/-- What the manual promises about a call of `getrandom(2)` that asked for `len` bytes: it returns `-1` or the number of bytes it wrote,
at most `len`. -/
def GetrandomContract (len : Nat) (r : LinuxReply) : Prop := r.ret = -1 ∨ (r.ret = r.written.length ∧ r.written.length ≤ len)

/-- The lengths of the pieces asked for: as many times 256 as possible, then the rest if there is any. -/
def askedFor (len : Nat) : List Nat := List.replicate (len / 256) 256 ++ if len % 256 = 0 then [] else [len % 256]

end LCT.Spec
