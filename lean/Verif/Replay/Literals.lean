import Lean.Elab.Term

/-! # Literals for the replayed tests: texts and bytes, expanded when they are parsed -/

namespace LCT.Replay
open Lean

private def list (ns : List Nat) : MacroM Term := do
  let elements := ns.toArray.map fun n => Syntax.mkNumLit (toString n)
  `(([$elements,*] : List UInt8))

/-- The bytes of a text. -/
scoped macro "ascii!" s:str : term => list (s.getString.toUTF8.toList.map (·.toNat))

private def digit (c : Char) : Nat := if c.isDigit then c.toNat - 48 else c.toLower.toNat - 87

private def pairsOf : List Char → List Nat
  | a :: b :: cs => (digit a * 16 + digit b) :: pairsOf cs
  | _ => []

/-- The bytes written in hexadecimal; the parts of a long literal are joined. -/
scoped macro "hex!" ss:str+ : term => list (pairsOf (ss.toList.flatMap fun s => s.getString.toList))

end LCT.Replay
