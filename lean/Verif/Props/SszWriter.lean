import Verif.Spec.SszItems
import Verif.Lemmas.Ssz.Total
import Verif.Lemmas.Ssz.History

/-!
# C104: writing SSZ containers by hand

A user who implements the trait for a struct adds the fields to an encoding item one after the other and takes the data
(`/repo/src/blockchain/ethereum/ssz/container_types.rs:17-23`, `/repo/src/blockchain/ethereum/ssz/encoder.rs:30-84`); the item can be used again.
-/

namespace LCT.Props
open LCT.Ssz LCT.Spec.Ssz LCT.Out

/-- The calls that write one container: each part by the call for its kind, then `take_data`. -/
def writeContainer (ps : List Part) : List Op := (ps.map fun p => if p.isVar then Op.var p.bytes else Op.fixed p.bytes) ++ [.take]

private theorem runOps_parts (m : Build) (ps : List Part) (ops : List Op) : ∀ it : Item,
    runOps m it ((ps.map fun p => if p.isVar then Op.var p.bytes else Op.fixed p.bytes) ++ ops) = (do
      let it ← addParts it ps
      runOps m it ops) := by
  induction ps with
  | nil => intro it; rfl
  | cons p ps ih =>
    intro it
    rw [List.map_cons, List.cons_append, addParts, addPart]
    split
    · rw [runOps, out_bind_assoc]
      exact bind_congr_ok fun a _ => ih a
    · rw [runOps, out_bind_assoc]
      exact bind_congr_ok fun a _ => ih a

private theorem one_eq (m : Build) (ps : List Part) : runOps m Item.new (writeContainer ps) = (do
    let r ← (do
      let it ← addParts Item.new ps
      takeData it)
    return (r.2, [r.1])) := by
  rw [writeContainer, runOps_parts, out_bind_assoc]
  exact bind_congr_ok fun it _ => by rw [runOps]; rfl

private theorem one_or (m : Build) (ps : List Part) : OrPanic (runOps m Item.new (writeContainer ps)) (Item.new, [assemble ps]) := by
  rw [one_eq]
  exact (takeParts_or ps).bind (.inl rfl)

private theorem more_eq (m : Build) (ps : List Part) (pss : List (List Part)) :
    runOps m Item.new ((ps :: pss).flatMap writeContainer) = (do
      let first ← runOps m Item.new (writeContainer ps)
      let second ← runOps m Item.new (pss.flatMap writeContainer)
      return (second.1, first.2 ++ second.2)) := by
  rw [List.flatMap_cons]
  have := runOps_take m Item.new (ps.map fun p => if p.isVar then Op.var p.bytes else Op.fixed p.bytes) (pss.flatMap writeContainer)
  rw [writeContainer, List.append_assoc]
  exact this

/-- C104: containers written one after the other with the same encoding item, of any parts whatsoever: the data taken are those that the
consensus specification prescribes for each, provided that each is shorter than `2^32` bytes. -/
theorem C104_writes (m : Build) (pss : List (List Part)) (h : ∀ ps ∈ pss, (assemble ps).length < 2 ^ 32) :
    runOps m Item.new (pss.flatMap writeContainer) = .ok (Item.new, pss.map assemble) := by
  induction pss with
  | nil => rfl
  | cons ps pss ih =>
    have h1 : runOps m Item.new (writeContainer ps) = .ok (Item.new, [assemble ps]) := by
      rw [one_eq, takeParts_ok ps (by rw [← assemble_length]; exact h ps (by simp))]; rfl
    rw [more_eq, h1, bind_ok, ih fun qs hq => h qs (List.mem_cons_of_mem _ hq)]
    rfl

/-- C104: without that bound the code panics rather than write anything else. -/
theorem C104_never_wrong (m : Build) (pss : List (List Part)) :
    runOps m Item.new (pss.flatMap writeContainer) = .ok (Item.new, pss.map assemble) ∨
      runOps m Item.new (pss.flatMap writeContainer) = .panic := by
  induction pss with
  | nil => exact .inl rfl
  | cons ps pss ih =>
    rw [more_eq]
    have h2 : OrPanic (runOps m Item.new (pss.flatMap writeContainer)) (Item.new, pss.map assemble) := ih
    exact (one_or m ps).bind (h2.bind (.inl rfl))

/-- C104: what was written is read back with the sizes of the parts, in both builds. -/
theorem C104_reads_back (m : Build) (ps : List Part) (h : (assemble ps).length < 2 ^ 32) :
    ∃ data, runOps m Item.new (writeContainer ps) = .ok (Item.new, [data]) ∧
      decodeAsItems m data (ps.map fun p => if p.isVar then none else some p.bytes.length) = .ok (ps.map Part.bytes) :=
  ⟨assemble ps, by rw [one_eq, takeParts_ok ps (by rw [← assemble_length]; exact h)]; rfl, decodeAsItems_ok m ps h⟩

/-- A byte, two parts of variable size and two bytes; then an empty part of variable size with the same item. -/
example : (∀ ps ∈ [[⟨false, [7]⟩, ⟨true, [1]⟩, ⟨true, [2, 3]⟩, ⟨false, [8, 9]⟩], [(⟨true, []⟩ : Part)]], (assemble ps).length < 2 ^ 32) ∧
    [[⟨false, [7]⟩, ⟨true, [1]⟩, ⟨true, [2, 3]⟩, ⟨false, [8, 9]⟩], [(⟨true, []⟩ : Part)]].map assemble =
      [[7, 11, 0, 0, 0, 12, 0, 0, 0, 8, 9, 1, 2, 3], [4, 0, 0, 0]] := by decide +kernel

end LCT.Props
