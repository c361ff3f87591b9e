import Verif.Spec.RlpTypes
import Verif.Spec.TxPanics

/-!
# The byte strings on which decoding a composed type panics (specification)
-/

namespace LCT.Spec
open LCT LCT.Rlp LCT.Spec.Eth

/-- An item of this kind with this payload can be read as a value of the type. -/
def Readable (t : Ty) : ItemType × List UInt8 → Prop
  | (.SingleValue, p) => ∃ v, ReadsAs t (.bytes p) v
  | (.List, p) => ∃ xs v, RelaxedTrees xs p ∧ ReadsAs t (.list xs) v

mutual
  /-- An item of this kind with this payload makes the decoder of the type panic: where a vector is expected, a single value does in debug builds;
  a list does if, after complete items, it goes on with a header that declares a huge length; or if one of its items does, and those before it
  can be read. -/
  def Chokes (m : Build) : Ty → ItemType × List UInt8 → Prop
    | .vec t, (kind, p) => (kind = .SingleValue ∧ m = .debug) ∨
      (kind = .List ∧ (ChokingItems p ∨
        ∃ before i after, RelaxedSeq (before ++ i :: after) p ∧ (∀ j ∈ before, Readable t j) ∧ Chokes m t i))
    | .record fs, (kind, p) => kind = .List ∧ (ChokingItems p ∨ ∃ items, RelaxedSeq items p ∧ items.length = fs.length ∧ ChokesIn m fs items)
    | _, _ => False
  /-- One of the items makes the decoder of its field panic, and those before it can be read. -/
  def ChokesIn (m : Build) : List Ty → List (ItemType × List UInt8) → Prop
    | t :: fs, i :: items => Chokes m t i ∨ (Readable t i ∧ ChokesIn m fs items)
    | _, _ => False
end

end LCT.Spec
