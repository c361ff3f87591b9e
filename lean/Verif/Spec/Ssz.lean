import Verif.Spec.Bytes
import Mathlib.Data.List.Forall2

/-!
# Simple Serialize (consensus-specs v1.1.1, `ssz/simple-serialize.md`) (specification)
-/

namespace LCT.Spec.Ssz

/-! ## Types and values -/

/-- The lengths, in bytes, of the unsigned integers. -/
inductive Width where
  | w8 | w16 | w32 | w64 | w128
  deriving Repr, DecidableEq

def Width.bytes : Width → Nat
  | w8 => 1
  | w16 => 2
  | w32 => 4
  | w64 => 8
  | w128 => 16

/-- The types: `boolean`, `uintN`, `Vector[t, n]`, `List[t]` and containers. -/
inductive Ty where
  | bool
  | uint (w : Width)
  | vec (n : Nat) (t : Ty)
  | list (t : Ty)
  | container (fields : List Ty)

mutual
  /-- The values of a type. -/
  def Ty.Val : Ty → Type
    | .bool => Bool
    | .uint w => BitVec (8 * w.bytes)
    | .vec n t => { vs : List t.Val // vs.length = n }
    | .list t => List t.Val
    | .container fs => Vals fs
  /-- The values of a container's fields. -/
  def Vals : List Ty → Type
    | [] => Unit
    | t :: fs => t.Val × Vals fs
end

mutual
  /-- Whether a type is of variable size: a list, or anything that contains one. -/
  def Ty.isVariable : Ty → Bool
    | .bool => false
    | .uint _ => false
    | .vec _ t => t.isVariable
    | .list _ => true
    | .container fs => anyVariable fs
  def anyVariable : List Ty → Bool
    | [] => false
    | t :: fs => t.isVariable || anyVariable fs
end

mutual
  /-- The length of the fixed part of a serialization: the length of values of a type of fixed size, with four bytes for each offset. -/
  def Ty.head : Ty → Nat
    | .bool => 1
    | .uint w => w.bytes
    | .vec n t => n * (if t.isVariable then 4 else t.head)
    | .list _ => 0
    | .container fs => heads fs
  def heads : List Ty → Nat
    | [] => 0
    | t :: fs => (if t.isVariable then 4 else t.head) + heads fs
end

mutual
  /-- "Empty vector types are illegal", "Containers with no fields are illegal". -/
  def Ty.Legal : Ty → Prop
    | .bool => True
    | .uint _ => True
    | .vec n t => 0 < n ∧ t.Legal
    | .list t => t.Legal
    | .container fs => fs ≠ [] ∧ allLegal fs
  def allLegal : List Ty → Prop
    | [] => True
    | t :: fs => t.Legal ∧ allLegal fs
end

mutual
  /-- Fixed parts are shorter than `2 ^ 32` bytes: otherwise no value can be serialized at all. -/
  def Ty.Small : Ty → Prop
    | .bool => True
    | .uint _ => True
    | .vec n t => n * (if t.isVariable then 4 else t.head) < 2 ^ 32 ∧ t.Small
    | .list t => t.Small
    | .container fs => heads fs < 2 ^ 32 ∧ allSmall fs
  def allSmall : List Ty → Prop
    | [] => True
    | t :: fs => t.Small ∧ allSmall fs
end

/-! ## Serialization -/

/-- `n` in `k` bytes, little-endian. -/
def le : Nat → Nat → List UInt8
  | 0, _ => []
  | k + 1, n => UInt8.ofNat n :: le k (n / 256)

/-- A part of a vector, list or container: its serialization, and whether its type is of variable size. -/
structure Part where
  isVar : Bool
  bytes : List UInt8

/-- `fixed_lengths` -/
def fixedLengths (ps : List Part) : List Nat := ps.map fun p => if p.isVar then 4 else p.bytes.length

/-- `variable_parts` -/
def variableParts (ps : List Part) : List (List UInt8) := ps.map fun p => if p.isVar then p.bytes else []

/-- `variable_lengths` -/
def variableLengths (ps : List Part) : List Nat := (variableParts ps).map List.length

/-- `variable_offsets` -/
def variableOffset (ps : List Part) (i : Nat) : Nat := (fixedLengths ps ++ (variableLengths ps).take i).sum

/-- `fixed_parts` -/
def fixedParts (ps : List Part) : List (List UInt8) :=
  ps.zipIdx.map fun (p, i) => if p.isVar then le 4 (variableOffset ps i) else p.bytes

/-- The serialization of vectors, lists and containers. -/
def assemble (ps : List Part) : List UInt8 := (fixedParts ps ++ variableParts ps).flatten

mutual
  /-- `serialize` -/
  def serialize : (t : Ty) → t.Val → List UInt8
    | .bool, b => if (show Bool from b) then [1] else [0]
    | .uint w, x => le w.bytes (BitVec.toNat (w := 8 * w.bytes) x)
    | .vec _ t, vs => assemble ((show { vs : List t.Val // _ } from vs).val.map fun v => ⟨t.isVariable, serialize t v⟩)
    | .list t, vs => assemble ((show List t.Val from vs).map fun v => ⟨t.isVariable, serialize t v⟩)
    | .container fs, vs => assemble (parts fs vs)
  /-- The parts of a container. -/
  def parts : (fs : List Ty) → Vals fs → List Part
    | [], _ => []
    | t :: fs, vs => ⟨t.isVariable, serialize t (show t.Val × Vals fs from vs).1⟩ :: parts fs (show t.Val × Vals fs from vs).2
end

/-! ## Classes of types and values -/

mutual
  /-- The value has no empty list of elements of variable size in it. -/
  def NoEmpty : (t : Ty) → t.Val → Prop
    | .bool, _ => True
    | .uint _, _ => True
    | .vec _ t, vs => ∀ v ∈ (show { vs : List t.Val // _ } from vs).val, NoEmpty t v
    | .list t, vs => (t.isVariable = true → (show List t.Val from vs) ≠ []) ∧ ∀ v ∈ (show List t.Val from vs), NoEmpty t v
    | .container fs, vs => NoEmptys fs vs
  def NoEmptys : (fs : List Ty) → Vals fs → Prop
    | [], _ => True
    | t :: fs, vs => NoEmpty t (show t.Val × Vals fs from vs).1 ∧ NoEmptys fs (show t.Val × Vals fs from vs).2
end

mutual
  /-- No part of the type is a list whose elements are of variable size. -/
  def NoVarList : Ty → Prop
    | .bool => True
    | .uint _ => True
    | .vec _ t => NoVarList t
    | .list t => t.isVariable = false ∧ NoVarList t
    | .container fs => NoVarLists fs
  def NoVarLists : List Ty → Prop
    | [] => True
    | t :: fs => NoVarList t ∧ NoVarLists fs
end

/-- Booleans, integers, vectors and lists of elements of fixed size, and lists of those to any depth. -/
def Canon : Ty → Prop
  | .bool => True
  | .uint _ => True
  | .vec _ t => t.isVariable = false
  | .list t => t.isVariable = false ∨ Canon t
  | .container _ => False

/-! ## What is read

A relaxed form of the layout: the variable parts may begin anywhere. -/

/-- The fixed parts, for variable parts that begin at `o`. -/
def fixedPartsAt (o : Nat) (ps : List Part) : List (List UInt8) :=
  ps.zipIdx.map fun (p, i) => if p.isVar then le 4 (o + ((variableLengths ps).take i).sum) else p.bytes

/-- The data begins with the fixed parts, and from `o` to its end consists of the variable parts. -/
def LaidOut (o : Nat) (ps : List Part) (bs : List UInt8) : Prop :=
  bs.length < 2 ^ 32 ∧ o ≤ bs.length ∧ (fixedPartsAt o ps).flatten <+: bs ∧ (variableParts ps).flatten = bs.drop o

/-- The data is the sequence of these items, which have the length `k`. -/
def Joined (k : Nat) (items : List (List UInt8)) (bs : List UInt8) : Prop := bs = items.flatten ∧ ∀ c ∈ items, c.length = k

/-- Items as parts of variable size. -/
def varParts (items : List (List UInt8)) : List Part := items.map fun c => ⟨true, c⟩

/-- Items as parts of a container. -/
def fieldParts (fs : List Ty) (items : List (List UInt8)) : List Part := List.zipWith (fun t c => ⟨t.isVariable, c⟩) fs items

/-- One item for each field; those of fixed size have the length of the type. -/
def ItemsFit (fs : List Ty) (items : List (List UInt8)) : Prop :=
  List.Forall₂ (fun t c => t.isVariable = false → c.length = t.head) fs items

mutual
  /-- The data is read as the value: as in `serialize`, except that the variable parts of vectors and containers may begin anywhere, and
  that the empty list of elements of variable size cannot be read. -/
  def Reads : (t : Ty) → List UInt8 → t.Val → Prop
    | .bool, bs, b => bs = serialize .bool b
    | .uint w, bs, x => bs = serialize (.uint w) x
    | .vec _ t, bs, vs => ∃ items, List.Forall₂ (fun c v => Reads t c v) items (show { vs : List t.Val // _ } from vs).val ∧
        if t.isVariable then ∃ o, LaidOut o (varParts items) bs else Joined t.head items bs
    | .list t, bs, vs => ∃ items, List.Forall₂ (fun c v => Reads t c v) items (show List t.Val from vs) ∧
        if t.isVariable then items ≠ [] ∧ bs = assemble (varParts items) ∧ bs.length < 2 ^ 32 else Joined t.head items bs
    | .container fs, bs, vs => ∃ items o, ItemsFit fs items ∧ LaidOut o (fieldParts fs items) bs ∧ ReadsAll fs items vs
  /-- The items are read as the values of the fields. -/
  def ReadsAll : (fs : List Ty) → List (List UInt8) → Vals fs → Prop
    | [], [], _ => True
    | t :: fs, c :: cs, vs => Reads t c (show t.Val × Vals fs from vs).1 ∧ ReadsAll fs cs (show t.Val × Vals fs from vs).2
    | _, _, _ => False
end

mutual
  /-- The data makes the decoder panic: the first item that cannot be read, in the order of the data, is less than four bytes for a list of
  elements of variable size. -/
  def Crashes : Ty → List UInt8 → Prop
    | .bool, _ => False
    | .uint _, _ => False
    | .vec n t, bs => t.isVariable = true ∧ ∃ before c after o, (before ++ c :: after).length = n ∧
        LaidOut o (varParts (before ++ c :: after)) bs ∧ (∀ b ∈ before, ∃ v, Reads t b v) ∧ Crashes t c
    | .list t, bs => t.isVariable = true ∧ (bs.length < 4 ∨ ∃ before c after, bs = assemble (varParts (before ++ c :: after)) ∧ bs.length < 2 ^ 32 ∧
        (∀ b ∈ before, ∃ v, Reads t b v) ∧ Crashes t c)
    | .container fs, bs => ∃ items o, ItemsFit fs items ∧ LaidOut o (fieldParts fs items) bs ∧ CrashesIn fs items
  def CrashesIn : List Ty → List (List UInt8) → Prop
    | t :: fs, c :: cs => Crashes t c ∨ (∃ v, Reads t c v) ∧ CrashesIn fs cs
    | _, _ => False
end

end LCT.Spec.Ssz
