import Verif.Spec.Bytes
import Verif.Model.Rlp

/-!
# RLP (specification)

A transcription of appendix B of the Ethereum Yellow Paper.  Only the item datatype is shared with the model.
-/

namespace LCT.Spec
open LCT.Rlp (Item)

/-- `R_b`: the encoding of a byte string shorter than `2^64`. -/
def rlpBytes (x : List UInt8) : List UInt8 :=
  if x.length = 1 ∧ ∀ b ∈ x, b.toNat < 128 then x
  else if x.length < 56 then UInt8.ofNat (128 + x.length) :: x
  else UInt8.ofNat (183 + (minBE x.length).length) :: minBE x.length ++ x

/-- `R_l` applied to the serialized sequence `s(x)`. -/
def rlpListOf (s : List UInt8) : List UInt8 :=
  if s.length < 56 then UInt8.ofNat (192 + s.length) :: s
  else UInt8.ofNat (247 + (minBE s.length).length) :: minBE s.length ++ s

mutual
/-- `RLP(x)`. -/
def rlp : Item → List UInt8
  | .bytes b => rlpBytes b
  | .list xs => rlpListOf (rlpSeq xs)
/-- `s(x) = RLP(x_0) . RLP(x_1) ...`. -/
def rlpSeq : List Item → List UInt8
  | [] => []
  | x :: xs => rlp x ++ rlpSeq xs
end

/-- The byte strings that carry one item with the given payload under the *relaxed* grammar: any of the header forms, without
the requirement that the shortest one be used.  (`l` are the length bytes of a long header.) -/
inductive RelaxedItem : LCT.Rlp.ItemType → List UInt8 → List UInt8 → Prop where
  | single (b : UInt8) (h : b.toNat < 128) : RelaxedItem .SingleValue [b] [b]
  | short (p : List UInt8) (h : p.length ≤ 55) : RelaxedItem .SingleValue p (UInt8.ofNat (128 + p.length) :: p)
  | long (l p : List UInt8) (h1 : 1 ≤ l.length) (h8 : l.length ≤ 8) (hl : ofBE l = p.length) :
      RelaxedItem .SingleValue p (UInt8.ofNat (183 + l.length) :: l ++ p)
  | listShort (p : List UInt8) (h : p.length ≤ 55) : RelaxedItem .List p (UInt8.ofNat (192 + p.length) :: p)
  | listLong (l p : List UInt8) (h1 : 1 ≤ l.length) (h8 : l.length ≤ 8) (hl : ofBE l = p.length) :
      RelaxedItem .List p (UInt8.ofNat (247 + l.length) :: l ++ p)

/-- A concatenation of items of the relaxed grammar. -/
inductive RelaxedSeq : List (LCT.Rlp.ItemType × List UInt8) → List UInt8 → Prop where
  | nil : RelaxedSeq [] []
  | cons (t : LCT.Rlp.ItemType) (p d : List UInt8) (xs : List (LCT.Rlp.ItemType × List UInt8)) (ds : List UInt8)
      (h : RelaxedItem t p d) (hs : RelaxedSeq xs ds) : RelaxedSeq ((t, p) :: xs) (d ++ ds)

mutual
/-- The byte strings that stand for a (nested) item under the relaxed grammar. -/
inductive RelaxedTree : Item → List UInt8 → Prop where
  | bytes (p d : List UInt8) (h : RelaxedItem .SingleValue p d) : RelaxedTree (.bytes p) d
  | list (xs : List Item) (p d : List UInt8) (hs : RelaxedTrees xs p) (h : RelaxedItem .List p d) : RelaxedTree (.list xs) d
/-- A concatenation of such byte strings. -/
inductive RelaxedTrees : List Item → List UInt8 → Prop where
  | nil : RelaxedTrees [] []
  | cons (x : Item) (xs : List Item) (d ds : List UInt8) (h : RelaxedTree x d) (hs : RelaxedTrees xs ds) :
      RelaxedTrees (x :: xs) (d ++ ds)
end

/-- The header of `data` is the shortest possible one: a single byte below 128 is not wrapped in `0x81`, and a long header is used
only for lengths above 55, without leading zero bytes in the length. -/
def ShortestHeader : List UInt8 → Prop
  | [] => True
  | b :: rest =>
    (b.toNat = 0x81 → ∀ c ∈ rest.head?, 128 ≤ c.toNat) ∧
    (184 ≤ b.toNat ∧ b.toNat ≤ 191 → rest.head? ≠ some 0 ∧ 56 ≤ ofBE (rest.take (b.toNat - 183))) ∧
    (248 ≤ b.toNat → rest.head? ≠ some 0 ∧ 56 ≤ ofBE (rest.take (b.toNat - 247)))

/-- The data starts with a long header (`0xbf` or `0xff`, i.e. eight length bytes) declaring a length of `2^64 - 9` or more. -/
def DeclaresHugeLength : List UInt8 → Prop
  | [] => False
  | b :: rest => (b = 0xbf ∨ b = 0xff) ∧ 8 ≤ rest.length ∧ 2 ^ 64 - 9 ≤ ofBE (rest.take 8)

instance (d : List UInt8) : Decidable (DeclaresHugeLength d) := by
  cases d <;> unfold DeclaresHugeLength <;> infer_instance

/-- The list payloads on which the decoder of nested items panics in every build: a sequence of well-formed items followed by a header that declares
a huge length; or a sequence of well-formed items of which one is a list with such a payload and the ones before it are well-formed to the
bottom. -/
inductive ChokingList : List UInt8 → Prop where
  | here (items : List (LCT.Rlp.ItemType × List UInt8)) (before rest : List UInt8) (h : RelaxedSeq items before)
      (huge : DeclaresHugeLength rest) : ChokingList (before ++ rest)
  | inside (xs : List Item) (before p d : List UInt8) (items : List (LCT.Rlp.ItemType × List UInt8)) (after : List UInt8)
      (hb : RelaxedTrees xs before) (hd : RelaxedItem .List p d) (hp : ChokingList p) (ha : RelaxedSeq items after) :
      ChokingList (before ++ (d ++ after))

end LCT.Spec
