import Verif.Lemmas.Size

/-!
# The size of what a decoder returns: C73

The English claim: what a decoder returns is no larger than the data it was given.  The encoding of a value (`rlp`, `serialize`) measures the value.

For RLP it holds.  For Simple Serialize it does not, because an offset may point into the fixed part it stands in: the same bytes are then read once
as the fixed part and once more as a field, at every level of nesting.
-/

namespace LCT.Props
open LCT LCT.Spec LCT.Spec.Ssz LCT.Rlp

/-- C73: what RLP decoding returns has an encoding no longer than the data, and no more lists and byte strings, no more bytes and no deeper nesting than
the data has bytes. -/
theorem C73_rlp (m : Build) (data : List UInt8) (x : Item) (hlen : data.length < 2 ^ 64) (h : decodeTree m data = .ok x) :
    (rlp x).length ≤ data.length ∧ nodes x ≤ data.length ∧ volume x ≤ data.length ∧ depth x ≤ data.length := by
  obtain ⟨h1, h2, h3, h4⟩ := tree_size x data ((decodeTree_iff m data x hlen).mp h)
  exact ⟨h4, h1, h2, h3⟩

/-- C73: nesting has no limit other than the length of the data: nine bytes for each list suffice.  (The code recurses once for each list.) -/
theorem C73_rlp_depth (m : Build) (d : Nat) (hd : 9 * d + 1 < 2 ^ 64) :
    ∃ data x, data.length ≤ 9 * d + 1 ∧ decodeTree m data = .ok x ∧ depth x = d + 1 := by
  have hl := nest_length d hd
  exact ⟨rlp (nest d), nest d, hl, (decodeTree_iff m _ _ (by omega)).mpr (LCT.Examples.tree_rlp _ (by omega)), nest_depth d⟩

/-- C73, for the types of level one (types of fixed size, lists of them, lists of such lists, and so on): the encoding of what Simple Serialize
decoding returns is no longer than the data.  Missing for the full property: `C73_ssz_violated`. -/
theorem C73_ssz_partial (m : Build) (t : Ty) (hl : t.Legal) (hs : t.Small) (h1 : t.levels = 1) (bs : List UInt8) (v : t.Val)
    (h : Ssz.decode m (Ssz.impl t) bs = .ok v) : (serialize t v).length ≤ bs.length := by
  have := LCT.Ssz.reads_size t bs v (((LCT.Ssz.outcome m t hl hs bs).1 v).mp h)
  rwa [h1, Nat.one_mul] at this

/-- C73, for every type: the encoding is longer at most by a factor that only depends on the type, its number of levels. -/
theorem C73_ssz_levels (m : Build) (t : Ty) (hl : t.Legal) (hs : t.Small) (bs : List UInt8) (v : t.Val)
    (h : Ssz.decode m (Ssz.impl t) bs = .ok v) : (serialize t v).length ≤ t.levels * bs.length :=
  LCT.Ssz.reads_size t bs v (((LCT.Ssz.outcome m t hl hs bs).1 v).mp h)

/-- C73 (negation): the factor is attained for every number of levels, for data as long as one likes.  So no factor holds for all types. -/
theorem C73_ssz_violated (m : Build) (d k : Nat) (hk : 0 < k) (hk' : k + 4 < 2 ^ 32) :
    ∃ (t : Ty) (bs : List UInt8) (v : t.Val), t.Legal ∧ t.Small ∧ t.levels = d + 1 ∧ bs.length = k + 4 ∧
      Ssz.decode m (Ssz.impl t) bs = .ok v ∧ (serialize t v).length = (d + 1) * bs.length := by
  obtain ⟨v, hr, he⟩ := LCT.Ssz.doll_reads k hk' d
  have hl := LCT.Ssz.doll_legal k hk d
  have hs := LCT.Ssz.doll_small k hk' d
  refine ⟨russianDoll k d, List.replicate (k + 4) 0, v, hl, hs, LCT.Ssz.doll_levels k d, List.length_replicate, ?_, ?_⟩
  · exact ((LCT.Ssz.outcome m _ hl hs _).1 v).mpr hr
  · rw [he, List.length_replicate]

/-! ## Cases that meet the hypotheses -/

-- A list with a byte string, a list and a single byte.
example : decodeTree .debug [0xc5, 0x82, 1, 2, 0xc0, 7] = .ok (.list [.bytes [1, 2], .list [], .bytes [7]]) := rfl
example : nodes (.list [.bytes [1, 2], .list [], .bytes [7]]) = 4 ∧ volume (.list [.bytes [1, 2], .list [], .bytes [7]]) = 3 ∧
    depth (.list [.bytes [1, 2], .list [], .bytes [7]]) = 2 := ⟨rfl, rfl, rfl⟩
-- The levels of some types.
example : (Ty.list (.list (.uint .w8))).levels = 1 ∧ (Ty.container [.uint .w16, .list (.uint .w16), .uint .w8]).levels = 2 ∧
    (Ty.vec 2 (.container [.bool, .list .bool])).levels = 3 := ⟨rfl, rfl, rfl⟩
example : Ssz.decode .debug (Ssz.impl (.list (.list (.uint .w8)))) [8, 0, 0, 0, 9, 0, 0, 0, 1, 2, 3] = .ok [[1#8], [2#8, 3#8]] := rfl
-- Six bytes are read as the two bytes `[0, 0]` and a list of all six: the encoding of that has twelve bytes.
example : Ssz.decode .debug (Ssz.impl (.container [.vec 2 (.uint .w8), .list (.uint .w8)])) [0, 0, 0, 0, 0, 0] =
    .ok (⟨[0#8, 0#8], rfl⟩, [0#8, 0#8, 0#8, 0#8, 0#8, 0#8], ()) := rfl

end LCT.Props
