import Verif.Lemmas.RlpPanic
import Verif.Lemmas.RlpTree
import Verif.Lemmas.RlpAccept
import Verif.Lemmas.RlpSeq

/-!
# C34 - C38: RLP

`2 ^ 64` bounds the length of anything that can exist in the memory of a 64-bit machine.
-/

namespace LCT.Props
open LCT.Rlp LCT.Spec

/-! ## C35: the encoder is the Yellow Paper's function -/

/-- C35: the encoder computes the Yellow Paper's `RLP`, on every item whose encoding is shorter than `2^64`. -/
theorem C35_encode_spec (x : Item) (h : (rlp x).length < 2 ^ 64) : encode encTree x = rlp x := by
  rw [encode_tree, rlp_treeBytes x h]

/-- C35: distinct items have distinct encodings, and no encoding is a proper prefix of another. -/
theorem C35_prefix_free (x y : Item) (r : List UInt8)
    (hy : (encode encTree y).length < 2 ^ 64) (h : encode encTree x ++ r = encode encTree y) : x = y ∧ r = [] := by
  rw [encode_tree, encode_tree] at *
  have hr : r = [] := by
    rw [treeBytes_shallow x, treeBytes_shallow y] at h
    have h' : encodeItem (shallow x).1 (shallow x).2 ++ r = encodeItem (shallow y).1 (shallow y).2 ++ [] := by simpa using h
    have hlen : (encodeItem (shallow x).1 (shallow x).2 ++ r).length < 2 ^ 64 := by
      rw [h, ← treeBytes_shallow y]; exact hy
    exact (encodeItem_prefix hlen h').2.2
  subst hr
  rw [List.append_nil] at h
  have h1 := decodeTree_treeBytes .debug y hy
  rw [← h, decodeTree_treeBytes .debug x (by rw [h]; exact hy)] at h1
  exact ⟨by simpa using h1, rfl⟩

/-- C35: the encoding is injective. -/
theorem C35_injective (x y : Item) (hy : (encode encTree y).length < 2 ^ 64)
    (h : encode encTree x = encode encTree y) : x = y :=
  (C35_prefix_free x y [] hy (by simpa using h)).1

/-! ## C34: round trip -/

/-- C34: decoding the encoding of any nested item returns it, in debug and release builds. -/
theorem C34_round_trip (m : Build) (x : Item) (h : (encode encTree x).length < 2 ^ 64) :
    decodeTree m (encode encTree x) = .ok x := by
  rw [encode_tree] at *
  exact decodeTree_treeBytes m x h

/-- C34: a single level: type and payload come back, whatever the payload. -/
theorem C34_decode_data (m : Build) (t : ItemType) (p : List UInt8) (h : (encodeItem t p).length < 2 ^ 64) :
    decodeData m (encodeItem t p) = .ok (t, p) := decodeData_encodeItem m t p h

/-- C34: a list payload splits back into the items it was assembled from. -/
theorem C34_decode_list (m : Build) (items : List (ItemType × List UInt8))
    (h : (items.flatMap fun x => encodeItem x.1 x.2).length < 2 ^ 64) :
    decodeListPayload m (items.flatMap fun x => encodeItem x.1 x.2) = .ok items :=
  decodeListPayload_encode m items h

-- Non-vacuity: the set-theoretic three [ [], [[]], [ [], [[]] ] ] with a string in it.
example : (encode encTree (.list [.list [], .list [.list []], .list [.list [], .bytes [1, 200]]])).length = 9 := by decide
example : rlp (.list [.bytes [0x64, 0x6f, 0x67], .bytes [], .bytes [5], .bytes [0x80]])
    = [0xc8, 0x83, 0x64, 0x6f, 0x67, 0x80, 0x05, 0x81, 0x80] := by
  simp [rlp, rlpSeq, rlpBytes, rlpListOf]

/-! ## C36: no panics

The property as stated is false: `C36_panics` gives the inputs.  The theorems say exactly which inputs make `decode_data` panic, and
that everything else is safe. -/

/-- C36 (negation): a 9-byte string that makes the decoder panic in debug builds, and one whose decoding as a list panics in every
build. -/
theorem C36_panics :
    decodeData .debug [0xbf, 0xff, 0xff, 0xff, 0xff, 0xff, 0xff, 0xff, 0xff] = .panic ∧
    ∀ m : Build, decode m (decVec m decVecU8) [0xc9, 0xbf, 0xff, 0xff, 0xff, 0xff, 0xff, 0xff, 0xff, 0xff] = .panic := by
  refine ⟨by decide, fun m => by cases m <;> decide⟩

/-- C36: the item decoder panics exactly when built with overflow checks and given a 9-byte header that declares a length of
`2^64 - 9` or more; it never runs for ever.  What is missing for the full property: those headers. -/
theorem C36_decode_data_partial (m : Build) (data : List UInt8) :
    (¬ (decodeData m data).Returns ↔ m = .debug ∧ DeclaresHugeLength data) ∧ decodeData m data ≠ .hang := by
  by_cases hh : DeclaresHugeLength data
  · rw [decodeData_huge m data hh]
    cases m <;> simp [hh, Out.Returns]
  · have h := decodeData_returns m data hh
    exact ⟨by simp [h, hh], (Out.returns_iff.mp h).2⟩

/-- C36: release builds never panic on a single item. -/
theorem C36_release (data : List UInt8) : (decodeData .release data).Returns := by
  have := (C36_decode_data_partial .release data).1
  simpa using this

/-- C36: a list payload is decoded without panic unless some suffix of it starts with such a header; in any case the decoder
terminates. -/
theorem C36_decode_list_partial (m : Build) (payload : List UInt8) :
    ((∀ s, s <:+ payload → ¬ DeclaresHugeLength s) → (decodeListPayload m payload).Returns) ∧
      decodeListPayload m payload ≠ .hang :=
  ⟨fun h => decodeListLoop_returns m _ payload (by omega) h, decodeListLoop_ne_hang m _ payload (by omega)⟩

/-- C36: exactly which list payloads make the list decoder panic, in either build: those that are a sequence of well-formed items followed by
a header that declares a huge length.  Missing for the full property: those payloads. -/
theorem C36_list_panics_iff_partial (m : Build) (payload : List UInt8) (hlen : payload.length < 2 ^ 64) :
    decodeListPayload m payload = .panic ↔
      ∃ items before rest, payload = before ++ rest ∧ RelaxedSeq items before ∧ DeclaresHugeLength rest :=
  decodeListPayload_panic_iff m payload hlen

example : ∃ items before rest, [0x05, 0xbf, 0xff, 0xff, 0xff, 0xff, 0xff, 0xff, 0xff, 0xff] = before ++ rest ∧ RelaxedSeq items before ∧
    DeclaresHugeLength rest :=
  ⟨[(.SingleValue, [5])], [5], [0xbf, 0xff, 0xff, 0xff, 0xff, 0xff, 0xff, 0xff, 0xff], rfl,
    .cons _ _ [5] _ [] (.single 5 (by decide)) .nil, by decide⟩

/-- C36: decoding arbitrarily nested items never panics in release builds, nor in debug builds, unless some suffix of the data starts
with such a header. -/
theorem C36_decode_tree_partial (m : Build) (data : List UInt8) (h : ∀ s, s <:+ data → ¬ DeclaresHugeLength s) :
    (decodeTree m data).Returns := decodeTree_returns m data h

/-- C36: exactly which byte strings make the decoder of nested items panic: with overflow checks, those that begin with such a header; in
both builds, lists with a payload in which such a header stands where an item of some list should begin, and is reached
(`ChokingList`). -/
theorem C36_tree_panics_iff_partial (m : Build) (data : List UInt8) (hlen : data.length < 2 ^ 64) :
    decodeTree m data = .panic ↔ (m = .debug ∧ DeclaresHugeLength data) ∨ ∃ p, RelaxedItem .List p data ∧ ChokingList p :=
  decodeTree_panic_iff m data hlen

/-- C36: decoding nested items always ends. -/
theorem C36_tree_terminates (m : Build) (data : List UInt8) (hlen : data.length < 2 ^ 64) : decodeTree m data ≠ .hang :=
  decodeTree_ne_hang m data hlen

/-- Two levels deep: `[5, [0xbf ff ff ff ff ff ff ff ff], 6]`. -/
example : ChokingList [5, 0xc9, 0xbf, 0xff, 0xff, 0xff, 0xff, 0xff, 0xff, 0xff, 0xff, 6] :=
  .inside [.bytes [5]] [5] [0xbf, 0xff, 0xff, 0xff, 0xff, 0xff, 0xff, 0xff, 0xff]
    [0xc9, 0xbf, 0xff, 0xff, 0xff, 0xff, 0xff, 0xff, 0xff, 0xff] [(.SingleValue, [6])] [6]
    (.cons (.bytes [5]) [] [5] [] (.bytes [5] [5] (.single 5 (by decide))) .nil) (.listShort _ (by decide))
    (.here [] [] _ .nil (by decide)) (.cons _ _ [6] _ [] (.single 6 (by decide)) .nil)

/-- C36: decoding scalars, byte strings and strings panics only when the item decoder does. -/
theorem C36_scalars_partial (m : Build) (data : List UInt8) (h : m = .debug → ¬ DeclaresHugeLength data) :
    (decode m decU64 data).Returns ∧ (decode m decBigUint data).Returns ∧ (decode m decString data).Returns ∧
      (decode m decVecU8 data).Returns := by
  have hr : (decodeData m data).Returns := by
    have := (C36_decode_data_partial m data).1
    apply Classical.byContradiction
    intro hc
    exact h (this.mp hc).1 (this.mp hc).2
  exact ⟨decode_returns m _ data hr decU64_returns, decode_returns m _ data hr decBigUint_returns,
    decode_returns m _ data hr decString_returns, decode_returns m _ data hr decVecU8_returns⟩

/-- C36 (negation): asking for a `Vec<T>` when the data holds a single value panics in debug builds (`debug_assert!`) although it
is an error in release builds. -/
theorem C36_vec_debug_panics :
    decode .debug (decVec .debug decVecU8) [0x05] = .panic ∧
    decode .release (decVec .release decVecU8) [0x05] = .err .InvalidFormat := by decide

-- Non-vacuity: a truncated header and an ordinary list satisfy the hypothesis.
example : ∀ s, s <:+ [0xc8, 0xbf, 0x01] → ¬ DeclaresHugeLength s := by
  intro s hs
  have : s.length ≤ 3 := hs.length_le
  intro h
  have := (huge_bounds s h).1
  omega

/-! ## C37: canonical decoding

False as stated (`C37_not_canonical`); the theorems characterise exactly what is accepted and when it is canonical. -/

/-- C37 (negation): three different encodings of the same one-byte string are all accepted. -/
theorem C37_not_canonical (m : Build) :
    decode m decVecU8 [0x05] = .ok [0x05] ∧ decode m decVecU8 [0x81, 0x05] = .ok [0x05] ∧
    decode m decVecU8 [0xb8, 0x01, 0x05] = .ok [0x05] ∧ decode m decVecU8 [0xb9, 0x00, 0x01, 0x05] = .ok [0x05] := by
  cases m <;> decide

/-- C37: the decoder accepts exactly the relaxed grammar: exact total length, any of the header forms. -/
theorem C37_accepts_iff (m : Build) (data : List UInt8) (t : ItemType) (p : List UInt8) (hlen : data.length < 2 ^ 64) :
    decodeData m data = .ok (t, p) ↔ RelaxedItem t p data := decodeData_iff m data t p hlen

/-- C37: an accepted string is the encoding of what it decodes to exactly when its header is the shortest one.
Missing for the full property: the code does not check `ShortestHeader`. -/
theorem C37_canonical_partial (m : Build) (data : List UInt8) (t : ItemType) (p : List UInt8) (hlen : data.length < 2 ^ 64)
    (h : decodeData m data = .ok (t, p)) : data = encodeItem t p ↔ ShortestHeader data :=
  canonical_iff t p data hlen ((decodeData_iff m data t p hlen).mp h)

example : RelaxedItem .SingleValue [5] [0x81, 5] ∧ ¬ ShortestHeader [0x81, 5] :=
  ⟨.short [5] (by decide), fun h => by have := h.1 (by decide) 5 rfl; exact absurd this (by decide)⟩
example : RelaxedItem .List [5, 6] [0xc2, 5, 6] ∧ ShortestHeader [0xc2, 5, 6] :=
  ⟨.listShort [5, 6] (by decide), by refine ⟨?_, ?_, ?_⟩ <;> intro h <;> revert h <;> decide⟩

/-- C37: a list payload is accepted exactly when it is a sequence of items of the relaxed grammar, and what is returned are their types
and payloads. -/
theorem C37_list_accepts_iff (m : Build) (payload : List UInt8) (items : List (ItemType × List UInt8)) (hlen : payload.length < 2 ^ 64) :
    decodeListPayload m payload = .ok items ↔ RelaxedSeq items payload := decodeListPayload_iff m payload items hlen

/-- C37: likewise for arbitrarily nested items. -/
theorem C37_tree_accepts_iff (m : Build) (data : List UInt8) (x : Item) (hlen : data.length < 2 ^ 64) :
    decodeTree m data = .ok x ↔ RelaxedTree x data := decodeTree_iff m data x hlen

/-- C37: of all the byte strings accepted for an item, its encoding is the only one of least length.
Missing for the full property: longer ones are accepted too. -/
theorem C37_tree_shortest_partial (m : Build) (data : List UInt8) (x : Item) (hlen : data.length < 2 ^ 64)
    (h : decodeTree m data = .ok x) :
    (encode encTree x).length ≤ data.length ∧ ((encode encTree x).length = data.length → data = encode encTree x) := by
  rw [encode_tree]
  rcases tree_shortest x data ((decodeTree_iff m data x hlen).mp h) hlen with h | h
  · exact ⟨Nat.le_of_eq (by rw [h]), fun _ => h⟩
  · exact ⟨by omega, fun _ => by omega⟩

example : decodeTree .release [0xf8, 0x02, 0x81, 0x05] = .ok (.list [.bytes [5]]) := by rfl
example : encode encTree (.list [.bytes [5]]) = [0xc1, 0x05] := by decide
example : RelaxedTree (.list [.bytes [5]]) [0xf8, 0x02, 0x81, 0x05] :=
  .list _ [0x81, 0x05] _ (.cons _ _ [0x81, 0x05] [] (.bytes [5] _ (.short [5] (by decide))) .nil) (.listLong [2] _ (by decide) (by decide) rfl)

/-! ## C38: scalars -/

/-- C38: a `u64` is encoded as the RLP string of its shortest big-endian form, and decodes back. -/
theorem C38_u64 (m : Build) (n : UInt64) :
    encode encU64 n = rlpBytes (minBE n.toNat) ∧ decode m decU64 (encode encU64 n) = .ok n :=
  ⟨encode_u64 n, decode_encode_u64 m n⟩

/-- C38: likewise for a `BigUint` of any size that fits in memory. -/
theorem C38_biguint (m : Build) (n : Nat) (h : (rlpBytes (minBE n)).length < 2 ^ 64) :
    encode encBigUint n = rlpBytes (minBE n) ∧ decode m decBigUint (encode encBigUint n) = .ok n :=
  ⟨encode_biguint n h, decode_encode_biguint m n h⟩

/-- C38: strings and byte vectors. -/
theorem C38_string (m : Build) (s : String) (h : (rlpBytes s.toByteArray.data.toList).length < 2 ^ 64) :
    encode encStr s = rlpBytes s.toByteArray.data.toList ∧ decode m decString (encode encStr s) = .ok s :=
  ⟨encode_str s h, decode_encode_str m s h⟩

theorem C38_bytes (m : Build) (b : List UInt8) (h : (rlpBytes b).length < 2 ^ 64) :
    encode encVecU8 b = rlpBytes b ∧ decode m decVecU8 (encode encVecU8 b) = .ok b :=
  ⟨encode_vecU8 b h, decode_encode_vecU8 m b h⟩

/-- C38: the shortest big-endian form has no leading zero byte, denotes the number, and is empty exactly for zero. -/
theorem C38_minBE_spec (n : Nat) :
    (minBE n).head? ≠ some 0 ∧ ofBE (minBE n) = n ∧ (minBE n = [] ↔ n = 0) :=
  ⟨minBE_head?_ne n, ofBE_minBE n, minBE_eq_nil⟩

example : encode encU64 1024 = [0x82, 0x04, 0x00] := by decide
example : (rlpBytes (minBE 1024)).length < 2 ^ 64 :=
  rlpBytes_length_lt _ (Nat.lt_of_le_of_lt (minBE_length_le 1024 2 (by decide)) (by decide))

/-! ## C55 (RLP part) -/

/-- C55: whatever was encoded before, after `take_data` the next data taken is what a fresh item would give. -/
theorem C55_rlp_reuse (history next : List EncOp) :
    (EncItem.run (EncItem.run EncItem.new (history ++ [.take])).1 (next ++ [.take])).2 =
      (EncItem.run EncItem.new (next ++ [.take])).2 := run_reuse history next

example : (EncItem.run EncItem.new [.bytes [1], .take, .list [2, 3], .bytes [0x80], .take]).2
    = [[1], [0xc2, 2, 3, 0x81, 0x80]] := by decide

end LCT.Props
