import Verif.Props.Acceptance
import Verif.Lemmas.Ethereum.Panic

/-!
# C56: the byte strings on which the transaction decoders panic, exactly

`C56_untyped_partial` and `C56_typed_partial` (`Props/Acceptance.lean`) leave out every byte string in which some suffix looks like a header with a huge
length.  Here there is nothing left out: the decoders panic on the byte strings of `Spec/TxPanics.lean` and on no others, and return a transaction or
an error on all the rest.
-/

namespace LCT.Props
open LCT LCT.BigInt LCT.Rlp LCT.Ethereum LCT.Spec LCT.Spec.Eth LCT.Out
variable (m : Build) (w : Nat) [DigitWidth w]

/-- C56: the decoders of legacy and EIP-155 transactions panic exactly on the byte strings with a huge length at the top (in debug builds) or in
the place of an item of a list (in every build). -/
theorem C56_untyped_panics_iff (data : List UInt8) (hl : data.length < 2 ^ 64) :
    (decode m (decTransactionLegacy m w) data = .panic ↔ ChokesUntyped m data) ∧
    (decode m (decTransactionEip155 m w) data = .panic ↔ ChokesUntyped m data) :=
  ⟨decode_untyped_panic (fun _ => rfl) hl fun _ => legacy_panic, decode_untyped_panic (fun _ => rfl) hl fun _ => eip155_panic⟩

/-- C56: those of typed transactions panic on the same byte strings, and further on lists of as many items as the transaction has, with good fields
up to the access list, in which the access list has good entries and then one that makes the decoder panic. -/
theorem C56_typed_panics_iff (data : List UInt8) (hl : data.length < 2 ^ 64) :
    (decode m (decTransactionEip2930 m w) data = .panic ↔ ChokesTyped m GoodFront2930 data) ∧
    (decode m (decTransactionEip1559 m w) data = .panic ↔ ChokesTyped m GoodFront1559 data) :=
  ⟨decode_typed_panic (fun _ => rfl) hl fun _ => eip2930_panic, decode_typed_panic (fun _ => rfl) hl fun _ => eip1559_panic⟩

/-- C56: on every other byte string each of the four decoders returns a transaction or an error. -/
theorem C56_returns_iff (data : List UInt8) (hl : data.length < 2 ^ 64) :
    ((decode m (decTransactionLegacy m w) data).Returns ↔ ¬ ChokesUntyped m data) ∧
    ((decode m (decTransactionEip155 m w) data).Returns ↔ ¬ ChokesUntyped m data) ∧
    ((decode m (decTransactionEip2930 m w) data).Returns ↔ ¬ ChokesTyped m GoodFront2930 data) ∧
    ((decode m (decTransactionEip1559 m w) data).Returns ↔ ¬ ChokesTyped m GoodFront1559 data) := by
  obtain ⟨t1, t2, t3, t4⟩ := C56_terminates m w data
  obtain ⟨u1, u2⟩ := C56_untyped_panics_iff m w data hl
  obtain ⟨u3, u4⟩ := C56_typed_panics_iff m w data hl
  rw [← u1, ← u3, ← u4]
  have u2' := u1.trans u2.symm
  refine ⟨?_, ?_, ?_, ?_⟩ <;> rw [returns_iff]
  · exact and_iff_left t1
  · rw [u2']; exact and_iff_left t2
  · exact and_iff_left t3
  · exact and_iff_left t4

/-- A list whose only item declares `2^64 - 1` bytes: it chokes the decoders in both builds (`C56_panics`). -/
example : ChokesUntyped m [0xc9, 0xbf, 0xff, 0xff, 0xff, 0xff, 0xff, 0xff, 0xff, 0xff] :=
  (C56_untyped_panics_iff m 64 _ (by decide)).1.mp (C56_panics m 64).1

/-- The transaction with the single value 5 in the place of a list of keys chokes the decoder in debug builds only. -/
example : ChokesTyped .debug GoodFront2930 badAccessList ∧ ¬ ChokesTyped .release GoodFront2930 badAccessList := by
  obtain ⟨h1, h2⟩ := C56_debug_panics
  rw [← (C56_typed_panics_iff .debug 64 _ (by decide)).1, ← (C56_typed_panics_iff .release 64 _ (by decide)).1]
  constructor
  · cases h : decode .debug (decTransactionEip2930 .debug 64) badAccessList <;> rw [h] at h1 <;> first | rfl | cases h1
  · intro h
    rw [h] at h2
    cases h2

/-- And directly from the specification: its fields are good, and its access list has one entry, which is bad. -/
example : ChokesTyped .debug GoodFront2930 badAccessList := by
  refine .inr ⟨badAccessList.drop 1, [1, 2, 3, 4].map (fun b => (.SingleValue, [b])) ++ [(.SingleValue, (badAccessList.drop 6).take 20),
    (.SingleValue, [6]), (.SingleValue, [])], (.List, (badAccessList.drop 29).take 23), (.SingleValue, [1]), (.SingleValue, [7]),
    (.SingleValue, [8]), ?_, ?_, ?_, rfl, .inr ⟨[], (.List, (badAccessList.drop 30).take 22), [], ?_, by simp, rfl,
      .inr ⟨(badAccessList.drop 31).take 20, (.SingleValue, [5]), ?_, rfl, .inl ⟨rfl, rfl⟩⟩⟩⟩
  · exact (decodeData_iff .release _ _ _ (by decide)).mp (by decide +kernel)
  · exact (decodeListPayload_iff .release _ _ (by decide)).mp (by decide +kernel)
  · exact ⟨[1], [2], [3], [4], _, [6], [], rfl, by decide, by decide, by decide, by decide⟩
  · exact (decodeListPayload_iff .release _ _ (by decide)).mp (by decide +kernel)
  · exact (decodeListPayload_iff .release _ _ (by decide)).mp (by decide +kernel)

end LCT.Props
