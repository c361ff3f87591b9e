import Verif.Lemmas.Ssz.Grammar
import Verif.Lemmas.Ssz.History

/-!
# Simple Serialize: C48–C51, and C55 for SSZ

`Verif.Spec.Ssz` has the types (`Ty`), their values (`Ty.Val`) and `serialize` as the SSZ specification defines them.  `encode m (impl t)` and
`decode m (impl t)` are the code's `encode` and `decode` at the Rust type that `t` stands for, in a debug or release build `m`.

`t.Legal` leaves out the types that SSZ calls illegal (vectors of length zero and containers without fields).  `t.Small` leaves out types whose fixed
part does not fit in 32 bits, of which no value can be serialized.
-/

namespace LCT.Props
open LCT LCT.Ssz LCT.Spec.Ssz

/-- `Vec<Vec<u8>>` -/
abbrev byteLists : Ty := .list (.list (.uint .w8))

/-- The `VarTestStruct` of the SSZ tests: `{ a: u16, b: Vec<u16>, c: u8 }`. -/
abbrev varTestStruct : Ty := .container [.uint .w16, .list (.uint .w16), .uint .w8]

/-- A container of containers, vectors and lists: `{ a: bool, b: [VarTestStruct; 2], c: Vec<[u64; 3]>, d: Vec<Vec<u8>> }`. -/
abbrev nested : Ty := .container [.bool, .vec 2 varTestStruct, .list (.vec 3 (.uint .w64)), byteLists]

theorem legal_nested : nested.Legal := by simp [Ty.Legal, allLegal]
theorem small_nested : nested.Small := by simp [Ty.Small, allSmall, Ty.head, heads, Ty.isVariable, anyVariable, Width.bytes]

/-- A value of `nested`. -/
def nestedValue : nested.Val :=
  (true, (⟨[(1#16, ([2#16, 3#16], (4#8, ()))), (5#16, ([], (6#8, ())))], rfl⟩, ([⟨[7#64, 8#64, 9#64], rfl⟩], ([[10#8], [], [11#8, 12#8]], ()))))

/-! ## C50 -/

/-- C50: the encoder gives the serialization of the specification whenever that is shorter than 2^32 bytes; longer ones make it panic. -/
theorem C50_layout (m : Build) (t : Ty) (hl : t.Legal) (hs : t.Small) (v : t.Val) :
    encode m (impl t) v = if (serialize t v).length < 2 ^ 32 then .ok (serialize t v) else .panic := encode_eq m t hl hs v

/-- C50: values of a type of fixed size serialize to the declared size, which is what `size` returns; it returns `None` for other types. -/
theorem C50_size (m : Build) (t : Ty) (hl : t.Legal) (hs : t.Small) :
    (t.isVariable = false → (impl t).size m = .ok (some t.head) ∧ ∀ v, (serialize t v).length = t.head) ∧
      (t.isVariable = true → (impl t).size m = .ok none) := by
  have h := size_ok m t hl hs
  unfold sizeOf' at h
  refine ⟨fun hv => ?_, fun hv => ?_⟩
  · rw [hv] at h
    exact ⟨h, serialize_length t hv⟩
  · rw [hv] at h
    exact h

example : encode .debug (impl nested) nestedValue = .ok (serialize nested nestedValue) := by
  rw [C50_layout .debug nested legal_nested small_nested nestedValue, if_pos (by decide)]
example : serialize varTestStruct (0xabcd#16, ([1#16, 2#16, 3#16], (0xff#8, ()))) = [0xcd, 0xab, 7, 0, 0, 0, 0xff, 1, 0, 2, 0, 3, 0] := by decide

/-! ## C48 -/

/-- C48, for values without an empty list of elements of variable size: decoding the encoding of a value returns the value.
Missing are values with such a list in them, for which the property is false (`C48_violated`). -/
theorem C48_round_trip_partial (m : Build) (t : Ty) (hl : t.Legal) (hs : t.Small) (v : t.Val) (hne : NoEmpty t v)
    (hlen : (serialize t v).length < 2 ^ 32) :
    encode m (impl t) v = .ok (serialize t v) ∧ decode m (impl t) (serialize t v) = .ok v :=
  ⟨by rw [encode_eq m t hl hs v, if_pos hlen], decode_ok m t hl hs v hne hlen⟩

/-- C48, the condition in full for types without lists of elements of variable size: there is none. -/
theorem C48_round_trip_simple (m : Build) (t : Ty) (hl : t.Legal) (hs : t.Small) (hn : NoVarList t) (v : t.Val) (hlen : (serialize t v).length < 2 ^ 32) :
    encode m (impl t) v = .ok (serialize t v) ∧ decode m (impl t) (serialize t v) = .ok v :=
  C48_round_trip_partial m t hl hs v (noEmpty_of_noVarList t hn v) hlen

/-- C48 is false for the empty `Vec<Vec<u8>>`, or of any other list of elements of variable size: it encodes to the empty string, and decoding
that as the same type panics. -/
theorem C48_violated (m : Build) (t : Ty) (hl : t.Legal) (hs : t.Small) (hv : t.isVariable = true) :
    encode m (impl (.list t)) ([] : List t.Val) = .ok [] ∧ decode m (impl (.list t)) [] = .panic := by
  refine ⟨?_, ?_⟩
  · obtain ⟨v, hv⟩ : ∃ v : (Ty.list t).Val, v = ([] : List t.Val) := ⟨_, rfl⟩
    have e : serialize (.list t) v = [] := by rw [serialize, hv]; rfl
    have := encode_eq m (.list t) hl hs v
    rw [e, if_pos (by decide), hv] at this
    exact this
  · exact varList_short m t hl hs hv [] (by decide)

/-- C48, what happens to every value: decoding its encoding returns the value, or panics if the value has an empty list of elements of variable
size anywhere in it. -/
theorem C48_outcome (m : Build) (t : Ty) (hl : t.Legal) (hs : t.Small) (v : t.Val) (hlen : (serialize t v).length < 2 ^ 32) :
    encode m (impl t) v = .ok (serialize t v) ∧ (NoEmpty t v → decode m (impl t) (serialize t v) = .ok v) ∧
      (¬ NoEmpty t v → decode m (impl t) (serialize t v) = .panic) :=
  ⟨by rw [encode_eq m t hl hs v, if_pos hlen], fun hne => decode_ok m t hl hs v hne hlen,
    fun hne => (outcome m t hl hs _).2.1.mpr (crashes_serialize t hl hs v hne hlen)⟩

/-- C48: no data whatever decodes to a value that has an empty list of elements of variable size in it. -/
theorem C48_unreachable (m : Build) (t : Ty) (hl : t.Legal) (hs : t.Small) (bs : List UInt8) (v : t.Val) (h : decode m (impl t) bs = .ok v) :
    NoEmpty t v := reads_noEmpty t bs v (((outcome m t hl hs bs).1 v).mp h)

/-- C48, the other way: a decoded value, if it can be encoded, decodes to itself again. -/
theorem C48_reencode (m : Build) (t : Ty) (hl : t.Legal) (hs : t.Small) (bs : List UInt8) (v : t.Val) (h : decode m (impl t) bs = .ok v)
    (hlen : (serialize t v).length < 2 ^ 32) : decode m (impl t) (serialize t v) = .ok v :=
  decode_ok m t hl hs v (C48_unreachable m t hl hs bs v h) hlen

example : decode .debug (impl nested) (serialize nested nestedValue) = .ok nestedValue :=
  (C48_round_trip_partial .debug nested legal_nested small_nested nestedValue (by simp [NoEmpty, NoEmptys, nestedValue, Ty.isVariable]) (by decide)).2
example : encode .release (impl byteLists) ([] : List (List (BitVec 8))) = .ok [] ∧ decode .release (impl byteLists) [] = .panic :=
  C48_violated .release (.list (.uint .w8)) trivial trivial rfl
example : decode .release (impl (.container [.uint .w8, byteLists])) [1, 5, 0, 0, 0] = .panic :=
  (C48_outcome .release (.container [.uint .w8, byteLists]) (by simp [Ty.Legal, allLegal])
    (by simp [Ty.Small, allSmall, Ty.head, heads, Ty.isVariable, Width.bytes]) (1#8, (([] : List (List (BitVec 8))), ())) (by decide)).2.2
    (fun h => h.2.1.1 rfl rfl)
example : decode .debug (impl (.container [.list (.uint .w8)])) [5, 0, 0, 0, 77, 1] = .ok ([1#8], ()) ∧
    decode .debug (impl (.container [.list (.uint .w8)])) (serialize (.container [.list (.uint .w8)]) ([1#8], ())) = .ok ([1#8], ()) :=
  ⟨rfl, C48_reencode .debug _ (by simp [Ty.Legal, allLegal]) (by simp [Ty.Small, allSmall, heads, Ty.isVariable]) [5, 0, 0, 0, 77, 1] _ rfl (by decide)⟩

/-! ## C49 -/

/-- C49, for types without lists of elements of variable size: decoding any byte string returns a value or an error.
Missing are the other types, for which the property is false (`C49_violated`). -/
theorem C49_no_panic_partial (m : Build) (t : Ty) (hl : t.Legal) (hs : t.Small) (hn : NoVarList t) (bs : List UInt8) :
    (decode m (impl t) bs).Returns := decode_returns m t hl hs hn bs

/-- C49 is false for a list of elements of variable size, for the byte strings of less than four bytes. -/
theorem C49_violated (m : Build) (t : Ty) (hl : t.Legal) (hs : t.Small) (hv : t.isVariable = true) (bs : List UInt8) (h : bs.length < 4) :
    decode m (impl (.list t)) bs = .panic := varList_short m t hl hs hv bs h

/-- C49, for a list whose elements are of variable size but have no such list in them: less than four bytes are the only data that makes it panic. -/
theorem C49_panics_iff (m : Build) (t : Ty) (hl : t.Legal) (hs : t.Small) (hv : t.isVariable = true) (hn : NoVarList t) (bs : List UInt8) :
    ¬ (decode m (impl (.list t)) bs).Returns ↔ bs.length < 4 := by
  rcases varList_returns m t hl hs hv (decode_returns m t hl hs hn) bs with ⟨h1, h2⟩ | ⟨h1, h2⟩
  · exact ⟨fun _ => h2, fun _ => by unfold decode; rw [h1]; exact Out.not_returns_panic⟩
  · exact ⟨fun h => absurd h1 h, fun h => by omega⟩

/-- C49, for every type: `Crashes`, in the specification, says which byte strings make the decoder panic; every other one returns a value or an error. -/
theorem C49_outcome (m : Build) (t : Ty) (hl : t.Legal) (hs : t.Small) (bs : List UInt8) :
    (Crashes t bs → decode m (impl t) bs = .panic) ∧ (¬ Crashes t bs → (decode m (impl t) bs).Returns) := by
  obtain ⟨_, h2, h3⟩ := outcome m t hl hs bs
  refine ⟨h2.mpr, fun h => ?_⟩
  show ((impl t).tryFromBytes m bs).Returns
  cases hx : (impl t).tryFromBytes m bs with
  | ok v => exact .inl ⟨v, rfl⟩
  | err e => exact .inr ⟨e, rfl⟩
  | panic => exact absurd (h2.mp hx) h
  | hang => exact absurd hx h3

/-- C49 is false for the Rust types that SSZ calls illegal too: decoding a vector or a list of vectors of length zero panics. -/
theorem C49_violated_illegal (m : Build) (n : Nat) (hn : n < 2 ^ 32) (t : Ty) (hl : t.Legal) (hs : t.Small) (hv : t.isVariable = false) (bs : List UInt8) :
    decode m (impl (.vec n (.vec 0 t))) [] = .panic ∧ decode m (impl (.list (.vec 0 t))) bs = .panic :=
  ⟨zero_size_vec m n hn t hl hs hv, zero_size_list m t hl hs hv bs⟩

example (bs : List UInt8) : (decode .debug (impl (.container [.bool, .vec 2 varTestStruct, .list (.vec 3 (.uint .w64))])) bs).Returns :=
  C49_no_panic_partial _ _ (by simp [Ty.Legal, allLegal]) (by simp [Ty.Small, allSmall, Ty.head, heads, Ty.isVariable, anyVariable, Width.bytes])
    (by simp [NoVarList, NoVarLists, Ty.isVariable]) bs
example : decode .release (impl byteLists) [1, 2] = .panic := C49_violated _ (.list (.uint .w8)) trivial trivial rfl _ (by decide)
example : Crashes (.container [.uint .w8, byteLists]) [1, 6, 0, 0, 0, 9, 1, 2] :=
  ((outcome .debug _ (by simp [Ty.Legal, allLegal]) (by simp [Ty.Small, allSmall, Ty.head, heads, Ty.isVariable, Width.bytes]) _).2.1).mp rfl
example : ¬ Crashes (.container [.uint .w8, byteLists]) [1, 6, 0, 0, 0, 9, 4, 0, 0, 0, 5] := fun h => by
  have := (C49_outcome .debug _ (by simp [Ty.Legal, allLegal]) (by simp [Ty.Small, allSmall, Ty.head, heads, Ty.isVariable, Width.bytes]) _).1 h
  cases this
example : decode .debug (impl (.list (.vec 0 (.uint .w8)))) [1] = .panic := (C49_violated_illegal _ 1 (by decide) (.uint .w8) trivial trivial rfl [1]).2

/-! ## C51 -/

/-- C51, for the types in `Canon` (integers, booleans, vectors and lists of fixed-size elements, and lists of such lists to any depth): what decodes to a
value is the encoding of the value.  Missing are containers and vectors of elements of variable size, for which the property is false
(`C51_violated_trailing`, `C51_violated_gap`, `C51_violated_vector`). -/
theorem C51_canonical_partial (m : Build) (t : Ty) (hl : t.Legal) (hs : t.Small) (hc : Canon t) (bs : List UInt8) (v : t.Val)
    (h : decode m (impl t) bs = .ok v) : serialize t v = bs := canon m t hl hs hc bs v h

/-- C51, for every type, what is accepted: the data that decodes to a value is what the specification's `Reads` says.  It differs from `serialize` only
in where the variable parts of vectors and containers begin, and so in the bytes that no part covers or that two parts share. -/
theorem C51_accepts_iff (m : Build) (t : Ty) (hl : t.Legal) (hs : t.Small) (bs : List UInt8) (v : t.Val) :
    decode m (impl t) bs = .ok v ↔ Reads t bs v := (outcome m t hl hs bs).1 v

/-- C51: debug and release builds accept the same data, as the same values. -/
theorem C51_builds (t : Ty) (hl : t.Legal) (hs : t.Small) (bs : List UInt8) (v : t.Val) :
    decode .debug (impl t) bs = .ok v ↔ decode .release (impl t) bs = .ok v :=
  (C51_accepts_iff .debug t hl hs bs v).trans (C51_accepts_iff .release t hl hs bs v).symm

/-- C51, for every type of fixed size: data that has the size of the type and decodes to a value is the encoding of the value. -/
theorem C51_canonical_fixed (m : Build) (t : Ty) (hl : t.Legal) (hs : t.Small) (hv : t.isVariable = false) (bs : List UInt8) (v : t.Val)
    (h : decode m (impl t) bs = .ok v) (hlen : bs.length = t.head) : serialize t v = bs := fixed_canon m t hl hs hv bs v h hlen

/-- C51, for containers whose fields are of fixed size or in `Canon`: data that decodes to a value and is as long as the encoding of the value is the
encoding of the value. -/
theorem C51_canonical_container (m : Build) (fs : List Ty) (hl : (Ty.container fs).Legal) (hs : (Ty.container fs).Small)
    (hc : ∀ t ∈ fs, t.isVariable = false ∨ Canon t) (bs : List UInt8) (v : (Ty.container fs).Val)
    (h : decode m (impl (.container fs)) bs = .ok v) (hlen : (serialize (.container fs) v).length = bs.length) : serialize (.container fs) v = bs := by
  rw [serialize] at hlen ⊢
  exact container_canon m fs hl hs hc bs v h hlen

/-- C51, for vectors of elements of variable size in `Canon`: the same. -/
theorem C51_canonical_vector (m : Build) (n : Nat) (t : Ty) (hl : (Ty.vec n t).Legal) (hs : (Ty.vec n t).Small) (hv : t.isVariable = true) (hc : Canon t)
    (bs : List UInt8) (v : (Ty.vec n t).Val) (h : decode m (impl (.vec n t)) bs = .ok v) (hlen : (serialize (.vec n t) v).length = bs.length) :
    serialize (.vec n t) v = bs := by
  rw [serialize, hv] at hlen ⊢
  exact vec_canon m n t hl hs hv hc bs v h hlen

example : ∀ t ∈ [Ty.uint .w16, .list (.uint .w16), .uint .w8], t.isVariable = false ∨ Canon t := by simp [Ty.isVariable, Canon]
example : decode .debug (impl varTestStruct) [0xcd, 0xab, 7, 0, 0, 0, 0xff, 1, 0, 2, 0] = .ok (0xabcd#16, ([1#16, 2#16], (0xff#8, ()))) := rfl

/-- C51 is false for containers: bytes after the last field are ignored. -/
theorem C51_violated_trailing (m : Build) :
    decode m (impl (.container [.uint .w16])) [1, 2, 3] = .ok (0x0201#16, ()) ∧ serialize (.container [.uint .w16]) (0x0201#16, ()) = [1, 2] := by
  cases m <;> exact ⟨rfl, rfl⟩

/-- C51 is false for containers with fields of variable size: the first offset may point anywhere, leaving a gap after the headers or overlapping them. -/
theorem C51_violated_gap (m : Build) :
    decode m (impl (.container [.list (.uint .w8)])) [5, 0, 0, 0, 77, 1] = .ok ([1#8], ()) ∧
      decode m (impl (.container [.list (.uint .w8)])) [3, 0, 0, 0, 1] = .ok ([0#8, 1#8], ()) ∧
      serialize (.container [.list (.uint .w8)]) ([1#8], ()) = [4, 0, 0, 0, 1] := by
  cases m <;> exact ⟨rfl, rfl, rfl⟩

/-- C51 is false for vectors of elements of variable size, in the same way. -/
theorem C51_violated_vector (m : Build) :
    (∃ v, decode m (impl (.vec 1 (.list (.uint .w8)))) [5, 0, 0, 0, 77, 1] = .ok v ∧ v.val = [[1#8]]) ∧
      serialize (.vec 1 (.list (.uint .w8))) ⟨[[1#8]], rfl⟩ = [4, 0, 0, 0, 1] := by
  refine ⟨⟨⟨[[1#8]], rfl⟩, ?_, rfl⟩, ?_⟩
  · cases m <;> rfl
  · decide

example : Reads varTestStruct [0xcd, 0xab, 9, 0, 0, 0, 0xff, 66, 77, 1, 0, 2, 0] (0xabcd#16, ([1#16, 2#16], (0xff#8, ()))) :=
  (C51_accepts_iff .debug varTestStruct (by simp [Ty.Legal, allLegal])
    (by simp [Ty.Small, allSmall, Ty.head, heads, Ty.isVariable, Width.bytes]) _ _).mp rfl
example (v : varTestStruct.Val) : ¬ Reads varTestStruct [0xcd, 0xab, 9, 0, 0, 0, 0xff, 66] v := fun h => by
  have := (C51_accepts_iff .debug varTestStruct (by simp [Ty.Legal, allLegal])
    (by simp [Ty.Small, allSmall, Ty.head, heads, Ty.isVariable, Width.bytes]) _ _).mpr h
  cases this
example : decode .debug (impl byteLists) [8, 0, 0, 0, 9, 0, 0, 0, 1, 2, 3] = .ok [[1#8], [2#8, 3#8]] := rfl
example : Canon byteLists ∧ Canon (.list (.container [.uint .w16, .bool])) := ⟨.inr (.inl rfl), .inl rfl⟩

/-! ## C55 (SSZ part) -/

/-- C55: after `take_data` the item is as new, so the data taken later is what a new item would give, whatever was encoded before. -/
theorem C55_ssz_reuse (m : Build) (history next : List Op) :
    runOps m Item.new (history ++ .take :: next) = (do
      let first ← runOps m Item.new (history ++ [.take])
      let second ← runOps m Item.new next
      return (second.1, first.2 ++ second.2)) := runOps_take m Item.new history next

/-- C55: a history that ends with `take_data` leaves an empty item. -/
theorem C55_ssz_empty (m : Build) (history : List Op) {it : Item} {taken : List (List UInt8)}
    (h : runOps m Item.new (history ++ [.take]) = .ok (it, taken)) : it = Item.new := runOps_end m Item.new history h

example : runOps .debug Item.new [.value (.uint .w16) 0x0201#16, .take, .fixed [1], .var [2, 3], .take] = .ok (Item.new, [[1, 2], [1, 5, 0, 0, 0, 2, 3]]) := by decide

end LCT.Props
