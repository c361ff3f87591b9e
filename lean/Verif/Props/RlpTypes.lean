import Verif.Lemmas.RlpTypes
import Verif.Lemmas.RlpTypesPanic
import Verif.Props.Rlp

/-!
# RLP for types that users compose: C89, and more on C36
-/

namespace LCT.Props
open LCT.Rlp LCT.Spec LCT.Spec.Eth LCT.Out LCT.Ethereum

/-- C89: the encoding of a value is the RLP of the item for it. -/
theorem C89_encode (t : Ty) (v : t.Val) (h : (rlp (itemOf t v)).length < 2 ^ 64) : encode (encTy t) v = rlp (itemOf t v) := encode_ty t v h

/-- C89: decoding returns exactly the value that the data can be read as: an item under the decoder's grammar, with fields of the right kinds in
the right number, at every depth. -/
theorem C89_accepts_iff (m : Build) (t : Ty) (data : List UInt8) (hl : data.length < 2 ^ 64) (v : t.Val) :
    decode m (decTy m t) data = .ok v ↔ ∃ x, RelaxedTree x data ∧ ReadsAs t x v := by
  unfold decode DecItem.newFromData
  constructor
  · intro h
    obtain ⟨d, h1, h⟩ := out_bind_eq_ok.mp h
    obtain ⟨a, h2, h1⟩ := out_bind_eq_ok.mp h1
    cases h1
    have hi := (decodeData_iff m data a.1 a.2 hl).mp h2
    obtain ⟨x, ho, hr⟩ := (decTy_ok_iff m t a (Nat.lt_of_le_of_lt (relaxed_le hi) hl) v).mp h
    exact ⟨x, tree_iff_opens.mpr ⟨a, hi, ho⟩, hr⟩
  · rintro ⟨x, hx, hr⟩
    obtain ⟨a, hi, ho⟩ := tree_iff_opens.mp hx
    rw [(decodeData_iff m data a.1 a.2 hl).mpr hi]
    exact (decTy_ok_iff m t a (Nat.lt_of_le_of_lt (relaxed_le hi) hl) v).mpr ⟨x, ho, hr⟩

/-- C89: the encoding of a value decodes to it. -/
theorem C89_round_trip (m : Build) (t : Ty) (v : t.Val) (h : (rlp (itemOf t v)).length < 2 ^ 64) :
    decode m (decTy m t) (encode (encTy t) v) = .ok v := by
  rw [C89_encode t v h]
  refine (C89_accepts_iff m t _ h v).mpr ⟨itemOf t v, ?_, itemOf_reads t v⟩
  have ht := rlp_treeBytes _ h
  rw [← ht]
  exact relaxed_treeBytes _ (by rw [ht]; exact h)

/-- C89: values of one type with the same encoding are equal; more, no encoding is the beginning of another. -/
theorem C89_injective (t : Ty) (v v' : t.Val) (r : List UInt8) (h : (rlp (itemOf t v')).length < 2 ^ 64)
    (he : encode (encTy t) v ++ r = encode (encTy t) v') : v = v' ∧ r = [] := by
  have e1 : encode (encTy t) v = encode encTree (itemOf t v) := by
    rw [encode_tree, encode, encTy_eq]; simp [EncItem.takeData, EncItem.extend, EncItem.new]
  have e2 : encode (encTy t) v' = encode encTree (itemOf t v') := by
    rw [encode_tree, encode, encTy_eq]; simp [EncItem.takeData, EncItem.extend, EncItem.new]
  have hl : (encode encTree (itemOf t v')).length < 2 ^ 64 := by rw [← e2, C89_encode t v' h]; exact h
  obtain ⟨hx, rfl⟩ := C35_prefix_free _ _ r hl (by rw [← e1, ← e2]; exact he)
  refine ⟨?_, rfl⟩
  have h1 := C89_round_trip .release t v' h
  have h2 := C89_round_trip .release t v (by rw [hx]; exact h)
  rw [List.append_nil] at he
  rw [he, h1] at h2
  cases h2
  rfl

/-- C89: the entries of access lists, as the crate implements them, are such a record. -/
theorem C89_access_list_item (m : Build) (a : AccessListItem) (d : DecItem) (e : EncItem) :
    let t : Ty := .record [.address, .vec .key]
    encAccessListItem a e = encTy t (a.address, a.storageKeys, ()) e ∧
    decAccessListItem m d = (decTy m t d).bind fun v => .ok ⟨v.1, v.2.1⟩ := by
  refine ⟨?_, ?_⟩
  · refine (encAccessListItem_eq a e).trans (Eq.trans ?_ (encTy_eq (.record [.address, .vec .key]) (a.address, a.storageKeys, ()) e).symm)
    have : (itemOf .key : StorageKey → Item) = fun k => .bytes k.data := by funext k; simp only [itemOf]
    simp only [itemOf, itemsOf, this]
    rfl
  · obtain ⟨ty, p⟩ := d
    simp only [decAccessListItem, decTy]
    cases ty with
    | SingleValue => rfl
    | List =>
      dsimp only
      cases DecItem.decodeAsItems m ⟨.List, p⟩ with
      | ok items =>
        match items with
        | [] => rfl
        | [_] => rfl
        | [i, j] =>
          simp only [Out.bind_ok, List.length_cons, List.length_nil, ne_eq, not_true_eq_false, if_false, decFields, nextItem, decTy]
          show ((decAddress i).bind fun _ => _) = ((decAddress i).bind _).bind _
          cases decAddress i with
          | ok x =>
            have : (fun x => decStorageKey x : Dec StorageKey) = decStorageKey := rfl
            simp only [this]
            show ((decVec m decStorageKey j).bind fun k => .ok ⟨x, k⟩) = ((((decVec m decStorageKey j).bind fun v => .ok (v, ())).bind
              fun vs => .ok (x, vs)).bind fun v => .ok ⟨v.1, v.2.1⟩ : Out RlpErr AccessListItem)
            cases decVec m decStorageKey j <;> rfl
          | _ => rfl
        | _ :: _ :: _ :: _ => rfl
      | _ => rfl

/-- C36 for all these types: decoding does not run for ever; on data no suffix of which begins with a header that declares a length of `2^64 - 9`
or more, release builds return a value or an error, and debug builds return the same, or panic where release builds report a malformed input.
Missing: those byte strings (`C36_violated_release`), and the panics of debug builds (`C36_types_panic`). -/
theorem C36_types_partial (t : Ty) (data : List UInt8) (hl : data.length < 2 ^ 64) :
    (∀ m, decode m (decTy m t) data ≠ .hang) ∧
    ((∀ s, s <:+ data → ¬ DeclaresHugeLength s) → (decode .release (decTy .release t) data).Returns ∧
      (decode .debug (decTy .debug t) data = decode .release (decTy .release t) data ∨
        decode .debug (decTy .debug t) data = .panic ∧ decode .release (decTy .release t) data = .err .InvalidFormat)) := by
  refine ⟨fun m => nh_decode m data (nh_ty m t), fun h => ?_⟩
  rcases agr_decode data hl h fun d h1 h2 => agr_ty t d h1 h2 with ⟨e, r⟩ | ⟨-, e1, e2⟩
  · exact ⟨r, .inl e⟩
  · exact ⟨by rw [e2]; exact .err _, .inr ⟨e1, e2⟩⟩

/-- C36 (negation): for any element type, the bytes of a single value make a debug build panic when a vector is expected. -/
theorem C36_types_panic (t : Ty) (b : UInt8) (hb : b.toNat < 128) :
    decode .debug (decTy .debug (.vec t)) [b] = .panic ∧ decode .release (decTy .release (.vec t)) [b] = .err .InvalidFormat := by
  have e : ∀ m, DecItem.newFromData m [b] = .ok ⟨.SingleValue, [b]⟩ := by
    intro m
    unfold DecItem.newFromData
    rw [(decodeData_iff m [b] .SingleValue [b] (by simp)).mpr (.single b hb)]
    rfl
  constructor <;> unfold decode <;> rw [e] <;> simp only [out_bind_ok, decTy] <;> rfl

/-- C36 for all these types: exactly which byte strings make decoding panic, in either build (`Chokes`).  On all others decoding returns a value or
an error: together with `C89_accepts_iff` this says what decoding does with every byte string.  Missing for the full property: those byte
strings. -/
theorem C36_types_panics_iff_partial (m : Build) (t : Ty) (data : List UInt8) (hl : data.length < 2 ^ 64) :
    (decode m (decTy m t) data = .panic ↔
      (m = .debug ∧ DeclaresHugeLength data) ∨ ∃ kind payload, RelaxedItem kind payload data ∧ Chokes m t (kind, payload)) ∧
    ((decode m (decTy m t) data).Returns ∨ decode m (decTy m t) data = .panic) := by
  constructor
  · rw [decode_panic_iff hl]
    refine or_congr Iff.rfl ⟨?_, ?_⟩
    · rintro ⟨a, h1, h2⟩
      exact ⟨a.1, a.2, h1, (decTy_panic_iff m t a (Nat.lt_of_le_of_lt (relaxed_le h1) hl)).mp h2⟩
    · rintro ⟨k, p, h1, h2⟩
      exact ⟨(k, p), h1, (decTy_panic_iff m t (k, p) (Nat.lt_of_le_of_lt (relaxed_le h1) hl)).mpr h2⟩
  · have h := nh_decode m data (nh_ty m t)
    cases e : decode m (decTy m t) data with
    | ok v => exact .inl (.ok _)
    | err er => exact .inl (.err _)
    | panic => exact .inr rfl
    | hang => exact absurd e h

/-- In a record of a number and a vector of records, the second record of the vector has a number in the place of its vector: debug builds panic,
release builds do not. -/
example : Chokes .debug (.record [.u64, .vec (.record [.vec .u64])]) (.List, [5, 0xc4, 0xc1, 0xc0, 0xc1, 7]) ∧
    ¬ Chokes .release (.vec .u64) (.SingleValue, [7]) := by
  constructor
  · simp only [Chokes, true_and]
    refine .inr ⟨[(.SingleValue, [5]), (.List, [0xc1, 0xc0, 0xc1, 7])], ?_, rfl, ?_⟩
    · exact .cons .SingleValue [5] [5] [_] _ (.single 5 (by decide)) (.cons .List [0xc1, 0xc0, 0xc1, 7] [0xc4, 0xc1, 0xc0, 0xc1, 7] [] []
        (.listShort _ (by decide)) .nil)
    · simp only [ChokesIn, Chokes, false_or, or_false, and_false, true_and, reduceCtorEq, false_and]
      refine ⟨⟨(5 : UInt64), ?_⟩, .inr ⟨[(.List, [0xc0])], (.List, [7]), [], ?_, ?_, ?_⟩⟩
      · simp only [ReadsAs]
        exact ⟨[5], rfl, by decide, by decide⟩
      · exact .cons .List [0xc0] [0xc1, 0xc0] [_] _ (.listShort _ (by decide)) (.cons .List [7] [0xc1, 7] [] [] (.listShort _ (by decide)) .nil)
      · intro j hj
        cases List.mem_singleton.mp hj
        refine ⟨[.list []], (([] : List UInt64), ()), ?_, ?_⟩
        · exact .cons (.list []) [] [0xc0] [] (.list [] [] [0xc0] .nil (.listShort _ (by decide))) .nil
        · simp only [ReadsAs, ReadAs]
          exact ⟨_, rfl, _, _, rfl, ⟨_, rfl, .nil⟩, rfl⟩
      · refine ⟨rfl, .inr ⟨[(.SingleValue, [7])], .cons .SingleValue [7] [7] [] [] (.single 7 (by decide)) .nil, rfl, ?_⟩⟩
        simp [ChokesIn, Chokes]
  · simp only [Chokes]
    rintro (⟨-, h⟩ | ⟨h, -⟩) <;> cases h

/-! ## A type with two levels of records -/

/-- A record of a number, a string and a vector of records of an address and a number. -/
def exampleTy : Ty := .record [.u64, .str, .vec (.record [.address, .big])]

def exampleValue : exampleTy.Val := ((1024 : UInt64), "dog", [(Address.null, (0 : Nat), ()), (Address.null, (300 : Nat), ())], ())

example : (rlp (itemOf exampleTy exampleValue)).length < 2 ^ 64 := by decide +kernel

example (m : Build) : decode m (decTy m exampleTy) (encode (encTy exampleTy) exampleValue) = .ok exampleValue :=
  C89_round_trip m _ _ (by decide +kernel)

/-- A different number of fields is rejected. -/
example : (decode .release (decTy .release (.record [.u64, .u64])) [0xc1, 5]).bind (fun _ => .ok ()) = .err .InvalidFormat := by decide +kernel

end LCT.Props
