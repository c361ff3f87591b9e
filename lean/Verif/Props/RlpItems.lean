import Verif.Props.Rlp
import Verif.Lemmas.Ethereum.Total

/-!
# C101: taking an RLP item apart by hand

A user who writes their own `Decodable` calls `RlpDecodingItem::new_from_data`, `decode_as_bytes` and `decode_as_items`
(`/repo/src/blockchain/ethereum/rlp/decoder.rs:21-49`).  The claims are in terms of the relaxed grammar of Spec/Rlp.
`2 ^ 64` bounds the length of anything that can exist in the memory of a 64-bit machine.
-/

namespace LCT.Props
open LCT.Rlp LCT.Spec

/-- C101: `new_from_data` succeeds exactly on the byte strings that are one item, with its kind and payload. -/
theorem C101_item (m : Build) (data : List UInt8) (hlen : data.length < 2 ^ 64) (d : DecItem) :
    DecItem.newFromData m data = .ok d ↔ RelaxedItem d.itemType d.payload data := by
  rw [← decodeData_iff m data _ _ hlen]
  obtain ⟨t, p⟩ := d
  unfold DecItem.newFromData
  cases decodeData m data <;> simp [Out.bind, Prod.ext_iff]

/-- C101: `new_from_data` panics exactly in debug builds on data that begin with a header that declares a huge length, and it always
ends; whatever else is not an item is an invalid format. -/
theorem C101_item_refused_partial (m : Build) (data : List UInt8) (hlen : data.length < 2 ^ 64) :
    (DecItem.newFromData m data = .panic ↔ m = .debug ∧ DeclaresHugeLength data) ∧
      (DecItem.newFromData m data = .err .InvalidFormat ↔
        (¬ ∃ t p, RelaxedItem t p data) ∧ ¬ (m = .debug ∧ DeclaresHugeLength data)) := by
  have hp := C36_decode_data_partial m data
  have hi : ∀ t p, decodeData m data = .ok (t, p) ↔ RelaxedItem t p data := fun t p => decodeData_iff m data t p hlen
  have he : ∀ e, decodeData m data = .err e → e = .InvalidFormat := by
    intro e h
    cases e with
    | InvalidFormat => rfl
    | TransactionTypeMismatch => exact absurd h (LCT.Ethereum.decodeData_nm m data)
  unfold DecItem.newFromData
  cases h : decodeData m data with
  | ok a =>
    obtain ⟨t, p⟩ := a
    have hr := (hi t p).mp h
    rw [h] at hp
    have h1 : ¬ (m = .debug ∧ DeclaresHugeLength data) := by rw [← hp.1]; simp [Out.Returns]
    exact ⟨⟨fun x => (by cases x), fun x => absurd x h1⟩, ⟨fun x => (by cases x), fun x => absurd ⟨t, p, hr⟩ x.1⟩⟩
  | err e =>
    have hn : ¬ ∃ t p, RelaxedItem t p data := by
      rintro ⟨t, p, hr⟩
      rw [(hi t p).mpr hr] at h; cases h
    have := he e h
    subst this
    rw [h] at hp
    have h1 : ¬ (m = .debug ∧ DeclaresHugeLength data) := by rw [← hp.1]; simp [Out.Returns]
    exact ⟨⟨fun x => (by cases x), fun x => absurd x h1⟩, ⟨fun _ => ⟨hn, h1⟩, fun _ => rfl⟩⟩
  | panic =>
    rw [h] at hp
    have h1 : m = .debug ∧ DeclaresHugeLength data := by rw [← hp.1]; simp [Out.Returns]
    exact ⟨⟨fun _ => h1, fun _ => rfl⟩, ⟨fun x => (by cases x), fun x => absurd h1 x.2⟩⟩
  | hang => exact absurd h hp.2

/-- C101: the bytes of an item are its payload if it is a single value, and a list is refused. -/
theorem C101_bytes (d : DecItem) (r : Out RlpErr (List UInt8)) :
    d.decodeAsBytes = r ↔ (d.itemType = .SingleValue ∧ r = .ok d.payload) ∨ (d.itemType = .List ∧ r = .err .InvalidFormat) := by
  obtain ⟨t, p⟩ := d
  cases t <;> simp [DecItem.decodeAsBytes, eq_comm]

/-- C101: an item falls apart into parts exactly if it is a list whose payload is the concatenation of these parts. -/
theorem C101_items (m : Build) (d : DecItem) (hlen : d.payload.length < 2 ^ 64) (parts : List DecItem) :
    d.decodeAsItems m = .ok parts ↔
      d.itemType = .List ∧ RelaxedSeq (parts.map fun x => (x.itemType, x.payload)) d.payload := by
  obtain ⟨t, p⟩ := d
  cases t with
  | SingleValue => simp [DecItem.decodeAsItems]
  | List =>
    rw [← decodeListPayload_iff m p _ hlen]
    simp only [DecItem.decodeAsItems, ne_eq, not_true_eq_false, if_false, true_and]
    cases h : decodeListPayload m p with
    | ok as =>
      simp only [Out.bind, Out.ok.injEq]
      constructor
      · rintro rfl; rw [List.map_map]; exact (List.map_id as).symm
      · rintro rfl; rw [List.map_map]; exact List.map_id parts
    | err e => simp [Out.bind]
    | panic => simp [Out.bind]
    | hang => simp [Out.bind]

/-- C101: taking apart panics, in both builds, exactly if the item is a list whose payload consists of items and then a header that declares a
huge length; it always ends, and whatever else has no parts is an invalid format. -/
theorem C101_items_refused_partial (m : Build) (d : DecItem) (hlen : d.payload.length < 2 ^ 64) :
    (d.decodeAsItems m = .panic ↔ d.itemType = .List ∧
        ∃ items before rest, d.payload = before ++ rest ∧ RelaxedSeq items before ∧ DeclaresHugeLength rest) ∧
      d.decodeAsItems m ≠ .hang ∧ (d.itemType = .SingleValue → d.decodeAsItems m = .err .InvalidFormat) ∧
      (∀ e, d.decodeAsItems m = .err e → e = .InvalidFormat) := by
  obtain ⟨t, p⟩ := d
  cases t with
  | SingleValue => simp [DecItem.decodeAsItems]
  | List =>
    have h1 := C36_list_panics_iff_partial m p hlen
    have h2 := (C36_decode_list_partial m p).2
    have h3 : ∀ e, decodeListPayload m p = .err e → e = .InvalidFormat := by
      intro e h
      cases e with
      | InvalidFormat => rfl
      | TransactionTypeMismatch => exact absurd h (LCT.Ethereum.decodeListLoop_nm m _ _)
    rw [← h1]
    simp only [DecItem.decodeAsItems, ne_eq, not_true_eq_false, if_false, true_and]
    cases h : decodeListPayload m p with
    | ok as => simp [Out.bind]
    | err e => simpa [Out.bind] using h3 e h
    | panic => simp [Out.bind]
    | hang => exact absurd h h2

/-- C101: the parts of the encoding of a list are its elements, in order: byte strings as they are, lists with the concatenated encodings of
their elements as payload. -/
theorem C101_encoded (m : Build) (xs : List Item) (hlen : (rlp (.list xs)).length < 2 ^ 64) :
    ((DecItem.newFromData m (rlp (.list xs))).bind fun d => d.decodeAsItems m) =
      .ok (xs.map fun x => match x with
        | .bytes b => ⟨.SingleValue, b⟩
        | .list ys => ⟨.List, rlpSeq ys⟩) := by
  have hs : (rlpSeq xs).length < 2 ^ 64 := by
    rw [rlp, rlpListOf] at hlen
    split at hlen <;> simp at hlen <;> omega
  have hparts : ∀ ys : List Item, (rlpSeq ys).length < 2 ^ 64 → ((ys.map shallow).map fun x => (⟨x.1, x.2⟩ : DecItem)) =
      ys.map fun x => match x with
        | .bytes b => ⟨.SingleValue, b⟩
        | .list zs => ⟨.List, rlpSeq zs⟩ := by
    intro ys hy
    induction ys with
    | nil => rfl
    | cons y ys ih =>
      rw [rlpSeq, List.length_append] at hy
      rw [List.map_cons, List.map_cons, List.map_cons, ih (by omega)]
      congr 1
      cases y with
      | bytes b => rfl
      | list zs =>
        have : (rlpSeq zs).length < 2 ^ 64 := by
          rw [rlp, rlpListOf] at hy
          split at hy <;> simp at hy <;> omega
        simp only [shallow]
        rw [rlp_treesBytes zs this]
  have hsh : rlp (.list xs) = encodeItem .List (treesBytes xs) := by
    rw [← rlp_treeBytes _ hlen, treeBytes]
  have ht := rlp_treesBytes xs hs
  rw [hsh] at hlen ⊢
  unfold DecItem.newFromData
  rw [decodeData_encodeItem m _ _ hlen]
  simp only [out_bind_ok, DecItem.decodeAsItems, ne_eq, not_true_eq_false, if_false]
  rw [treesBytes_eq, decodeListPayload_encode m _ (by rw [← treesBytes_eq, ht]; exact hs)]
  simp only [out_bind_ok]
  rw [hparts xs hs]

/-- `["cat", [5]]` in a longer header than necessary: `0xf8 06 83 'c' 'a' 't' c1 05`. -/
example : ∃ d, DecItem.newFromData .debug [0xf8, 6, 0x83, 99, 97, 116, 0xc1, 5] = .ok d ∧
    d.decodeAsItems .debug = .ok [⟨.SingleValue, [99, 97, 116]⟩, ⟨.List, [5]⟩] ∧ d.decodeAsBytes = .err .InvalidFormat ∧
    RelaxedItem d.itemType d.payload [0xf8, 6, 0x83, 99, 97, 116, 0xc1, 5] :=
  ⟨⟨.List, [0x83, 99, 97, 116, 0xc1, 5]⟩, by decide +kernel, by decide +kernel, by decide +kernel,
    .listLong [6] [0x83, 99, 97, 116, 0xc1, 5] (by decide) (by decide) (by decide)⟩

/-- C101: the full claim, that no data make these functions panic, is false: `new_from_data` accepts this list of eleven bytes and taking it
apart panics in both builds. -/
theorem C101_panics (m : Build) : ∃ d, DecItem.newFromData m [0xca, 5, 0xbf, 255, 255, 255, 255, 255, 255, 255, 255] = .ok d ∧
    d.decodeAsItems m = .panic := by
  refine ⟨⟨.List, [5, 0xbf, 255, 255, 255, 255, 255, 255, 255, 255]⟩, ?_, ?_⟩ <;> cases m <;> decide +kernel

/-- The encoding of `["cat", ["dog"]]` meets the hypothesis of `C101_encoded`. -/
example : (rlp (.list [.bytes [99, 97, 116], .list [.bytes [100, 111, 103]]])).length < 2 ^ 64 := by decide +kernel

end LCT.Props
