import Verif.Lemmas.RlpTests

/-!
# C97: the tests with published RLP encodings pass exactly for right entries
-/

namespace LCT.Props
open LCT.Spec LCT.Out LCT.Rlp LCT.Codecs LCT.RandomTests LCT.VectorTests LCT.RlpTests

theorem encodingCase_decides (v : Entry) (hl : ∀ x, Describes v.decoded x → (rlp x).length < 2 ^ 64) : Decides (encodingCase v) (RightEncoding v) := by
  obtain ⟨d, t⟩ := v
  unfold encodingCase RightEncoding
  cases t with
  | none => exact ⟨fun ⟨_, _, h⟩ => (by cases h), fun _ => rfl⟩
  | some t =>
    show Decides (strip0x t >>= fun u => encodeJson d EncItem.new >>= fun item => rassert (bytesToLowerHex item.takeData.1 == u)) _
    rcases strip0x_cases t with ⟨u, rfl, e⟩ | ⟨hne, e⟩
    · rw [e]
      show Decides (encodeJson d EncItem.new >>= fun item => rassert (bytesToLowerHex item.takeData.1 == u)) _
      rcases encodeJson_cases d EncItem.new with ⟨x, h, e'⟩ | ⟨hno, e'⟩
      · rw [e']
        show Decides (rassert (bytesToLowerHex (encode encTree x) == u)) _
        rw [C35_encode_spec x (hl x h), bytesToLowerHex_eq]
        refine Decides.congr (P := hexOf (rlp x) = u) ⟨?_, ?_⟩ ?_
        · rintro rfl
          exact ⟨x, h, rfl⟩
        · rintro ⟨y, h', hu⟩
          rw [describes_unique h h']
          cases hu
          rfl
        · by_cases hu : hexOf (rlp x) = u
          · rw [beq_iff_eq.mpr hu]
            exact ⟨fun _ => ⟨(), rfl⟩, fun h => absurd hu h⟩
          · rw [beq_eq_false_iff_ne.mpr hu]
            exact ⟨fun h => absurd h hu, fun _ => rfl⟩
      · rw [e']
        exact ⟨fun ⟨x, h, _⟩ => absurd h (hno x), fun _ => rfl⟩
    · rw [e]
      exact ⟨fun ⟨x, _, h⟩ => absurd (Option.some.inj h) (hne _), fun _ => rfl⟩

theorem prefixed_length {t bs : List UInt8} (h : PrefixedHex t bs) : bs.length < t.length := by
  obtain ⟨u, rfl, -, -, h⟩ := h
  have := congrArg List.length h
  rw [List.length_map, hexOf_length] at this
  simp only [List.length_cons]
  omega

theorem decodingCase_decides (m : Build) (v : Entry) (hl : ∀ t, v.encoded = some t → t.length < 2 ^ 64) :
    Decides (decodingCase m v) (RightDecoding v) := by
  obtain ⟨d, t⟩ := v
  unfold decodingCase RightDecoding
  cases t with
  | none => exact ⟨fun ⟨_, _, _, h, _⟩ => (by cases h), fun _ => rfl⟩
  | some t =>
    have hb : (do
        let encodedHex ← unwrap (some t)
        let encodedHex ← strip0x encodedHex
        let data ← unwrapped (hexToBytes encodedHex)
        let json ← unwrapped (decode m (decodeJson m (data.length + 1)) data)
        rassert (json.beq d) : Out Unit Unit) =
        ((strip0x t >>= fun u => unwrapped (hexToBytes u)) >>= fun data =>
          unwrapped (decode m (decodeJson m (data.length + 1)) data) >>= fun json => rassert (json.beq d)) := by
      show (strip0x t >>= fun u => unwrapped (hexToBytes u) >>= _) = _
      cases strip0x t <;> rfl
    show Decides (do
        let encodedHex ← unwrap (some t)
        let encodedHex ← strip0x encodedHex
        let data ← unwrapped (hexToBytes encodedHex)
        let json ← unwrapped (decode m (decodeJson m (data.length + 1)) data)
        rassert (json.beq d)) _
    rw [hb]
    rcases prefixed_cases t with ⟨bs, h, e⟩ | ⟨hno, e⟩
    · rw [e]
      show Decides (unwrapped (decode m (decodeJson m (bs.length + 1)) bs) >>= fun json => rassert (json.beq d)) _
      have hbs : bs.length < 2 ^ 64 := (prefixed_length h).trans (hl t rfl)
      rw [decode_json]
      have no : (∀ x, decodeTree m bs ≠ .ok x) → ¬ ∃ t' bs' x, some t = some t' ∧ PrefixedHex t' bs' ∧ RelaxedTree x bs' ∧ d = jsonFor x := by
        rintro hx ⟨t', bs', x, ht, h', hr, -⟩
        cases ht
        rw [← prefixed_unique h h'] at hr
        exact hx x ((C37_tree_accepts_iff m bs x hbs).mpr hr)
      cases hd : decodeTree m bs with
      | ok x =>
        have hr := (C37_tree_accepts_iff m bs x hbs).mp hd
        show Decides (rassert ((jsonFor x).beq d)) _
        refine Decides.congr (P := d = jsonFor x) ⟨fun hj => ⟨t, bs, x, rfl, h, hr, hj⟩, ?_⟩ ?_
        · rintro ⟨t', bs', y, ht, h', hr', hj⟩
          cases ht
          rw [← prefixed_unique h h'] at hr'
          have := (C37_tree_accepts_iff m bs y hbs).mpr hr'
          rw [hd] at this
          cases this
          exact hj
        · cases hq : (jsonFor x).beq d with
          | true => exact ⟨fun _ => ⟨(), rfl⟩, fun h => absurd ((beq_jsonFor x d).mp hq) h⟩
          | false => exact ⟨fun h => (by rw [(beq_jsonFor x d).mpr h] at hq; cases hq), fun _ => rfl⟩
      | err e => exact ⟨fun h => absurd h (no fun x h => by rw [hd] at h; cases h), fun _ => rfl⟩
      | panic => exact ⟨fun h => absurd h (no fun x h => by rw [hd] at h; cases h), fun _ => rfl⟩
      | hang => exact absurd hd (C36_tree_terminates m bs hbs)
    · rw [e]
      refine ⟨?_, fun _ => rfl⟩
      rintro ⟨t', bs, x, ht, h, -⟩
      cases ht
      exact absurd h (hno bs)

/-- C97: the test of encoding passes exactly if there are more than 60 entries, and each has the encoding that the Yellow Paper prescribes, in lower
case.  (Nobody has entries of `2^64` bytes.) -/
theorem C97_encoding (vs : List Entry) (hl : ∀ v ∈ vs, ∀ x, Describes v.decoded x → (rlp x).length < 2 ^ 64) :
    (testEncoding vs = .ok () ↔ (∀ v ∈ vs, RightEncoding v) ∧ 60 < vs.length) ∧ (testEncoding vs = .ok () ∨ testEncoding vs = .panic) := by
  obtain ⟨h1, h2⟩ := run_decides vs fun v hv => encodingCase_decides v (hl v hv)
  by_cases h : (∀ v ∈ vs, RightEncoding v) ∧ 60 < vs.length
  · obtain ⟨⟨⟩, e⟩ := h1 h
    exact ⟨⟨fun _ => h, fun _ => e⟩, .inl e⟩
  · have e : testEncoding vs = .panic := h2 h
    exact ⟨⟨fun h' => (by rw [e] at h'; cases h'), fun h' => absurd h' h⟩, .inr e⟩

/-- C97: the test of decoding passes exactly if there are more than 60 entries, and each gives a text that stands for the item, possibly with longer headers
than necessary. -/
theorem C97_decoding (m : Build) (vs : List Entry) (hl : ∀ v ∈ vs, ∀ t, v.encoded = some t → t.length < 2 ^ 64) :
    (testDecoding m vs = .ok () ↔ (∀ v ∈ vs, RightDecoding v) ∧ 60 < vs.length) ∧ (testDecoding m vs = .ok () ∨ testDecoding m vs = .panic) := by
  obtain ⟨h1, h2⟩ := run_decides vs fun v hv => decodingCase_decides m v (hl v hv)
  by_cases h : (∀ v ∈ vs, RightDecoding v) ∧ 60 < vs.length
  · obtain ⟨⟨⟩, e⟩ := h1 h
    exact ⟨⟨fun _ => h, fun _ => e⟩, .inl e⟩
  · have e : testDecoding m vs = .panic := h2 h
    exact ⟨⟨fun h' => (by rw [e] at h'; cases h'), fun h' => absurd h' h⟩, .inr e⟩

/-- C97: if all texts are in lower case and short enough, entries that are right for the first test are right for the second. -/
theorem C97_encoding_decoding (x : Item) (v : Entry) (hj : v.decoded = jsonFor x) (hl : (rlp x).length < 2 ^ 64) (h : RightEncoding v) :
    RightDecoding v := by
  obtain ⟨y, hy, e⟩ := h
  have hr : ∀ z, (rlp z).length < 2 ^ 64 → RelaxedTree z (rlp z) := fun z hz => by
    have := C34_round_trip .debug z (by rw [C35_encode_spec z hz]; exact hz)
    rw [C35_encode_spec z hz] at this
    exact (C37_tree_accepts_iff .debug _ z hz).mp this
  have hd : ∀ bs, PrefixedHex (48 :: 120 :: hexOf bs) bs := fun bs => ⟨hexOf bs, rfl, (C17_decode_ok_iff _ bs).mp (by rw [← bytesToLowerHex_eq]; exact C17_round_trip bs)⟩
  have hyx : y = x := by
    have key : Describes (jsonFor x) x := by
      clear hj hl hy e
      exact describes_jsonFor hd x
    rw [hj] at hy
    exact describes_unique hy key
  subst hyx
  exact ⟨_, _, y, e, hd _, hr y hl, hj⟩
where
  describes_jsonFor (hd : ∀ bs, PrefixedHex (48 :: 120 :: hexOf bs) bs) : (x : Item) → Describes (jsonFor x) x
    | .bytes bs => by rw [jsonFor]; exact .string _ _ (hd bs)
    | .list xs => by rw [jsonFor]; exact .array _ _ (describes_jsonsFor hd xs)
  describes_jsonsFor (hd : ∀ bs, PrefixedHex (48 :: 120 :: hexOf bs) bs) : (xs : List Item) → DescribeAll (jsonsFor xs) xs
    | [] => by rw [jsonsFor]; exact .nil
    | x :: xs => by rw [jsonsFor]; exact .cons _ _ _ _ (describes_jsonFor hd x) (describes_jsonsFor hd xs)

/-- `["cat", "dog"]`, as published: `0xc88363617483646f67`. -/
def catDog : Entry :=
  ⟨.array [.string [48, 120, 54, 51, 54, 49, 55, 52], .string [48, 120, 54, 52, 54, 102, 54, 55]],
    some [48, 120, 99, 56, 56, 51, 54, 51, 54, 49, 55, 52, 56, 51, 54, 52, 54, 102, 54, 55]⟩

/-- The byte `0x61`, with a header that is not needed: `0x8161`. -/
def longer : Entry := ⟨.string [48, 120, 54, 49], some [48, 120, 56, 49, 54, 49]⟩

/-- The byte `0xAB`, in upper case, and its encoding `0x81ab`. -/
def upper : Entry := ⟨.string [48, 120, 65, 66], some [48, 120, 56, 49, 97, 98]⟩

/-- C97: 61 entries are enough, 60 are not.  The two tests differ: a header that is not needed fails only the first, an item in upper case only the
second. -/
theorem C97_published (m : Build) :
    testEncoding (List.replicate 61 catDog) = .ok () ∧ testEncoding (List.replicate 60 catDog) = .panic ∧
    testDecoding m (List.replicate 61 catDog) = .ok () ∧ testDecoding m (List.replicate 60 catDog) = .panic ∧
    testEncoding (List.replicate 61 longer) = .panic ∧ testDecoding m (List.replicate 61 longer) = .ok () ∧
    testEncoding (List.replicate 61 upper) = .ok () ∧ testDecoding m (List.replicate 61 upper) = .panic := by
  cases m <;> decide +kernel

/-- What the theorems make of it. -/
example : RightEncoding catDog ∧ RightDecoding catDog ∧ RightDecoding longer ∧ RightEncoding upper := by
  have one : ∀ v : Entry, encodingCase v = .ok () → (∀ x, Describes v.decoded x → (rlp x).length < 2 ^ 64) → RightEncoding v := fun v h hl => by
    by_contra hc
    rw [(encodingCase_decides v hl).2 hc] at h
    cases h
  have two : ∀ v : Entry, decodingCase .debug v = .ok () → (∀ t, v.encoded = some t → t.length < 2 ^ 64) → RightDecoding v := fun v h hl => by
    by_contra hc
    rw [(decodingCase_decides .debug v hl).2 hc] at h
    cases h
  have small : ∀ v : Entry, (∀ t ∈ v.encoded, t.length < 100) → ∀ t, v.encoded = some t → t.length < 2 ^ 64 := fun v h t ht =>
    (h t ht).trans (by norm_num)
  refine ⟨one catDog (by decide +kernel) ?_, two catDog (by decide +kernel) (small _ (by decide)), two longer (by decide +kernel) (small _ (by decide)),
    one upper (by decide +kernel) ?_⟩
  · rintro x (_ | ⟨_, _, h⟩)
    cases h with
    | cons _ y _ _ hy hs =>
      cases hs with
      | cons _ z _ _ hz hs =>
        cases hs
        have e1 := describes_unique hy (.string _ [0x63, 0x61, 0x74] ⟨[54, 51, 54, 49, 55, 52], rfl, by decide⟩)
        have e2 := describes_unique hz (.string _ [0x64, 0x6f, 0x67] ⟨[54, 52, 54, 102, 54, 55], rfl, by decide⟩)
        subst e1 e2
        decide +kernel
  · rintro x (⟨_, bs, h⟩ | _)
    rw [prefixed_unique h (bs' := [0xab]) ⟨[65, 66], rfl, by decide⟩]
    decide +kernel

end LCT.Props
