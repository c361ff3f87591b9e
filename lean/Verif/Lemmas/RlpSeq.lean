import Verif.Lemmas.RlpTyped

/-!
# Exact acceptance of sequences and nested items
-/

namespace LCT.Rlp
open LCT.Spec

theorem relaxed_ne_nil {t : ItemType} {p d : List UInt8} (h : RelaxedItem t p d) : d ≠ [] := by
  cases h <;> simp

/-- The header decoder on data that starts with an item. -/
theorem relaxed_header (m : Build) {t : ItemType} {p d : List UInt8} (rest : List UInt8) (h : RelaxedItem t p d)
    (hlen : d.length < 2 ^ 64) :
    ∃ n, decodeDataHeader m (d ++ rest) = .ok (t, n, p.length) ∧ d.length = n + p.length ∧ d.drop n = p := by
  cases h with
  | single b h =>
    refine ⟨0, ?_, rfl, rfl⟩
    rw [List.singleton_append, decodeDataHeader_cons, if_pos (by omega)]; rfl
  | short p h =>
    have e := ofNat_toNat_lt (128 + p.length) (by omega)
    refine ⟨1, ?_, by simp; omega, rfl⟩
    rw [List.cons_append, decodeDataHeader_cons, e, if_neg (by omega), if_pos (by omega)]
    simp only [Nat.add_sub_cancel_left]
  | long l p h1 h8 hl =>
    have e := ofNat_toNat_lt (183 + l.length) (by omega)
    refine ⟨1 + l.length, ?_, by simp; omega, by rw [Nat.add_comm 1]; simp⟩
    simp only [List.length_cons, List.length_append, List.cons_append] at hlen
    rw [List.cons_append, List.cons_append, decodeDataHeader_cons, e, if_neg (by omega), if_neg (by omega), if_pos (by omega)]
    have ht : ((UInt8.ofNat (183 + l.length) :: (l ++ p ++ rest)).drop 1).take (183 + l.length - 183) = l := by
      simp
    rw [decodeLongHeader_ok m _ _ _ (by rw [ht, hl]; omega), ht, hl, if_neg (by simp; omega)]
    simp only [Nat.add_sub_cancel_left]
  | listShort p h =>
    have e := ofNat_toNat_lt (192 + p.length) (by omega)
    refine ⟨1, ?_, by simp; omega, rfl⟩
    rw [List.cons_append, decodeDataHeader_cons, e, if_neg (by omega), if_neg (by omega), if_neg (by omega), if_pos (by omega)]
    simp only [Nat.add_sub_cancel_left]
  | listLong l p h1 h8 hl =>
    have e := ofNat_toNat_lt (247 + l.length) (by omega)
    refine ⟨1 + l.length, ?_, by simp; omega, by rw [Nat.add_comm 1]; simp⟩
    simp only [List.length_cons, List.length_append, List.cons_append] at hlen
    rw [List.cons_append, List.cons_append, decodeDataHeader_cons, e, if_neg (by omega), if_neg (by omega), if_neg (by omega),
      if_neg (by omega)]
    have ht : ((UInt8.ofNat (247 + l.length) :: (l ++ p ++ rest)).drop 1).take (247 + l.length - 247) = l := by
      simp
    rw [decodeLongHeader_ok m _ _ _ (by rw [ht, hl]; omega), ht, hl, if_neg (by simp; omega)]
    simp only [Nat.add_sub_cancel_left]

/-- The header decoder does not look behind the item. -/
theorem header_take (m : Build) {data : List UInt8} {t : ItemType} {h n : Nat} (hd : decodeDataHeader m data = .ok (t, h, n))
    (hlt : h + n < 2 ^ 64) (hle : h + n ≤ data.length) : decodeDataHeader m (data.take (h + n)) = .ok (t, h, n) := by
  match data, hd, hle with
  | first :: rest, hd, hle =>
    rw [decodeDataHeader_cons] at hd
    have hb := first.toNat_lt
    have long : ∀ t' k, decodeLongHeader m t' k (first :: rest) = .ok (t, h, n) →
        decodeLongHeader m t' k (first :: rest.take (h + n - 1)) = .ok (t, h, n) ∧ 1 ≤ h := by
      intro t' k hk
      have hk0 := hk
      unfold decodeLongHeader at hk
      split at hk
      · cases hk
      · rename_i hck
        simp only [fromBE_eq, ofBE_pad, List.drop_succ_cons, List.drop_zero] at hk
        obtain ⟨tot, ha, hk⟩ := out_bind_eq_ok.mp hk
        split at hk
        · cases hk
        · cases hk
          refine ⟨?_, by omega⟩
          have ht : ((first :: rest.take (1 + k + ofBE (rest.take k) - 1)).drop 1).take k = rest.take k := by
            rw [List.drop_succ_cons, List.drop_zero, List.take_take, Nat.min_eq_left (by omega)]
          rw [decodeLongHeader_ok m _ _ _ (by rw [ht]; exact hlt), ht, if_neg]
          simp only [List.length_cons, List.length_take] at hle ⊢
          omega
    have hpos : ∃ k, h + n = k + 1 := by
      split at hd
      · cases hd; exact ⟨0, rfl⟩
      · split at hd
        · cases hd; exact ⟨first.toNat - 128, by omega⟩
        · split at hd
          · have := (long _ _ hd).2; exact ⟨h + n - 1, by omega⟩
          · split at hd
            · cases hd; exact ⟨first.toNat - 192, by omega⟩
            · have := (long _ _ hd).2; exact ⟨h + n - 1, by omega⟩
    obtain ⟨k, hk⟩ := hpos
    rw [hk, List.take_succ_cons, decodeDataHeader_cons]
    have hk' : k = h + n - 1 := by omega
    rw [hk']
    split
    · rename_i c; rw [if_pos c] at hd; exact hd
    · rename_i c1; rw [if_neg c1] at hd
      split
      · rename_i c; rw [if_pos c] at hd; exact hd
      · rename_i c2; rw [if_neg c2] at hd
        split
        · rename_i c; rw [if_pos c] at hd; exact (long _ _ hd).1
        · rename_i c3; rw [if_neg c3] at hd
          split
          · rename_i c; rw [if_pos c] at hd; exact hd
          · rename_i c4; rw [if_neg c4] at hd; exact (long _ _ hd).1

/-- A successful header followed by enough data is an item of the relaxed grammar. -/
theorem header_relaxed (m : Build) {data : List UInt8} {t : ItemType} {h n : Nat} (hd : decodeDataHeader m data = .ok (t, h, n))
    (hlt : h + n < 2 ^ 64) (hle : h + n ≤ data.length) :
    RelaxedItem t ((data.take (h + n)).drop h) (data.take (h + n)) := by
  have hlen : (data.take (h + n)).length = h + n := by rw [List.length_take]; omega
  refine (decodeData_iff m _ _ _ (by omega)).mp ?_
  exact (decodeData_of_header m _ _ _ _ _ _ (header_take m hd hlt hle) hlt (by omega)).mpr ⟨rfl, hlen, rfl⟩

theorem huge_not_relaxed {t : ItemType} {p d rest : List UInt8} (h : RelaxedItem t p d) (hlen : d.length < 2 ^ 64) :
    ¬ DeclaresHugeLength (d ++ rest) := by
  intro hh
  obtain ⟨t', ht⟩ := huge_header .debug _ hh
  obtain ⟨n, hn, _⟩ := relaxed_header .debug rest h hlen
  rw [hn] at ht
  cases ht

theorem decodeListLoop_cons (m : Build) (fuel : Nat) {t : ItemType} {p d : List UInt8} (rest : List UInt8) (h : RelaxedItem t p d)
    (hlen : d.length < 2 ^ 64) :
    decodeListLoop m (fuel + 1) (d ++ rest) = (decodeListLoop m fuel rest).bind fun items => .ok ((t, p) :: items) := by
  obtain ⟨n, hn, hl, hp⟩ := relaxed_header m rest h hlen
  have hne : ¬ (d ++ rest).isEmpty := by
    have := relaxed_ne_nil h
    cases d <;> simp at this ⊢
  simp only [decodeListLoop, if_neg hne, hn, out_bind_ok]
  rw [addU64_ok m (by omega)]
  simp only [out_bind_ok]
  rw [if_neg (by simp; omega), ← hl, List.take_left, List.drop_left]
  simp only [sliceFrom]
  rw [if_pos (by omega), hp]
  rfl

/-- One step of the loop, in general. -/
theorem decodeListLoop_step (m : Build) (fuel : Nat) (data : List UInt8) (hlen : data.length < 2 ^ 64) :
    (data = [] ∧ decodeListLoop m (fuel + 1) data = .ok []) ∨
    (DeclaresHugeLength data ∧ decodeListLoop m (fuel + 1) data = .panic) ∨
    (¬ DeclaresHugeLength data ∧ (∀ t p d rest, RelaxedItem t p d → data ≠ d ++ rest) ∧
      decodeListLoop m (fuel + 1) data = .err .InvalidFormat) ∨
    ∃ t p d rest, RelaxedItem t p d ∧ data = d ++ rest := by
  by_cases h0 : data = []
  · subst h0; exact Or.inl ⟨rfl, rfl⟩
  refine Or.inr ?_
  by_cases hh : DeclaresHugeLength data
  · exact Or.inl ⟨hh, decodeListLoop_huge m fuel data hh⟩
  refine Or.inr ?_
  by_cases hex : ∃ t p d rest, RelaxedItem t p d ∧ data = d ++ rest
  · exact Or.inr hex
  refine Or.inl ⟨hh, fun t p d rest h he => hex ⟨t, p, d, rest, h, he⟩, ?_⟩
  have hne : ¬ data.isEmpty := by cases data <;> simp at h0 ⊢
  rcases header_cases m data hh with h | ⟨t, n, p, h, hk⟩
  · simp only [decodeListLoop, if_neg hne, h, out_bind_err]
  · simp only [decodeListLoop, if_neg hne, h, out_bind_ok]
    rw [addU64_ok m hk.noOverflow]
    simp only [out_bind_ok]
    rw [if_pos]
    apply Classical.byContradiction
    intro hc
    exact hex ⟨_, _, _, _, header_relaxed m h hk.noOverflow (by omega), (List.take_append_drop _ _).symm⟩

theorem decodeListLoop_iff (m : Build) (fuel : Nat) (data : List UInt8) (items : List (ItemType × List UInt8)) (hf : data.length < fuel)
    (hlen : data.length < 2 ^ 64) : decodeListLoop m fuel data = .ok items ↔ RelaxedSeq items data := by
  induction fuel generalizing data items with
  | zero => omega
  | succ fuel ih =>
    constructor
    · intro h
      rcases decodeListLoop_step m fuel data hlen with ⟨rfl, h1⟩ | ⟨_, h1⟩ | ⟨_, _, h1⟩ | ⟨t, p, d, rest, hi, rfl⟩
      · rw [h1] at h; cases h; exact .nil
      · rw [h1] at h; cases h
      · rw [h1] at h; cases h
      · have hd : d.length ≠ 0 := by simpa using relaxed_ne_nil hi
        simp only [List.length_append] at hlen hf
        rw [decodeListLoop_cons m fuel rest hi (by omega)] at h
        obtain ⟨xs, h2, h3⟩ := out_bind_eq_ok.mp h
        cases h3
        exact .cons _ _ _ _ _ hi ((ih rest xs (by omega) (by omega)).mp h2)
    · intro h
      cases h with
      | nil => rfl
      | cons t p d xs ds h hs =>
        have hd : d.length ≠ 0 := by simpa using relaxed_ne_nil h
        simp only [List.length_append] at hlen hf
        rw [decodeListLoop_cons m fuel ds h (by omega), (ih ds xs (by omega) (by omega)).mpr hs]
        rfl

theorem decodeListPayload_iff (m : Build) (data : List UInt8) (items : List (ItemType × List UInt8)) (hlen : data.length < 2 ^ 64) :
    decodeListPayload m data = .ok items ↔ RelaxedSeq items data := decodeListLoop_iff m _ data items (by omega) hlen

theorem decodeListLoop_panic_iff (m : Build) (fuel : Nat) (data : List UInt8) (hf : data.length < fuel) (hlen : data.length < 2 ^ 64) :
    decodeListLoop m fuel data = .panic ↔ ∃ items a s, data = a ++ s ∧ RelaxedSeq items a ∧ DeclaresHugeLength s := by
  induction fuel generalizing data with
  | zero => omega
  | succ fuel ih =>
    constructor
    · intro h
      rcases decodeListLoop_step m fuel data hlen with ⟨rfl, h1⟩ | ⟨hh, h1⟩ | ⟨_, _, h1⟩ | ⟨t, p, d, rest, hi, rfl⟩
      · rw [h1] at h; cases h
      · exact ⟨[], [], data, rfl, .nil, hh⟩
      · rw [h1] at h; cases h
      · have hd : d.length ≠ 0 := by simpa using relaxed_ne_nil hi
        simp only [List.length_append] at hlen hf
        rw [decodeListLoop_cons m fuel rest hi (by omega)] at h
        have h2 : decodeListLoop m fuel rest = .panic := by
          cases hx : decodeListLoop m fuel rest <;> rw [hx] at h <;> first | rfl | cases h
        obtain ⟨items, a, s, rfl, hs, hh⟩ := (ih rest (by omega) (by omega)).mp h2
        exact ⟨_, d ++ a, s, by simp, .cons _ _ _ _ _ hi hs, hh⟩
    · rintro ⟨items, a, s, rfl, hs, hh⟩
      cases hs with
      | nil => exact decodeListLoop_huge m fuel s hh
      | cons t p d xs ds h hs =>
        have hd : d.length ≠ 0 := by simpa using relaxed_ne_nil h
        simp only [List.length_append] at hlen hf
        rw [List.append_assoc, decodeListLoop_cons m fuel _ h (by omega),
          (ih (ds ++ s) (by simp; omega) (by simp; omega)).mpr ⟨xs, ds, s, rfl, hs, hh⟩]
        rfl

theorem decodeListPayload_panic_iff (m : Build) (data : List UInt8) (hlen : data.length < 2 ^ 64) :
    decodeListPayload m data = .panic ↔ ∃ items a s, data = a ++ s ∧ RelaxedSeq items a ∧ DeclaresHugeLength s :=
  decodeListLoop_panic_iff m _ data (by omega) hlen

/-- Every item of the relaxed grammar is longer than its payload when it is a list. -/
theorem relaxed_list_lt {p d : List UInt8} (h : RelaxedItem .List p d) : p.length < d.length := by
  cases h <;> simp
  omega

theorem relaxed_le {t : ItemType} {p d : List UInt8} (h : RelaxedItem t p d) : p.length ≤ d.length := by
  cases h <;> simp <;> omega

/-! ## Nested items -/

theorem decVec_list {α : Type} (m : Build) (dec : Dec α) (p : List UInt8) :
    decVec m dec ⟨.List, p⟩ = (decodeListPayload m p).bind fun items => decAll dec (items.map fun x => ⟨x.1, x.2⟩) := by
  have h1 : (dassert m (ItemType.List == ItemType.List) : Out RlpErr Unit) = .ok () := by cases m <;> rfl
  simp only [decVec, h1, out_bind_ok, DecItem.decodeAsItems, ne_eq, not_true_eq_false, if_false]
  cases decodeListPayload m p <;> rfl

theorem decTree_iff (m : Build) (fuel : Nat) : ∀ (t : ItemType) (p d : List UInt8) (x : Item), RelaxedItem t p d → d.length < fuel →
    d.length < 2 ^ 64 → (decTree m fuel ⟨t, p⟩ = .ok x ↔ RelaxedTree x d) := by
  induction fuel with
  | zero => intro t p d x _ h; omega
  | succ fuel ih =>
    have all : ∀ (items : List (ItemType × List UInt8)) (data : List UInt8) (xs : List Item), RelaxedSeq items data → data.length < fuel →
        data.length < 2 ^ 64 → (decAll (decTree m fuel) (items.map fun x => ⟨x.1, x.2⟩) = .ok xs ↔ RelaxedTrees xs data) := by
      intro items
      induction items with
      | nil =>
        intro data xs hs _ _
        cases hs
        constructor
        · intro h; cases h; exact .nil
        · intro h
          generalize hd : ([] : List UInt8) = data at h
          cases h with
          | nil => rfl
          | cons x xs d ds h hs =>
            exfalso
            have : d = [] := by cases d <;> simp at hd ⊢
            cases h with
            | bytes p d h => exact relaxed_ne_nil h this
            | list xs p d hs h => exact relaxed_ne_nil h this
      | cons a items iha =>
        intro data xs hs hf hlen
        cases hs with
        | cons t p d _ ds h hs =>
          simp only [List.length_append] at hf hlen
          simp only [List.map_cons, decAll]
          constructor
          · intro hh
            obtain ⟨v, hv, hh⟩ := out_bind_eq_ok.mp hh
            obtain ⟨vs, hvs, hh⟩ := out_bind_eq_ok.mp hh
            cases hh
            exact .cons _ _ _ _ ((ih t p d v h (by omega) (by omega)).mp hv) ((iha ds vs hs (by omega) (by omega)).mp hvs)
          · intro hh
            generalize hd : d ++ ds = data at hh
            cases hh with
            | nil => 
              have := relaxed_ne_nil h
              simp at hd; exact absurd hd.1 this
            | cons x xs d' ds' hx hxs =>
              have hr : ∃ t' p', RelaxedItem t' p' d' := by
                cases hx with
                | bytes p d h => exact ⟨_, _, h⟩
                | list xs p d hs h => exact ⟨_, _, h⟩
              obtain ⟨t', p', h'⟩ := hr
              have hlen2 := congrArg List.length hd
              simp only [List.length_append] at hlen2
              obtain ⟨n1, e1, l1, _⟩ := relaxed_header m ds h (by omega)
              obtain ⟨n2, e2, l2, _⟩ := relaxed_header m ds' h' (by omega)
              rw [hd, e2] at e1
              simp only [Out.ok.injEq, Prod.mk.injEq] at e1
              obtain ⟨rfl, rfl⟩ := List.append_inj hd (by omega)
              rw [(ih t p d x h (by omega) (by omega)).mpr hx, out_bind_ok, (iha ds xs hs (by omega) (by omega)).mpr hxs]
              rfl
    intro t p d x h hf hlen
    cases t with
    | SingleValue =>
      simp only [decTree, decVecU8, ne_eq, not_true_eq_false, if_false, out_bind_ok, Out.ok.injEq]
      constructor
      · rintro rfl; exact .bytes _ _ h
      · intro hx
        have h1 := (decodeData_iff m d .SingleValue p hlen).mpr h
        cases hx with
        | bytes p' _ h' =>
          rw [(decodeData_iff m d .SingleValue p' hlen).mpr h'] at h1
          cases h1; rfl
        | list xs p' _ hs h' =>
          rw [(decodeData_iff m d .List p' hlen).mpr h'] at h1
          cases h1
    | List =>
      have hlt := relaxed_list_lt h
      simp only [decTree, decVec_list]
      constructor
      · intro hh
        obtain ⟨xs, hxs, hh⟩ := out_bind_eq_ok.mp hh
        obtain ⟨items, hi, hxs⟩ := out_bind_eq_ok.mp hxs
        cases hh
        have hs := (decodeListPayload_iff m p items (by omega)).mp hi
        exact .list _ _ _ ((all items p xs hs (by omega) (by omega)).mp hxs) h
      · intro hx
        have h1 := (decodeData_iff m d .List p hlen).mpr h
        cases hx with
        | bytes p' _ h' =>
          rw [(decodeData_iff m d .SingleValue p' hlen).mpr h'] at h1
          cases h1
        | list xs p' _ hs h' =>
          rw [(decodeData_iff m d .List p' hlen).mpr h'] at h1
          cases h1
          have hseq : ∃ items, RelaxedSeq items p := by
            clear h' h hlt hlen hf
            generalize p = q at hs
            induction xs generalizing q with
            | nil => cases hs; exact ⟨_, .nil⟩
            | cons y ys ihy =>
              cases hs with
              | cons _ _ d ds hy hys =>
                obtain ⟨items, hi⟩ := ihy ds hys
                cases hy with
                | bytes p d h => exact ⟨_, .cons _ _ _ _ _ h hi⟩
                | list xs p d hs h => exact ⟨_, .cons _ _ _ _ _ h hi⟩
          obtain ⟨items, hi⟩ := hseq
          rw [(decodeListPayload_iff m p items (by omega)).mpr hi, out_bind_ok,
            (all items p xs hi (by omega) (by omega)).mpr hs]
          rfl

theorem decodeTree_iff (m : Build) (data : List UInt8) (x : Item) (hlen : data.length < 2 ^ 64) :
    decodeTree m data = .ok x ↔ RelaxedTree x data := by
  unfold decodeTree decode DecItem.newFromData
  constructor
  · intro h
    obtain ⟨d, h1, h⟩ := out_bind_eq_ok.mp h
    obtain ⟨⟨t, p⟩, h2, h1⟩ := out_bind_eq_ok.mp h1
    cases h1
    exact (decTree_iff m _ t p data x ((decodeData_iff m data t p hlen).mp h2) (by omega) hlen).mp h
  · intro h
    have : ∃ t p, RelaxedItem t p data := by
      cases h with
      | bytes p d h => exact ⟨_, _, h⟩
      | list xs p d hs h => exact ⟨_, _, h⟩
    obtain ⟨t, p, hi⟩ := this
    rw [(decodeData_iff m data t p hlen).mpr hi]
    exact (decTree_iff m _ t p data x hi (by omega) hlen).mpr h

/-! ## The encoding is the shortest accepted form -/

theorem length_bytes_min (l : List UInt8) : minBE (ofBE l) = l ∨ (minBE (ofBE l)).length < l.length := by
  by_cases h : l.head? = some 0
  · right
    match l, h with
    | b :: l, h =>
      have hb : b = 0 := by simpa using h
      subst hb
      have e : ofBE (0 :: l) = ofBE l := ofBE_pad 1 l
      rw [e]
      have := minBE_length_le (ofBE l) l.length (ofBE_lt l)
      simp; omega
  · exact Or.inl (minBE_of_head_ne l h)

theorem encodeList_length (p : List UInt8) (h : p.length < 2 ^ 64) :
    (encodeItem .List p).length = if p.length < 56 then p.length + 1 else 1 + (minBE p.length).length + p.length := by
  rw [encodeList_eq p h, rlpListOf]
  split <;> simp
  omega

theorem minBE_length_mono {a b : Nat} (h : a ≤ b) : (minBE a).length ≤ (minBE b).length :=
  minBE_length_le a _ (Nat.lt_of_le_of_lt h (by have := ofBE_lt (minBE b); rwa [ofBE_minBE] at this))

theorem encodeList_length_lt {p q : List UInt8} (h : p.length < q.length) (hq : q.length < 2 ^ 64) :
    (encodeItem .List p).length < (encodeItem .List q).length := by
  rw [encodeList_length p (by omega), encodeList_length q hq]
  have := minBE_length_mono (Nat.le_of_lt h)
  split
  · split <;> omega
  · rw [if_neg (by omega)]; omega

theorem relaxed_shortest {t : ItemType} {p d : List UInt8} (h : RelaxedItem t p d) (hlen : d.length < 2 ^ 64) :
    d = encodeItem t p ∨ (encodeItem t p).length < d.length := by
  have hp : p.length < 2 ^ 64 := Nat.lt_of_le_of_lt (relaxed_le h) hlen
  cases h with
  | single b hb => left; rw [encodeItem_single_eq _ (by simp), rlpBytes, if_pos (by simpa using hb)]
  | short p hs =>
    rw [encodeItem_single_eq _ hp, rlpBytes]
    split
    · right; simp
    · left; rw [if_pos (by omega)]
  | long l p h1 h8 hl =>
    rw [encodeItem_single_eq _ hp, rlpBytes]
    split
    · right; simp; omega
    · split
      · right; simp; omega
      · rw [← hl]
        rcases length_bytes_min l with h | h
        · left; rw [h]
        · right; simp; omega
  | listShort p hs => left; rw [encodeList_eq _ hp, rlpListOf, if_pos (by omega)]
  | listLong l p h1 h8 hl =>
    rw [encodeList_eq _ hp, rlpListOf]
    split
    · right; simp; omega
    · rw [← hl]
      rcases length_bytes_min l with h | h
      · left; rw [h]
      · right; simp; omega

mutual
theorem tree_shortest : (x : Item) → (d : List UInt8) → RelaxedTree x d → d.length < 2 ^ 64 →
    d = treeBytes x ∨ (treeBytes x).length < d.length
  | .bytes b, d, h, hlen => by
    cases h with
    | bytes _ _ h => rw [treeBytes]; exact relaxed_shortest h hlen
  | .list xs, d, h, hlen => by
    cases h with
    | list _ p _ hs h =>
      have hp := relaxed_le h
      rw [treeBytes]
      rcases trees_shortest xs p hs (by omega) with rfl | h2
      · exact relaxed_shortest h hlen
      · right
        have h3 := encodeList_length_lt h2 (by omega)
        rcases relaxed_shortest h hlen with rfl | h4
        · exact h3
        · omega
theorem trees_shortest : (xs : List Item) → (d : List UInt8) → RelaxedTrees xs d → d.length < 2 ^ 64 →
    d = treesBytes xs ∨ (treesBytes xs).length < d.length
  | [], d, h, _ => by cases h; left; simp [treesBytes]
  | x :: xs, d, h, hlen => by
    cases h with
    | cons _ _ d ds h hs =>
      rw [List.length_append] at hlen
      rw [treesBytes]
      simp only [List.length_append]
      rcases tree_shortest x d h (by omega) with rfl | h1
      · rcases trees_shortest xs ds hs (by omega) with rfl | h2
        · left; rfl
        · right; omega
      · rcases trees_shortest xs ds hs (by omega) with rfl | h2
        · right; omega
        · right; omega
end

mutual
theorem relaxed_treeBytes : (x : Item) → (treeBytes x).length < 2 ^ 64 → RelaxedTree x (treeBytes x)
  | .bytes b, h => by
    rw [treeBytes] at h ⊢
    exact .bytes _ _ ((decodeData_iff .release _ _ _ h).mp (decodeData_encodeItem _ _ _ h))
  | .list xs, h => by
    have := payload_le .List (treesBytes xs)
    rw [treeBytes] at h ⊢
    exact .list _ _ _ (relaxed_treesBytes xs (by omega)) ((decodeData_iff .release _ _ _ h).mp (decodeData_encodeItem _ _ _ h))
theorem relaxed_treesBytes : (xs : List Item) → (treesBytes xs).length < 2 ^ 64 → RelaxedTrees xs (treesBytes xs)
  | [], _ => by rw [treesBytes]; exact .nil
  | x :: xs, h => by
    rw [treesBytes] at h ⊢
    rw [List.length_append] at h
    exact .cons _ _ _ _ (relaxed_treeBytes x (by omega)) (relaxed_treesBytes xs (by omega))
end

end LCT.Rlp
