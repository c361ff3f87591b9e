import Verif.Lemmas.RlpTree

namespace LCT.Rlp
open LCT.Spec

theorem addU64_lt {ε : Type} (m : Build) (a b r : Nat) (h : (addU64 m a b : Out ε Nat) = .ok r) : r < 2 ^ 64 := by
  unfold addU64 at h
  split at h
  · cases h; assumption
  · cases m <;> simp at h
    omega

theorem addU64_debug {ε : Type} (a b : Nat) (h : ¬ a + b < 2 ^ 64) : (addU64 .debug a b : Out ε Nat) = .panic := by
  simp only [addU64]; rw [if_neg h]

theorem addU64_release {ε : Type} (a b : Nat) (h : ¬ a + b < 2 ^ 64) :
    (addU64 .release a b : Out ε Nat) = .ok ((a + b) % 2 ^ 64) := by
  simp only [addU64]; rw [if_neg h]

/-- Result of the long-header decoder when the total does not overflow. -/
theorem decodeLongHeader_ok (m : Build) (t : ItemType) (l : Nat) (data : List UInt8)
    (hl : 1 + l + ofBE ((data.drop 1).take l) < 2 ^ 64) :
    decodeLongHeader m t l data =
      if data.length < 1 + l + ofBE ((data.drop 1).take l) then .err .InvalidFormat
      else .ok (t, 1 + l, ofBE ((data.drop 1).take l)) := by
  unfold decodeLongHeader
  simp only [fromBE_eq, ofBE_pad]
  rw [addU64_ok m hl]
  simp only [out_bind_ok]
  by_cases h : data.length < 1 + l
  · rw [if_pos h, if_pos (by omega)]
  · rw [if_neg h]

theorem ofBE_take_lt (bs : List UInt8) (l : Nat) : ofBE (bs.take l) < 256 ^ l :=
  Nat.lt_of_lt_of_le (ofBE_lt _) (Nat.pow_le_pow_right (by decide) (by simp; omega))

/-- With at most 7 length bytes nothing overflows. -/
theorem long_no_overflow (bs : List UInt8) (l : Nat) (hl : l ≤ 7) : 1 + l + ofBE (bs.take l) < 2 ^ 64 := by
  have h1 := ofBE_take_lt bs l
  have h2 : 256 ^ l ≤ 256 ^ 7 := Nat.pow_le_pow_right (by decide) hl
  have : (256 : Nat) ^ 7 = 2 ^ 56 := by decide
  omega

/-- What the header decoder can return when the header does not declare a huge length. -/
structure HeaderOk (data : List UInt8) (h p : Nat) : Prop where
  noOverflow : h + p < 2 ^ 64
  headerLe : h ≤ data.length
  pos : 0 < h + p
  le9 : h ≤ 9

theorem long_cases (m : Build) (t : ItemType) (l : Nat) (first : UInt8) (rest : List UInt8)
    (h1 : 1 ≤ l) (h8 : l ≤ 8) (hno : 1 + l + ofBE (rest.take l) < 2 ^ 64) :
    decodeLongHeader m t l (first :: rest) = .err .InvalidFormat ∨
    (∃ p, decodeLongHeader m t l (first :: rest) = .ok (t, 1 + l, p) ∧ HeaderOk (first :: rest) (1 + l) p ∧
      p = ofBE (rest.take l) ∧ 1 + l + p ≤ (first :: rest).length) := by
  have := decodeLongHeader_ok m t l (first :: rest) (by simpa using hno)
  rw [this]
  by_cases h : (first :: rest).length < 1 + l + ofBE (((first :: rest).drop 1).take l)
  · left; rw [if_pos h]
  · right
    rw [if_neg h]
    simp only [List.drop_succ_cons, List.drop_zero] at h ⊢
    exact ⟨_, rfl, ⟨by omega, by omega, by omega, by omega⟩, rfl, by omega⟩

theorem header_cases (m : Build) (data : List UInt8) (hn : ¬ DeclaresHugeLength data) :
    decodeDataHeader m data = .err .InvalidFormat ∨
    ∃ t h p, decodeDataHeader m data = .ok (t, h, p) ∧ HeaderOk data h p := by
  match data, hn with
  | [], _ => left; rfl
  | first :: rest, hn =>
    have hlt := first.toNat_lt
    simp only [decodeDataHeader]
    by_cases c1 : first ≤ 0x7f
    · rw [if_pos c1]; right
      exact ⟨_, _, _, rfl, ⟨by omega, by simp, by omega, by omega⟩⟩
    rw [if_neg c1]
    by_cases c2 : first ≤ 0xb7
    · rw [if_pos c2]; right
      have := (first - 0x80).toNat_lt
      exact ⟨_, _, _, rfl, ⟨by omega, by simp, by omega, by omega⟩⟩
    rw [if_neg c2]
    by_cases c3 : first ≤ 0xbf
    · rw [if_pos c3]
      have g2 : 183 < first.toNat := by rw [UInt8.le_iff_toNat_le] at c2; exact Nat.lt_of_not_le c2
      have g3 : first.toNat ≤ 191 := by rw [UInt8.le_iff_toNat_le] at c3; exact c3
      have e : (first - 0xb7).toNat = first.toNat - 183 := by
        rw [UInt8.toNat_sub_of_le]
        · rfl
        · rw [UInt8.le_iff_toNat_le]; show 183 ≤ _; omega
      rw [e]
      have hno : 1 + (first.toNat - 183) + ofBE (rest.take (first.toNat - 183)) < 2 ^ 64 := by
        by_cases h7 : first.toNat - 183 ≤ 7
        · exact long_no_overflow rest _ h7
        · have h191 : first.toNat = 191 := by omega
          rw [h191]
          show 1 + 8 + ofBE (rest.take 8) < _
          have hb : first = 0xbf := by apply UInt8.toNat_inj.mp; rw [h191]; rfl
          by_cases hr : 8 ≤ rest.length
          · have hb' : ¬ (2 ^ 64 - 9 ≤ ofBE (rest.take 8)) := fun hh => hn ⟨Or.inl hb, hr, hh⟩
            omega
          · have h1 : ofBE (rest.take 8) < 256 ^ 7 :=
              Nat.lt_of_lt_of_le (ofBE_lt _) (Nat.pow_le_pow_right (by decide) (by simp; omega))
            have : (256 : Nat) ^ 7 = 2 ^ 56 := by decide
            omega
      rcases long_cases m .SingleValue (first.toNat - 183) first rest (by omega) (by omega) hno with h | ⟨p, h, hk, _⟩
      · left; exact h
      · right; exact ⟨_, _, _, h, hk⟩
    rw [if_neg c3]
    by_cases c4 : first ≤ 0xf7
    · rw [if_pos c4]; right
      have := (first - 0xc0).toNat_lt
      exact ⟨_, _, _, rfl, ⟨by omega, by simp, by omega, by omega⟩⟩
    · rw [if_neg c4]
      have g2 : 247 < first.toNat := by rw [UInt8.le_iff_toNat_le] at c4; exact Nat.lt_of_not_le c4
      have e : (first - 0xf7).toNat = first.toNat - 247 := by
        rw [UInt8.toNat_sub_of_le]
        · rfl
        · rw [UInt8.le_iff_toNat_le]; show 247 ≤ _; omega
      rw [e]
      have hno : 1 + (first.toNat - 247) + ofBE (rest.take (first.toNat - 247)) < 2 ^ 64 := by
        by_cases h7 : first.toNat - 247 ≤ 7
        · exact long_no_overflow rest _ h7
        · have h191 : first.toNat = 255 := by omega
          rw [h191]
          show 1 + 8 + ofBE (rest.take 8) < _
          have hb : first = 0xff := by apply UInt8.toNat_inj.mp; rw [h191]; rfl
          by_cases hr : 8 ≤ rest.length
          · have hb' : ¬ (2 ^ 64 - 9 ≤ ofBE (rest.take 8)) := fun hh => hn ⟨Or.inr hb, hr, hh⟩
            omega
          · have h1 : ofBE (rest.take 8) < 256 ^ 7 :=
              Nat.lt_of_lt_of_le (ofBE_lt _) (Nat.pow_le_pow_right (by decide) (by simp; omega))
            have : (256 : Nat) ^ 7 = 2 ^ 56 := by decide
            omega
      rcases long_cases m .List (first.toNat - 247) first rest (by omega) (by omega) hno with h | ⟨p, h, hk, _⟩
      · left; exact h
      · right; exact ⟨_, _, _, h, hk⟩

theorem decodeData_returns (m : Build) (data : List UInt8) (hn : ¬ DeclaresHugeLength data) :
    (decodeData m data).Returns := by
  rcases header_cases m data hn with h | ⟨t, hl, p, h, hk⟩
  · simp only [decodeData, h, out_bind_err]; exact Out.Returns.err _
  · simp only [decodeData, h, out_bind_ok]
    rw [addU64_ok m hk.noOverflow]
    simp only [out_bind_ok]
    split
    · exact Out.Returns.err _
    · simp only [sliceFrom]
      rw [if_pos hk.headerLe]
      exact Out.Returns.ok _

theorem huge_long (m : Build) (t : ItemType) (b : UInt8) (rest : List UInt8) (hl : 8 ≤ rest.length)
    (hh : 2 ^ 64 - 9 ≤ ofBE (rest.take 8)) :
    decodeLongHeader m t 8 (b :: rest) =
      match m with
      | .debug => .panic
      | .release => .ok (t, 9, ofBE (rest.take 8)) := by
  have hlt : ofBE (rest.take 8) < 256 ^ 8 := ofBE_take_lt rest 8
  have : (256 : Nat) ^ 8 = 2 ^ 64 := by decide
  unfold decodeLongHeader
  rw [if_neg (by simp; omega)]
  simp only [fromBE_eq, ofBE_pad, List.drop_succ_cons, List.drop_zero]
  cases m with
  | debug => rw [addU64_debug _ _ (by omega)]; rfl
  | release =>
    rw [addU64_release _ _ (by omega)]
    simp only [out_bind_ok]
    rw [if_neg (by simp; omega)]

theorem huge_header (m : Build) (data : List UInt8) (hh : DeclaresHugeLength data) :
    ∃ t, decodeDataHeader m data =
      match m with
      | .debug => .panic
      | .release => .ok (t, 9, ofBE ((data.drop 1).take 8)) := by
  match data, hh with
  | b :: rest, ⟨hb, hl, hh⟩ =>
    rcases hb with rfl | rfl
    · refine ⟨.SingleValue, ?_⟩
      have e : decodeDataHeader m (0xbf :: rest) = decodeLongHeader m .SingleValue 8 (0xbf :: rest) := rfl
      rw [e, huge_long m .SingleValue _ rest hl hh]
      cases m <;> rfl
    · refine ⟨.List, ?_⟩
      have e : decodeDataHeader m (0xff :: rest) = decodeLongHeader m .List 8 (0xff :: rest) := rfl
      rw [e, huge_long m .List _ rest hl hh]
      cases m <;> rfl

theorem huge_bounds (data : List UInt8) (hh : DeclaresHugeLength data) :
    9 ≤ data.length ∧ 2 ^ 64 - 9 ≤ ofBE ((data.drop 1).take 8) ∧ ofBE ((data.drop 1).take 8) < 2 ^ 64 := by
  match data, hh with
  | b :: rest, ⟨_, hl, hh⟩ =>
    have hlt : ofBE (rest.take 8) < 256 ^ 8 := ofBE_take_lt rest 8
    have : (256 : Nat) ^ 8 = 2 ^ 64 := by decide
    exact ⟨by simp; omega, hh, by simpa [this] using hlt⟩

theorem decodeData_huge (m : Build) (data : List UInt8) (hh : DeclaresHugeLength data) :
    decodeData m data = match m with
      | .debug => .panic
      | .release => .err .InvalidFormat := by
  obtain ⟨t, ht⟩ := huge_header m data hh
  obtain ⟨h9, hb1, hb2⟩ := huge_bounds data hh
  cases m with
  | debug => simp only [decodeData, ht]; rfl
  | release =>
    simp only [decodeData, ht, out_bind_ok]
    rw [addU64_release _ _ (by omega)]
    simp only [out_bind_ok]
    rw [if_pos (by omega)]

theorem decodeListLoop_huge (m : Build) (fuel : Nat) (data : List UInt8) (hh : DeclaresHugeLength data) :
    decodeListLoop m (fuel + 1) data = .panic := by
  obtain ⟨t, ht⟩ := huge_header m data hh
  obtain ⟨h9, hb1, hb2⟩ := huge_bounds data hh
  have hne : ¬ data.isEmpty := by cases data <;> simp at h9 ⊢
  cases m with
  | debug => simp only [decodeListLoop, if_neg hne, ht]; rfl
  | release =>
    simp only [decodeListLoop, if_neg hne, ht, out_bind_ok]
    rw [addU64_release _ _ (by omega)]
    simp only [out_bind_ok]
    rw [if_neg (by omega)]
    have : (sliceFrom (List.take ((9 + ofBE (List.take 8 (List.drop 1 data))) % 2 ^ 64) data) 9 : Out RlpErr _) = .panic := by
      unfold sliceFrom
      rw [if_neg (by rw [List.length_take]; omega)]
    rw [this]; rfl

theorem decodeListLoop_returns (m : Build) (fuel : Nat) (data : List UInt8) (hf : data.length < fuel)
    (hn : ∀ s, s <:+ data → ¬ DeclaresHugeLength s) : (decodeListLoop m fuel data).Returns := by
  induction fuel generalizing data with
  | zero => omega
  | succ fuel ih =>
    simp only [decodeListLoop]
    split
    · exact Out.Returns.ok _
    · rcases header_cases m data (hn data List.suffix_rfl) with h | ⟨t, hl, p, h, hk⟩
      · simp only [h, out_bind_err]; exact Out.Returns.err _
      · simp only [h, out_bind_ok]
        rw [addU64_ok m hk.noOverflow]
        simp only [out_bind_ok]
        split
        · exact Out.Returns.err _
        · rename_i hlen
          have hs : hl ≤ (List.take (hl + p) data).length := by simp; have := hk.headerLe; omega
          simp only [sliceFrom]
          rw [if_pos hs]
          simp only [out_bind_ok]
          have hpos := hk.pos
          have := ih (data.drop (hl + p)) (by simp; omega)
            (fun s hs => hn s (hs.trans (List.drop_suffix _ _)))
          rcases this with ⟨a, ha⟩ | ⟨e, he⟩
          · rw [ha]; exact Out.Returns.ok _
          · rw [he]; exact Out.Returns.err _

/-- Running out of fuel does not happen: `decodeListPayload` never returns `hang`. -/
theorem decodeListLoop_ne_hang (m : Build) (fuel : Nat) (data : List UInt8) (hf : data.length < fuel) :
    decodeListLoop m fuel data ≠ .hang := by
  induction fuel generalizing data with
  | zero => omega
  | succ fuel ih =>
    by_cases hh : DeclaresHugeLength data
    · rw [decodeListLoop_huge m fuel data hh]; simp
    · simp only [decodeListLoop]
      split
      · simp
      · rcases header_cases m data hh with h | ⟨t, hl, p, h, hk⟩
        · simp only [h, out_bind_err]; simp
        · simp only [h, out_bind_ok]
          rw [addU64_ok m hk.noOverflow]
          simp only [out_bind_ok]
          split
          · simp
          · rename_i hlen
            have hs : hl ≤ (List.take (hl + p) data).length := by simp; have := hk.headerLe; omega
            simp only [sliceFrom]
            rw [if_pos hs]
            simp only [out_bind_ok]
            have hpos := hk.pos
            have := ih (data.drop (hl + p)) (by simp; omega)
            revert this
            cases decodeListLoop m fuel (data.drop (hl + p)) <;> simp

end LCT.Rlp
