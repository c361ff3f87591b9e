import Verif.Lemmas.RlpTotal

namespace LCT.Rlp
open LCT.Spec

theorem decodeData_of_header (m : Build) (data : List UInt8) (t t' : ItemType) (h n : Nat) (p : List UInt8)
    (hd : decodeDataHeader m data = .ok (t, h, n)) (hlt : h + n < 2 ^ 64) (hle : h ≤ data.length) :
    decodeData m data = .ok (t', p) ↔ t = t' ∧ data.length = h + n ∧ p = data.drop h := by
  simp only [decodeData, hd, out_bind_ok]
  rw [addU64_ok m hlt]
  simp only [out_bind_ok, sliceFrom]
  rw [if_pos hle]
  by_cases hc : data.length = h + n
  · rw [if_neg (by omega)]
    simp [hc, eq_comm]
  · rw [if_pos hc]; simp [hc]

theorem eq_ofNat_of_toNat {b : UInt8} {n : Nat} (h : b.toNat = n) : b = UInt8.ofNat n := by
  apply UInt8.toNat_inj.mp
  have := b.toNat_lt
  rw [ofNat_toNat_lt _ (by omega), h]

/-- The header decoder by the numeric value of the first byte. -/
theorem decodeDataHeader_cons (m : Build) (first : UInt8) (rest : List UInt8) :
    decodeDataHeader m (first :: rest) =
      if first.toNat ≤ 127 then .ok (.SingleValue, 0, 1)
      else if first.toNat ≤ 183 then .ok (.SingleValue, 1, first.toNat - 128)
      else if first.toNat ≤ 191 then decodeLongHeader m .SingleValue (first.toNat - 183) (first :: rest)
      else if first.toNat ≤ 247 then .ok (.List, 1, first.toNat - 192)
      else decodeLongHeader m .List (first.toNat - 247) (first :: rest) := by
  have hsub : ∀ k : UInt8, k.toNat ≤ first.toNat → (first - k).toNat = first.toNat - k.toNat := fun k hk => by
    rw [UInt8.toNat_sub_of_le]; rw [UInt8.le_iff_toNat_le]; exact hk
  simp only [decodeDataHeader, UInt8.le_iff_toNat_le]
  show (if first.toNat ≤ 127 then _ else if first.toNat ≤ 183 then _ else if first.toNat ≤ 191 then _
    else if first.toNat ≤ 247 then _ else _) = _
  split
  · rfl
  · rw [hsub 0x80 (by show 128 ≤ _; omega)]
    split
    · rfl
    · rw [hsub 0xb7 (by show 183 ≤ _; omega)]
      split
      · rfl
      · rw [hsub 0xc0 (by show 192 ≤ _; omega)]
        split
        · rfl
        · rw [hsub 0xf7 (by show 247 ≤ _; omega)]; rfl

/-- The long-header case, common to both item types. -/
theorem long_accept (m : Build) (t t' : ItemType) (k : Nat) (first : UInt8) (rest p : List UInt8)
    (h8 : k ≤ 8) (hlen : rest.length + 1 < 2 ^ 64)
    (hd : decodeDataHeader m (first :: rest) = decodeLongHeader m t k (first :: rest)) :
    decodeData m (first :: rest) = .ok (t', p) ↔
      t = t' ∧ ∃ l : List UInt8, rest = l ++ p ∧ l.length = k ∧ ofBE l = p.length := by
  by_cases hno : 1 + k + ofBE (rest.take k) < 2 ^ 64
  · have hlong := decodeLongHeader_ok m t k (first :: rest) (by simpa using hno)
    simp only [List.drop_succ_cons, List.drop_zero] at hlong
    by_cases hc : (first :: rest).length < 1 + k + ofBE (rest.take k)
    · rw [if_pos hc] at hlong
      rw [show decodeData m (first :: rest) = .err .InvalidFormat by simp only [decodeData, hd, hlong, out_bind_err]]
      constructor
      · intro h; cases h
      · rintro ⟨_, l, rfl, hl, ho⟩
        simp only [List.length_cons, List.length_append] at hc
        rw [← hl, List.take_left, ho] at hc
        omega
    · rw [if_neg hc] at hlong
      rw [decodeData_of_header m (first :: rest) t t' (1 + k) _ p (hd.trans hlong) (by omega) (by omega)]
      simp only [List.length_cons] at hc ⊢
      constructor
      · rintro ⟨ht, h1, h2⟩
        refine ⟨ht, rest.take k, ?_, by simp; omega, ?_⟩
        · rw [h2, Nat.add_comm 1 k, List.drop_succ_cons, List.take_append_drop]
        · rw [h2]; simp; omega
      · rintro ⟨ht, l, rfl, hl, ho⟩
        subst hl
        rw [List.take_left, ho]
        refine ⟨ht, by simp; omega, ?_⟩
        rw [Nat.add_comm 1, List.drop_succ_cons, List.drop_left]
  · -- the declared total overflows
    constructor
    · intro h
      exfalso
      by_cases hk : rest.length < k
      · rw [show decodeData m (first :: rest) = .err .InvalidFormat by
          simp only [decodeData, hd, decodeLongHeader]; rw [if_pos (by simp; omega)]; rfl] at h
        cases h
      · have hlt : ofBE (rest.take k) < 256 ^ k := ofBE_take_lt rest k
        have h9 : (256 : Nat) ^ k ≤ 256 ^ 8 := Nat.pow_le_pow_right (by decide) h8
        have h10 : (256 : Nat) ^ 8 = 2 ^ 64 := by decide
        simp only [decodeData, hd, decodeLongHeader, fromBE_eq, ofBE_pad, List.drop_succ_cons, List.drop_zero] at h
        rw [if_neg (by simp; omega)] at h
        cases m with
        | debug => rw [addU64_debug _ _ hno] at h; cases h
        | release =>
          rw [addU64_release _ _ hno] at h
          simp only [out_bind_ok] at h
          rw [if_neg (by simp; omega)] at h
          simp only [out_bind_ok] at h
          rw [addU64_release _ _ hno] at h
          simp only [out_bind_ok] at h
          rw [if_pos (by simp; omega)] at h
          cases h
    · rintro ⟨_, l, rfl, hl, ho⟩
      exfalso
      subst hl
      rw [List.take_left, ho] at hno
      simp only [List.length_append] at hlen
      omega

theorem decodeData_iff (m : Build) (data : List UInt8) (t : ItemType) (p : List UInt8) (hlen : data.length < 2 ^ 64) :
    decodeData m data = .ok (t, p) ↔ RelaxedItem t p data := by
  match data, hlen with
  | [], _ =>
    constructor
    · intro h; cases h
    · intro h; cases h
  | first :: rest, hlen =>
    have hb := first.toNat_lt
    simp only [List.length_cons] at hlen
    constructor
    · intro h
      have hc := decodeDataHeader_cons m first rest
      split at hc
      · rename_i c1
        rw [decodeData_of_header m _ _ _ _ _ p hc (by omega) (by omega)] at h
        obtain ⟨rfl, h1, rfl⟩ := h
        have : rest = [] := by simpa using h1
        subst this
        exact .single first (by omega)
      · split at hc
        · rename_i c1 c2
          rw [decodeData_of_header m _ _ _ _ _ p hc (by omega) (by simp)] at h
          obtain ⟨rfl, h1, rfl⟩ := h
          simp only [List.length_cons] at h1
          have he : first = UInt8.ofNat (128 + p.length) := eq_ofNat_of_toNat (by omega)
          rw [he]
          exact .short p (by omega)
        · split at hc
          · rename_i c1 c2 c3
            rw [long_accept m .SingleValue t _ first rest p (by omega) (by omega) hc] at h
            obtain ⟨rfl, l, rfl, hl, ho⟩ := h
            have he : first = UInt8.ofNat (183 + l.length) := eq_ofNat_of_toNat (by omega)
            rw [he]
            exact .long l p (by omega) (by omega) ho
          · split at hc
            · rename_i c1 c2 c3 c4
              rw [decodeData_of_header m _ _ _ _ _ p hc (by omega) (by simp)] at h
              obtain ⟨rfl, h1, rfl⟩ := h
              simp only [List.length_cons] at h1
              have he : first = UInt8.ofNat (192 + p.length) := eq_ofNat_of_toNat (by omega)
              rw [he]
              exact .listShort p (by omega)
            · rename_i c1 c2 c3 c4
              rw [long_accept m .List t _ first rest p (by omega) (by omega) hc] at h
              obtain ⟨rfl, l, rfl, hl, ho⟩ := h
              have he : first = UInt8.ofNat (247 + l.length) := eq_ofNat_of_toNat (by omega)
              rw [he]
              exact .listLong l p (by omega) (by omega) ho
    · intro h
      generalize hdata : first :: rest = data at h
      cases h with
      | single b h =>
        have hc := decodeDataHeader_cons m b []
        rw [if_pos (by omega)] at hc
        rw [decodeData_of_header m _ _ _ _ _ _ hc (by omega) (by omega)]
        simp
      | short p h =>
        have e := ofNat_toNat_lt (128 + p.length) (by omega)
        have hc := decodeDataHeader_cons m (UInt8.ofNat (128 + p.length)) p
        rw [e, if_neg (by omega), if_pos (by omega)] at hc
        rw [decodeData_of_header m _ _ _ _ _ _ hc (by omega) (by simp)]
        simp; omega
      | long l p h1 h8 hl =>
        have e := ofNat_toNat_lt (183 + l.length) (by omega)
        have hc := decodeDataHeader_cons m (UInt8.ofNat (183 + l.length)) (l ++ p)
        rw [e, if_neg (by omega), if_neg (by omega), if_pos (by omega)] at hc
        have hlen' : (l ++ p).length + 1 < 2 ^ 64 := by
          have := congrArg List.length hdata
          simp only [List.length_cons, List.length_append] at this ⊢; omega
        exact (long_accept m .SingleValue .SingleValue _ _ (l ++ p) p (by omega) hlen' hc).mpr
          ⟨rfl, l, rfl, by omega, hl⟩
      | listShort p h =>
        have e := ofNat_toNat_lt (192 + p.length) (by omega)
        have hc := decodeDataHeader_cons m (UInt8.ofNat (192 + p.length)) p
        rw [e, if_neg (by omega), if_neg (by omega), if_neg (by omega), if_pos (by omega)] at hc
        rw [decodeData_of_header m _ _ _ _ _ _ hc (by omega) (by simp)]
        simp; omega
      | listLong l p h1 h8 hl =>
        have e := ofNat_toNat_lt (247 + l.length) (by omega)
        have hc := decodeDataHeader_cons m (UInt8.ofNat (247 + l.length)) (l ++ p)
        rw [e, if_neg (by omega), if_neg (by omega), if_neg (by omega), if_neg (by omega)] at hc
        have hlen' : (l ++ p).length + 1 < 2 ^ 64 := by
          have := congrArg List.length hdata
          simp only [List.length_cons, List.length_append] at this ⊢; omega
        exact (long_accept m .List .List _ _ (l ++ p) p (by omega) hlen' hc).mpr
          ⟨rfl, l, rfl, by omega, hl⟩

/-- Length bytes without a leading zero are the shortest form. -/
theorem minBE_of_head_ne (l : List UInt8) (h : l.head? ≠ some 0) : minBE (ofBE l) = l := by
  cases l with
  | nil => simp [ofBE_nil, minBE_zero]
  | cons b bs => exact minBE_ofBE_of_head b bs (by simpa using h)

theorem minBE_head?_ne (n : Nat) : (minBE n).head? ≠ some 0 := by
  cases h : minBE n with
  | nil => simp
  | cons b bs => simpa using minBE_head_ne_zero n b bs h

theorem encodeItem_single_eq (p : List UInt8) (h : p.length < 2 ^ 64) : encodeItem .SingleValue p = rlpBytes p :=
  encodeSingle_eq p h

theorem canonical_iff (t : ItemType) (p data : List UInt8) (hlen : data.length < 2 ^ 64) (h : RelaxedItem t p data) :
    data = encodeItem t p ↔ ShortestHeader data := by
  cases h with
  | single b hb =>
    rw [encodeItem_single_eq _ (by simp), rlpBytes, if_pos (by simpa using hb)]
    simp only [ShortestHeader, true_iff]
    exact ⟨fun h => by omega, fun h => by omega, fun h => by omega⟩
  | short p hp =>
    have e := ofNat_toNat_lt (128 + p.length) (by omega)
    rw [encodeItem_single_eq _ (by omega), rlpBytes]
    simp only [ShortestHeader, e]
    by_cases hc : p.length = 1 ∧ ∀ b ∈ p, b.toNat < 128
    · rw [if_pos hc]
      match p, hc.1 with
      | [b], _ =>
        have := hc.2 b (by simp)
        simp; omega
    · rw [if_neg hc, if_pos (by omega)]
      simp only [true_iff]
      refine ⟨fun h => ?_, fun h => by omega, fun h => by omega⟩
      match p, (show p.length = 1 by omega) with
      | [b], _ => simpa using hc
  | long l p h1 h8 hl =>
    have e := ofNat_toNat_lt (183 + l.length) (by omega)
    have hp : p.length < 2 ^ 64 := by simp at hlen; omega
    rw [encodeItem_single_eq _ hp, rlpBytes]
    simp only [ShortestHeader, e, List.cons_append]
    have e2 : 183 + l.length - 183 = l.length := by omega
    have hh : (l ++ p).head? = l.head? := by cases l <;> simp at h1 ⊢
    rw [e2, List.take_left, hl, hh]
    constructor
    · intro he
      have h56 : 56 ≤ p.length := by
        have hlen' := congrArg List.length he
        apply Classical.byContradiction
        intro hc
        split at hlen'
        · simp only [List.length_cons, List.length_append] at hlen'; omega
        · rw [if_pos (by omega)] at hlen'; simp only [List.length_cons, List.length_append] at hlen'; omega
      rw [if_neg (by omega), if_neg (by omega)] at he
      simp only [List.cons.injEq] at he
      have : l = minBE p.length := List.append_cancel_right he.2
      refine ⟨fun h => by omega, fun _ => ⟨?_, h56⟩, fun h => by omega⟩
      rw [this]; exact minBE_head?_ne _
    · rintro ⟨_, h, _⟩
      obtain ⟨ha, hb⟩ := h (by omega)
      rw [if_neg (by omega), if_neg (by omega)]
      have : minBE p.length = l := by rw [← hl]; exact minBE_of_head_ne l ha
      rw [this]
  | listShort p hp =>
    have e := ofNat_toNat_lt (192 + p.length) (by omega)
    rw [encodeList_eq _ (by omega), rlpListOf, if_pos (by omega)]
    simp only [ShortestHeader, e, true_iff]
    exact ⟨fun h => by omega, fun h => by omega, fun h => by omega⟩
  | listLong l p h1 h8 hl =>
    have e := ofNat_toNat_lt (247 + l.length) (by omega)
    have hp : p.length < 2 ^ 64 := by simp at hlen; omega
    rw [encodeList_eq _ hp, rlpListOf]
    simp only [ShortestHeader, e, List.cons_append]
    have e2 : 247 + l.length - 247 = l.length := by omega
    have hh : (l ++ p).head? = l.head? := by cases l <;> simp at h1 ⊢
    rw [e2, List.take_left, hl, hh]
    constructor
    · intro he
      have h56 : 56 ≤ p.length := by
        have hlen' := congrArg List.length he
        apply Classical.byContradiction
        intro hc
        rw [if_pos (by omega)] at hlen'; simp only [List.length_cons, List.length_append] at hlen'; omega
      rw [if_neg (by omega)] at he
      simp only [List.cons.injEq] at he
      have : l = minBE p.length := List.append_cancel_right he.2
      refine ⟨fun h => by omega, fun h => by omega, fun _ => ⟨?_, h56⟩⟩
      rw [this]; exact minBE_head?_ne _
    · rintro ⟨_, _, h⟩
      obtain ⟨ha, hb⟩ := h (by omega)
      rw [if_neg (by omega)]
      have : minBE p.length = l := by rw [← hl]; exact minBE_of_head_ne l ha
      rw [this]

end LCT.Rlp
