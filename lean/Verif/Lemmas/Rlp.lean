import Verif.Lemmas.Bytes
import Verif.Spec.Rlp

namespace LCT.Rlp
open LCT.Spec

@[simp] theorem out_bind_ok {ε α β : Type} (a : α) (f : α → Out ε β) : (Out.ok a).bind f = f a := rfl
@[simp] theorem out_bind_err {ε α β : Type} (e : ε) (f : α → Out ε β) : (Out.err e : Out ε α).bind f = .err e := rfl
@[simp] theorem out_bind_panic {ε α β : Type} (f : α → Out ε β) : (Out.panic : Out ε α).bind f = .panic := rfl
@[simp] theorem out_bind_hang {ε α β : Type} (f : α → Out ε β) : (Out.hang : Out ε α).bind f = .hang := rfl

theorem out_bind_eq_ok {ε α β : Type} {x : Out ε α} {f : α → Out ε β} {b : β} :
    x.bind f = .ok b ↔ ∃ a, x = .ok a ∧ f a = .ok b := by
  cases x <;> simp

theorem addU64_ok {ε : Type} (m : Build) {a b : Nat} (h : a + b < 2 ^ 64) : (addU64 m a b : Out ε Nat) = .ok (a + b) := by
  simp only [addU64]; rw [if_pos h]

theorem uint8_ofNat_add (a b : Nat) : UInt8.ofNat a + UInt8.ofNat b = UInt8.ofNat (a + b) := by
  simp

theorem head_lt_iff (payload : List UInt8) (h : payload.length = 1) :
    payload.headD 0 < 0x80 ↔ ∀ b ∈ payload, b.toNat < 128 := by
  match payload, h with
  | [b], _ => simp [UInt8.lt_iff_toNat_lt]

theorem lengthBytes_eq (n : Nat) (h : n < 2 ^ 64) : stripLeadingZeros (toBEk 8 n) = minBE n :=
  strip_toBEk 8 n (by simpa using h)

theorem lenLen_pos (n : Nat) (h : 56 ≤ n) : 1 ≤ (minBE n).length := by
  have h1 : minBE n ≠ [] := fun he => by rw [minBE_eq_nil] at he; omega
  have := List.length_pos_iff.mpr h1
  omega

theorem lenLen_le (n : Nat) (h : n < 2 ^ 64) : (minBE n).length ≤ 8 :=
  minBE_length_le n 8 (by simpa using h)

/-- The model's encoder is the Yellow Paper's, for payloads shorter than `2^64`. -/
theorem encodeSingle_eq (p : List UInt8) (h : p.length < 2 ^ 64) : encodeSingleValue p = rlpBytes p := by
  unfold encodeSingleValue encodeItem encodePayloadLength rlpBytes
  by_cases h1 : p.length = 1
  · by_cases h2 : p.headD 0 < 0x80
    · rw [if_pos ⟨rfl, h1, h2⟩, if_pos ⟨h1, (head_lt_iff p h1).mp h2⟩]; rfl
    · rw [if_neg (fun hh => h2 hh.2.2), if_pos (by omega), if_neg (by rw [← head_lt_iff p h1]; exact fun hh => h2 hh.2),
        if_pos (by omega)]
      simp [h1]
  · rw [if_neg (fun hh => h1 hh.2.1), if_neg (fun hh : _ ∧ _ => h1 hh.1)]
    by_cases h56 : p.length < 56
    · rw [if_pos h56, if_pos h56]
      show (UInt8.ofNat 128 + UInt8.ofNat p.length) :: p = _
      rw [uint8_ofNat_add]
    · rw [if_neg h56, if_neg h56]
      simp only [lengthBytes_eq p.length h]
      show (UInt8.ofNat 183 + UInt8.ofNat _) :: (minBE p.length ++ p) = _
      rw [uint8_ofNat_add]; rfl

theorem encodeList_eq (p : List UInt8) (h : p.length < 2 ^ 64) : encodeItem .List p = rlpListOf p := by
  unfold encodeItem encodePayloadLength rlpListOf
  rw [if_neg (by simp)]
  by_cases h56 : p.length < 56
  · rw [if_pos h56, if_pos h56]
    show (UInt8.ofNat 192 + UInt8.ofNat p.length) :: p = _
    rw [uint8_ofNat_add]
  · rw [if_neg h56, if_neg h56]
    simp only [lengthBytes_eq p.length h]
    show (UInt8.ofNat 247 + UInt8.ofNat _) :: (minBE p.length ++ p) = _
    rw [uint8_ofNat_add]; rfl

theorem decodeLongHeader_canonical (m : Build) (t : ItemType) (b : UInt8) (n : Nat) (rest : List UInt8)
    (hn : n < 2 ^ 64) (hlen : 1 + (minBE n).length + rest.length < 2 ^ 64) (hr : n ≤ rest.length) :
    decodeLongHeader m t (minBE n).length (b :: minBE n ++ rest) = .ok (t, 1 + (minBE n).length, n) := by
  unfold decodeLongHeader
  have hl := lenLen_le n hn
  rw [if_neg (by simp; omega)]
  have e1 : ((b :: minBE n ++ rest).drop 1).take (minBE n).length = minBE n := by simp
  simp only [e1, fromBE_eq, ofBE_pad, ofBE_minBE]
  rw [addU64_ok m (by omega)]
  simp only [out_bind_ok]
  rw [if_neg (by simp; omega)]

theorem ofNat_toNat_lt (n : Nat) (h : n < 256) : (UInt8.ofNat n).toNat = n := by simp; omega

/-- Decoding the header of a canonical encoding, whatever follows. -/
theorem decodeDataHeader_encode (m : Build) (t : ItemType) (p rest : List UInt8)
    (h : (encodeItem t p ++ rest).length < 2 ^ 64) :
    decodeDataHeader m (encodeItem t p ++ rest) = .ok (t, (encodePayloadLength t p).length, p.length) := by
  have hp : p.length < 2 ^ 64 := by simp [encodeItem] at h; omega
  unfold encodeItem at *
  unfold encodePayloadLength at *
  by_cases h1 : t = .SingleValue ∧ p.length = 1 ∧ p.headD 0 < 0x80
  · rw [if_pos h1]
    obtain ⟨ht, hl, hb⟩ := h1
    match p, hl with
    | [b], _ =>
      simp only [List.headD_cons] at hb
      have hb' : b ≤ 0x7f := by
        rw [UInt8.le_iff_toNat_le]; rw [UInt8.lt_iff_toNat_lt] at hb
        have e : (0x80 : UInt8).toNat = 128 := rfl
        have e2 : (0x7f : UInt8).toNat = 127 := rfl
        omega
      simp [decodeDataHeader, hb', ht]
  · rw [if_neg h1] at h ⊢
    by_cases h56 : p.length < 56
    · rw [if_pos h56] at h ⊢
      cases t with
      | SingleValue =>
        have e : (0x80 + UInt8.ofNat p.length).toNat = 128 + p.length := by
          rw [UInt8.toNat_add, ofNat_toNat_lt _ (by omega)]
          show (128 + p.length) % 2 ^ 8 = _; omega
        have c1 : ¬ (0x80 + UInt8.ofNat p.length ≤ 0x7f) := by
          rw [UInt8.le_iff_toNat_le, e]; show ¬ (_ ≤ 127); omega
        have c2 : 0x80 + UInt8.ofNat p.length ≤ 0xb7 := by
          rw [UInt8.le_iff_toNat_le, e]; show _ ≤ 183; omega
        have e2 : (0x80 + UInt8.ofNat p.length - 0x80).toNat = p.length := by
          rw [UInt8.toNat_sub_of_le]
          · rw [e]; show 128 + p.length - 128 = _; omega
          · rw [UInt8.le_iff_toNat_le, e]; show 128 ≤ _; omega
        simp only [decodeDataHeader, List.cons_append, List.nil_append, if_neg c1, if_pos c2, e2, List.length_singleton]
      | List =>
        have e : (0xc0 + UInt8.ofNat p.length).toNat = 192 + p.length := by
          rw [UInt8.toNat_add, ofNat_toNat_lt _ (by omega)]
          show (192 + p.length) % 2 ^ 8 = _; omega
        have c1 : ¬ (0xc0 + UInt8.ofNat p.length ≤ 0x7f) := by
          rw [UInt8.le_iff_toNat_le, e]; show ¬ (_ ≤ 127); omega
        have c2 : ¬ (0xc0 + UInt8.ofNat p.length ≤ 0xb7) := by
          rw [UInt8.le_iff_toNat_le, e]; show ¬ (_ ≤ 183); omega
        have c3 : ¬ (0xc0 + UInt8.ofNat p.length ≤ 0xbf) := by
          rw [UInt8.le_iff_toNat_le, e]; show ¬ (_ ≤ 191); omega
        have c4 : 0xc0 + UInt8.ofNat p.length ≤ 0xf7 := by
          rw [UInt8.le_iff_toNat_le, e]; show _ ≤ 247; omega
        have e2 : (0xc0 + UInt8.ofNat p.length - 0xc0).toNat = p.length := by
          rw [UInt8.toNat_sub_of_le]
          · rw [e]; show 192 + p.length - 192 = _; omega
          · rw [UInt8.le_iff_toNat_le, e]; show 192 ≤ _; omega
        simp only [decodeDataHeader, List.cons_append, List.nil_append, if_neg c1, if_neg c2, if_neg c3, if_pos c4, e2,
          List.length_singleton]
    · rw [if_neg h56] at h ⊢
      simp only [lengthBytes_eq p.length hp] at h ⊢
      have l1 := lenLen_pos p.length (by omega)
      have l8 := lenLen_le p.length hp
      simp only [List.cons_append, List.length_cons, List.length_append, List.append_assoc] at h
      cases t with
      | SingleValue =>
        have e : (0xb7 + UInt8.ofNat (minBE p.length).length).toNat = 183 + (minBE p.length).length := by
          rw [UInt8.toNat_add, ofNat_toNat_lt _ (by omega)]
          show (183 + (minBE p.length).length) % 2 ^ 8 = _; omega
        have c1 : ¬ (0xb7 + UInt8.ofNat (minBE p.length).length ≤ 0x7f) := by
          rw [UInt8.le_iff_toNat_le, e]; show ¬ (_ ≤ 127); omega
        have c2 : ¬ (0xb7 + UInt8.ofNat (minBE p.length).length ≤ 0xb7) := by
          rw [UInt8.le_iff_toNat_le, e]; show ¬ (_ ≤ 183); omega
        have c3 : (0xb7 + UInt8.ofNat (minBE p.length).length ≤ 0xbf) := by
          rw [UInt8.le_iff_toNat_le, e]; show _ ≤ 191; omega
        have e2 : (0xb7 + UInt8.ofNat (minBE p.length).length - 0xb7).toNat = (minBE p.length).length := by
          rw [UInt8.toNat_sub_of_le]
          · rw [e]; show 183 + _ - 183 = _; omega
          · rw [UInt8.le_iff_toNat_le, e]; show 183 ≤ _; omega
        simp only [decodeDataHeader, List.cons_append, if_neg c1, if_neg c2, if_pos c3, e2]
        have := decodeLongHeader_canonical m .SingleValue (0xb7 + UInt8.ofNat (minBE p.length).length) p.length (p ++ rest) hp
          (by simp; omega) (by simp)
        simp only [List.cons_append, List.append_assoc, List.length_cons] at this ⊢
        rw [this, Nat.add_comm]
      | List =>
        have e : (0xf7 + UInt8.ofNat (minBE p.length).length).toNat = 247 + (minBE p.length).length := by
          rw [UInt8.toNat_add, ofNat_toNat_lt _ (by omega)]
          show (247 + (minBE p.length).length) % 2 ^ 8 = _; omega
        have c1 : ¬ (0xf7 + UInt8.ofNat (minBE p.length).length ≤ 0x7f) := by
          rw [UInt8.le_iff_toNat_le, e]; show ¬ (_ ≤ 127); omega
        have c2 : ¬ (0xf7 + UInt8.ofNat (minBE p.length).length ≤ 0xb7) := by
          rw [UInt8.le_iff_toNat_le, e]; show ¬ (_ ≤ 183); omega
        have c3 : ¬ (0xf7 + UInt8.ofNat (minBE p.length).length ≤ 0xbf) := by
          rw [UInt8.le_iff_toNat_le, e]; show ¬ (_ ≤ 191); omega
        have c4 : ¬ (0xf7 + UInt8.ofNat (minBE p.length).length ≤ 0xf7) := by
          rw [UInt8.le_iff_toNat_le, e]; show ¬ (_ ≤ 247); omega
        have e2 : (0xf7 + UInt8.ofNat (minBE p.length).length - 0xf7).toNat = (minBE p.length).length := by
          rw [UInt8.toNat_sub_of_le]
          · rw [e]; show 247 + _ - 247 = _; omega
          · rw [UInt8.le_iff_toNat_le, e]; show 247 ≤ _; omega
        simp only [decodeDataHeader, List.cons_append, if_neg c1, if_neg c2, if_neg c3, if_neg c4, e2]
        have := decodeLongHeader_canonical m .List (0xf7 + UInt8.ofNat (minBE p.length).length) p.length (p ++ rest) hp
          (by simp; omega) (by simp)
        simp only [List.cons_append, List.append_assoc, List.length_cons] at this ⊢
        rw [this, Nat.add_comm]

theorem sliceFrom_append {ε : Type} (h p : List UInt8) : (sliceFrom (h ++ p) h.length : Out ε _) = .ok p := by
  simp [sliceFrom]

theorem decodeData_encodeItem (m : Build) (t : ItemType) (p : List UInt8) (h : (encodeItem t p).length < 2 ^ 64) :
    decodeData m (encodeItem t p) = .ok (t, p) := by
  have := decodeDataHeader_encode m t p [] (by simpa using h)
  simp only [List.append_nil] at this
  have hl : (encodeItem t p).length = (encodePayloadLength t p).length + p.length := by simp [encodeItem]
  simp only [decodeData, this, out_bind_ok]
  rw [addU64_ok m (by omega)]
  simp only [out_bind_ok]
  rw [if_neg (by omega)]
  unfold encodeItem
  rw [sliceFrom_append]; rfl

theorem encodeItem_ne_nil (t : ItemType) (p : List UInt8) : encodeItem t p ≠ [] := by
  unfold encodeItem encodePayloadLength
  split
  · rename_i h
    match p, h.2.1 with
    | [b], _ => simp
  · split
    · cases t <;> simp
    · simp

/-- The serialized items of a list payload. -/
def encodeItems (items : List (ItemType × List UInt8)) : List UInt8 :=
  items.flatMap fun x => encodeItem x.1 x.2

theorem decodeListLoop_encode (m : Build) (items : List (ItemType × List UInt8)) (fuel : Nat)
    (hf : items.length < fuel) (h : (encodeItems items).length < 2 ^ 64) :
    decodeListLoop m fuel (encodeItems items) = .ok items := by
  induction items generalizing fuel with
  | nil =>
    match fuel, hf with
    | fuel + 1, _ => simp [decodeListLoop, encodeItems]
  | cons x xs ih =>
    match fuel, hf with
    | fuel + 1, hf =>
      have e : encodeItems (x :: xs) = encodeItem x.1 x.2 ++ encodeItems xs := rfl
      rw [e] at h ⊢
      have hne : ¬ (encodeItem x.1 x.2 ++ encodeItems xs).isEmpty := by
        simp [encodeItem_ne_nil]
      have hl : (encodeItem x.1 x.2).length = (encodePayloadLength x.1 x.2).length + x.2.length := by simp [encodeItem]
      have hlen : (encodeItem x.1 x.2 ++ encodeItems xs).length = (encodeItem x.1 x.2).length + (encodeItems xs).length := by
        simp
      simp only [decodeListLoop, if_neg hne, decodeDataHeader_encode m x.1 x.2 _ h, out_bind_ok]
      rw [addU64_ok m (by omega)]
      simp only [out_bind_ok]
      rw [if_neg (by omega), ← hl, List.take_left, List.drop_left]
      have : (sliceFrom (encodeItem x.1 x.2) (encodePayloadLength x.1 x.2).length : Out RlpErr _) = .ok x.2 := by
        unfold encodeItem; exact sliceFrom_append _ _
      rw [this]
      simp only [out_bind_ok]
      rw [ih fuel (by simp at hf; omega) (by omega)]
      rfl

theorem items_length_le (items : List (ItemType × List UInt8)) : items.length ≤ (encodeItems items).length := by
  induction items with
  | nil => simp [encodeItems]
  | cons x xs ih =>
    have e : encodeItems (x :: xs) = encodeItem x.1 x.2 ++ encodeItems xs := rfl
    have := List.length_pos_iff.mpr (encodeItem_ne_nil x.1 x.2)
    rw [e, List.length_append, List.length_cons]; omega

theorem decodeListPayload_encode (m : Build) (items : List (ItemType × List UInt8))
    (h : (encodeItems items).length < 2 ^ 64) :
    decodeListPayload m (encodeItems items) = .ok items := by
  have := items_length_le items
  exact decodeListLoop_encode m items _ (by omega) h

end LCT.Rlp
