import Verif.Lemmas.Ethereum.Transaction
import Verif.Props.Rlp

/-!
# Encodings of transactions: C40, C41, C42, C44, C46

The records `Legacy`, `Eip155`, ... of `Verif.Spec.Ethereum` have mathematical numbers as fields; `LegacyOf w p t` says that the payload `p` of
the crate stands for `t`.  Two values of the crate that stand for the same record are equal for its `==`, which compares values (C05).
-/

namespace LCT.Props
open LCT.BigInt LCT.Rlp LCT.Spec LCT.Spec.Eth LCT.Out LCT.Crypto LCT.Ethereum
variable {ε : Type} (m : Build) (w : Nat) [DigitWidth w]

/-! ## C40 -/

/-- C40: a legacy transaction with any fields, `v`, `r` and `s` is encoded as the RLP list of its nine numbers and strings, and decoding it
gives a transaction with the same fields, `v`, `r` and `s`. -/
theorem C40_round_trip (x : TransactionLegacy) (t : Legacy) (r s : Nat) (hx : LegacyOf w x.payload t) (hr : Denotes w x.r r)
    (hs : Denotes w x.s s) (hl : (rlp (signedList t.fields x.v.toNat r s)).length < 2 ^ 64) :
    (x.encode m w : Out ε _) = .ok (rlp (signedList t.fields x.v.toNat r s)) ∧
    ∃ y, decode m (decTransactionLegacy m w) (rlp (signedList t.fields x.v.toNat r s)) = .ok y ∧
      LegacyOf w y.payload t ∧ y.v = x.v ∧ Denotes w y.r r ∧ Denotes w y.s s := by
  have ht := rlp_treeBytes _ hl
  refine ⟨encodeM_eq (legacy_enc m hx hr hs) hl, ?_⟩
  rw [← ht, decode_tree m _ _ (by rw [ht]; exact hl)]
  obtain ⟨y, e, a1, a2, a3⟩ := legacy_dec (w := w) m (LegacyOf.valid hx) x.v.toNat_lt (by rw [ht]; exact hl)
  exact ⟨y, e, a1, UInt8.toNat_inj.mp a2, a3⟩

/-! ## C41

As stated the property is false: the chain id that the decoder reports is computed from `v` with a shift by two bits instead of one. -/

/-- C41, what holds: an EIP-155 transaction is encoded as the RLP list of nine numbers and strings; if `v ≥ 35`, decoding it gives a transaction
with the same `v`, `r`, `s` and the same fields except the chain id, for which the decoder has `(v - 35) / 4`. -/
theorem C41_round_trip_partial (x : TransactionEip155) (t : Eip155) (v r s : Nat) (hx : Eip155Of w x.payload t) (hv : Denotes w x.v v)
    (hr : Denotes w x.r r) (hs : Denotes w x.s s) (hv35 : 35 ≤ v) (hl : (rlp (signedList t.fields v r s)).length < 2 ^ 64) :
    (x.encode m w : Out ε _) = .ok (rlp (signedList t.fields v r s)) ∧
    ∃ y, decode m (decTransactionEip155 m w) (rlp (signedList t.fields v r s)) = .ok y ∧
      Eip155Of w y.payload { t with chainId := (v - 35) / 4 } ∧ Denotes w y.v v ∧ Denotes w y.r r ∧ Denotes w y.s s := by
  have ht := rlp_treeBytes _ hl
  refine ⟨encodeM_eq (eip155_enc m hx hv hr hs) hl, ?_⟩
  rw [← ht, decode_tree m _ _ (by rw [ht]; exact hl)]
  exact eip155_dec m (Eip155Of.valid hx) hv35 (by rw [ht]; exact hl)

/-- C41 (negation): for every transaction signed for the chain `c` (so that `v` is `35 + 2·c` or `36 + 2·c`), the decoder reports the chain id
`c / 2`: a wrong one, unless `c = 0`. -/
theorem C41_chain_id_violated (x : TransactionEip155) (t : Eip155) (parity r s : Nat) (hx : Eip155Of w x.payload t) (hp : parity ≤ 1)
    (hv : Denotes w x.v (35 + 2 * t.chainId + parity : Nat)) (hr : Denotes w x.r r) (hs : Denotes w x.s s)
    (hl : (rlp (signedList t.fields (35 + 2 * t.chainId + parity) r s)).length < 2 ^ 64) :
    ∃ bytes y, (x.encode m w : Out ε _) = .ok bytes ∧ decode m (decTransactionEip155 m w) bytes = .ok y ∧
      Denotes w y.payload.chainId (t.chainId / 2 : Nat) ∧ (t.chainId ≠ 0 → ¬ Denotes w y.payload.chainId t.chainId) := by
  obtain ⟨e, y, e2, h, -⟩ := C41_round_trip_partial (ε := ε) m w x t _ r s hx hv hr hs (by omega) hl
  have hc := h.chainId
  have : (35 + 2 * t.chainId + parity - 35) / 4 = t.chainId / 2 := by omega
  simp only [this] at hc
  refine ⟨_, y, e, e2, hc, fun h0 hd => ?_⟩
  have := hc.2.symm.trans hd.2
  omega

/-! ## C42 -/

/-- C42: an EIP-2930 transaction is encoded as the byte 1 followed by the RLP list of its eleven items, and decoding that list gives a
transaction with the same fields, parity, `r` and `s`. -/
theorem C42_eip2930 (x : TransactionEip2930) (t : Eip2930) (r s : Nat) (hx : Eip2930Of w x.payload t) (hr : Denotes w x.r r)
    (hs : Denotes w x.s s) (hl : (rlp (signedList t.fields x.yParity.toU8.toNat r s)).length < 2 ^ 64) :
    (x.encode m w : Out ε _) = .ok (1 :: rlp (signedList t.fields x.yParity.toU8.toNat r s)) ∧
    ∃ y, decode m (decTransactionEip2930 m w) (rlp (signedList t.fields x.yParity.toU8.toNat r s)) = .ok y ∧
      Eip2930Of w y.payload t ∧ y.yParity = x.yParity ∧ Denotes w y.r r ∧ Denotes w y.s s := by
  have ht := rlp_treeBytes _ hl
  refine ⟨?_, ?_⟩
  · rw [TransactionEip2930.encode, encodeM_eq (eip2930_enc m hx hr hs) hl]; rfl
  · rw [← ht, decode_tree m _ _ (by rw [ht]; exact hl)]
    exact eip2930_dec m (Eip2930Of.valid hx) _ (by rw [ht]; exact hl)

/-- C42: an EIP-1559 transaction is encoded as the byte 2 followed by the RLP list of its twelve items, and decoding that list gives a
transaction with the same fields, parity, `r` and `s`. -/
theorem C42_eip1559 (x : TransactionEip1559) (t : Eip1559) (r s : Nat) (hx : Eip1559Of w x.payload t) (hr : Denotes w x.r r)
    (hs : Denotes w x.s s) (hl : (rlp (signedList t.fields x.yParity.toU8.toNat r s)).length < 2 ^ 64) :
    (x.encode m w : Out ε _) = .ok (2 :: rlp (signedList t.fields x.yParity.toU8.toNat r s)) ∧
    ∃ y, decode m (decTransactionEip1559 m w) (rlp (signedList t.fields x.yParity.toU8.toNat r s)) = .ok y ∧
      Eip1559Of w y.payload t ∧ y.yParity = x.yParity ∧ Denotes w y.r r ∧ Denotes w y.s s := by
  have ht := rlp_treeBytes _ hl
  refine ⟨?_, ?_⟩
  · rw [TransactionEip1559.encode, encodeM_eq (eip1559_enc m hx hr hs) hl]; rfl
  · rw [← ht, decode_tree m _ _ (by rw [ht]; exact hl)]
    exact eip1559_dec m (Eip1559Of.valid hx) _ (by rw [ht]; exact hl)

/-- The access list itself comes back, not only what it stands for. -/
theorem C42_access_list (l l' : AccessList) (h : accesses l = accesses l') : l = l' := by
  have e1 := accessItem_eq l
  rw [h, accessItem_eq l'] at e1
  injection e1 with e1
  refine List.map_inj_right ?_ |>.mp e1.symm
  intro a b hab
  simp only [entryItem, Item.list.injEq, List.cons.injEq, Item.bytes.injEq, and_true] at hab
  obtain ⟨h1, h2⟩ := hab
  obtain ⟨⟨da, la⟩, ka⟩ := a
  obtain ⟨⟨db, lb⟩, kb⟩ := b
  cases h1
  have : ka = kb := by
    refine List.map_inj_right ?_ |>.mp h2
    rintro ⟨x, hx⟩ ⟨y, hy⟩ hxy
    simp only [Item.bytes.injEq] at hxy
    subst hxy; rfl
  subst this; rfl

/-! ## C44 -/

theorem num_inj {a b : Nat} (h : num a = num b) : a = b := by
  simp only [num, Item.bytes.injEq] at h
  rw [← ofBE_minBE a, h, ofBE_minBE]

theorem num_inj_iff {a b : Nat} : num a = num b ↔ a = b := ⟨num_inj, fun h => by rw [h]⟩

theorem accessItem_inj {a b : List Access} (h : accessItem a = accessItem b) : a = b := by
  simp only [accessItem, Item.list.injEq] at h
  refine List.map_inj_right ?_ |>.mp h
  rintro ⟨x, ks⟩ ⟨y, ls⟩ hxy
  simp only [Item.list.injEq, List.cons.injEq, Item.bytes.injEq, and_true] at hxy
  obtain ⟨rfl, h2⟩ := hxy
  have : ks = ls := List.map_inj_right (fun _ _ h => by simpa using h) |>.mp h2
  rw [this]

theorem rlp_inj {x y : Item} (hx : (rlp x).length < 2 ^ 64) (h : rlp x = rlp y) : x = y := by
  have hy : (rlp y).length < 2 ^ 64 := h ▸ hx
  refine C35_injective x y ?_ ?_
  · rw [C35_encode_spec y hy]; exact hy
  · rw [C35_encode_spec x hx, C35_encode_spec y hy, h]

theorem accessItem_inj_iff {a b : List Access} : accessItem a = accessItem b ↔ a = b := ⟨accessItem_inj, fun h => by rw [h]⟩

/-- The encoding of a list starts with a byte above `0xbf`. -/
theorem rlp_list_head (xs : List Item) (hl : (rlp (.list xs)).length < 2 ^ 64) (b : UInt8) (rest : List UInt8) (h : rlp (.list xs) = b :: rest) :
    192 ≤ b.toNat := by
  rw [rlp, rlpListOf] at h hl
  split at h
  · simp only [List.cons.injEq] at h
    rw [← h.1]; simp; omega
  · rename_i hc
    rw [if_neg hc] at hl
    simp only [List.cons_append, List.cons.injEq] at h
    rw [← h.1]
    have := lenLen_le (rlpSeq xs).length (by simp at hl; omega)
    simp; omega

/-- C44: two payloads, of whatever types, with the same signing preimage are the same payload of the same type. -/
theorem C44_injective (p q : Payload) (hl : p.preimage.length < 2 ^ 64) (h : p.preimage = q.preimage) : p = q := by
  have tail : ∀ (b : UInt8) (l : List UInt8), (b :: l).length < 2 ^ 64 → l.length < 2 ^ 64 := fun b l h => by simp at h; omega
  cases p with
  | legacy t =>
    cases q with
    | legacy t' =>
      have := rlp_inj hl h
      simp only [Legacy.fields, Item.list.injEq, List.cons.injEq, Item.bytes.injEq, num_inj_iff, accessItem_inj_iff, and_true] at this
      obtain ⟨h1, h2, h3, h4, h5, h6⟩ := this
      obtain ⟨a1, a2, a3, a4, a5, a6⟩ := t
      obtain ⟨b1, b2, b3, b4, b5, b6⟩ := t'
      simp_all
    | eip155 t' =>
      have := rlp_inj hl h
      simp [Legacy.fields, Eip155.fields] at this
    | eip2930 t' => exact absurd (rlp_list_head _ hl 1 _ h) (by decide)
    | eip1559 t' => exact absurd (rlp_list_head _ hl 2 _ h) (by decide)
  | eip155 t =>
    cases q with
    | legacy t' =>
      have := rlp_inj hl h
      simp [Legacy.fields, Eip155.fields] at this
    | eip155 t' =>
      have := rlp_inj hl h
      simp only [Eip155.fields, List.cons_append, List.nil_append, Item.list.injEq, List.cons.injEq, Item.bytes.injEq, num_inj_iff, accessItem_inj_iff, and_true] at this
      obtain ⟨h1, h2, h3, h4, h5, h6, h7⟩ := this
      obtain ⟨a0, a1, a2, a3, a4, a5, a6⟩ := t
      obtain ⟨b0, b1, b2, b3, b4, b5, b6⟩ := t'
      simp_all
    | eip2930 t' => exact absurd (rlp_list_head _ hl 1 _ h) (by decide)
    | eip1559 t' => exact absurd (rlp_list_head _ hl 2 _ h) (by decide)
  | eip2930 t =>
    cases q with
    | legacy t' => exact absurd (rlp_list_head _ (by rw [h] at hl; exact hl) 1 _ h.symm) (by decide)
    | eip155 t' => exact absurd (rlp_list_head _ (by rw [h] at hl; exact hl) 1 _ h.symm) (by decide)
    | eip2930 t' =>
      have := rlp_inj (tail _ _ hl) (List.cons.inj h).2
      simp only [Eip2930.fields, Item.list.injEq, List.cons.injEq, Item.bytes.injEq, num_inj_iff, accessItem_inj_iff, and_true] at this
      obtain ⟨h0, h1, h2, h3, h4, h5, h6, h7⟩ := this
      obtain ⟨a0, a1, a2, a3, a4, a5, a6, a7⟩ := t
      obtain ⟨b0, b1, b2, b3, b4, b5, b6, b7⟩ := t'
      simp_all
    | eip1559 t' => exact absurd (List.cons.inj h).1 (by decide)
  | eip1559 t =>
    cases q with
    | legacy t' => exact absurd (rlp_list_head _ (by rw [h] at hl; exact hl) 2 _ h.symm) (by decide)
    | eip155 t' => exact absurd (rlp_list_head _ (by rw [h] at hl; exact hl) 2 _ h.symm) (by decide)
    | eip2930 t' => exact absurd (List.cons.inj h).1 (by decide)
    | eip1559 t' =>
      have := rlp_inj (tail _ _ hl) (List.cons.inj h).2
      simp only [Eip1559.fields, Item.list.injEq, List.cons.injEq, Item.bytes.injEq, num_inj_iff, accessItem_inj_iff, and_true] at this
      obtain ⟨h0, h1, h2, h2', h3, h4, h5, h6, h7⟩ := this
      obtain ⟨a0, a1, a2, a2', a3, a4, a5, a6, a7⟩ := t
      obtain ⟨b0, b1, b2, b2', b3, b4, b5, b6, b7⟩ := t'
      simp_all

/-- C44: the bytes that the code hashes before signing are the specified preimages (`C43_...` says that they are what is hashed): the encoding
of the payload, after the type byte for the typed transactions. -/
theorem C44_code_legacy (p : PayloadLegacy) (t : Legacy) (h : LegacyOf w p t) (hl : (Payload.legacy t).preimage.length < 2 ^ 64) :
    (encodeM (PayloadLegacy.encodeTo m w) p : Out ε _) = .ok (Payload.legacy t).preimage := encodeM_eq (payloadLegacy_enc m h) hl

theorem C44_code_eip155 (p : PayloadEip155) (t : Eip155) (h : Eip155Of w p t) (hl : (Payload.eip155 t).preimage.length < 2 ^ 64) :
    (encodeM (PayloadEip155.encodeTo m w) p : Out ε _) = .ok (Payload.eip155 t).preimage := encodeM_eq (payloadEip155_enc m h) hl

theorem C44_code_eip2930 (p : PayloadEip2930) (t : Eip2930) (h : Eip2930Of w p t) (hl : (Payload.eip2930 t).preimage.length < 2 ^ 64) :
    ∃ bytes, (encodeM (PayloadEip2930.encodeTo m w) p : Out ε _) = .ok bytes ∧
      TransactionEip2930.transactionType :: bytes = (Payload.eip2930 t).preimage :=
  ⟨_, encodeM_eq (payloadEip2930_enc m h) (by simp only [Payload.preimage, List.length_cons] at hl; omega), rfl⟩

theorem C44_code_eip1559 (p : PayloadEip1559) (t : Eip1559) (h : Eip1559Of w p t) (hl : (Payload.eip1559 t).preimage.length < 2 ^ 64) :
    ∃ bytes, (encodeM (PayloadEip1559.encodeTo m w) p : Out ε _) = .ok bytes ∧
      TransactionEip1559.transactionType :: bytes = (Payload.eip1559 t).preimage :=
  ⟨_, encodeM_eq (payloadEip1559_enc m h) (by simp only [Payload.preimage, List.length_cons] at hl; omega), rfl⟩

/-! ## C46 -/

/-- C46: on the encoding of nine well-formed fields, decoding as EIP-155 reports a type mismatch exactly for `v < 35`, and otherwise succeeds. -/
theorem C46_eip155_iff (t : Eip155) (ht : t.Valid) (v r s : Nat) (hl : (rlp (signedList t.fields v r s)).length < 2 ^ 64) :
    (decode m (decTransactionEip155 m w) (rlp (signedList t.fields v r s)) = .err .TransactionTypeMismatch ↔ v < 35) ∧
    ((∃ y, decode m (decTransactionEip155 m w) (rlp (signedList t.fields v r s)) = .ok y) ↔ 35 ≤ v) := by
  have htr := rlp_treeBytes _ hl
  rw [← htr, decode_tree m _ _ (by rw [htr]; exact hl)]
  by_cases hv : v < 35
  · rw [eip155_dec_small m ht hv (by rw [htr]; exact hl)]
    simp [hv]
  · obtain ⟨y, e, -⟩ := eip155_dec (w := w) m ht (show 35 ≤ v by omega) (r := r) (s := s) (by rw [htr]; exact hl)
    rw [e]
    simp [hv]
    omega

/-- C46: so no encoded legacy transaction, with `v` 27 or 28, is decoded as EIP-155. -/
theorem C46_legacy_is_not_eip155 (x : TransactionLegacy) (t : Legacy) (r s : Nat) (hx : LegacyOf w x.payload t) (hr : Denotes w x.r r)
    (hs : Denotes w x.s s) (hv : x.v = 27 ∨ x.v = 28) (hl : (rlp (signedList t.fields x.v.toNat r s)).length < 2 ^ 64) :
    ∃ bytes, (x.encode m w : Out ε _) = .ok bytes ∧
      decode m (decTransactionEip155 m w) bytes = .err .TransactionTypeMismatch := by
  refine ⟨_, (C40_round_trip m w x t r s hx hr hs hl).1, ?_⟩
  refine (C46_eip155_iff m w ⟨0, t.nonce, t.gasPrice, t.gasLimit, t.recipient, t.amount, t.data⟩ (LegacyOf.valid hx) _ r s hl).1.mpr ?_
  rcases hv with h | h <;> rw [h] <;> decide

/-- C46, the other direction, as far as it holds: an encoded EIP-155 transaction is rejected by the decoder of legacy transactions if its `v` is
at least 256.  Missing: chain ids below 110, see `C46_eip155_as_legacy_violated`. -/
theorem C46_eip155_is_not_legacy_partial (x : TransactionEip155) (t : Eip155) (v r s : Nat) (hx : Eip155Of w x.payload t)
    (hv : Denotes w x.v v) (hr : Denotes w x.r r) (hs : Denotes w x.s s) (hv256 : 256 ≤ v)
    (hl : (rlp (signedList t.fields v r s)).length < 2 ^ 64) :
    ∃ bytes, (x.encode m w : Out ε _) = .ok bytes ∧ decode m (decTransactionLegacy m w) bytes = .err .InvalidFormat := by
  refine ⟨_, encodeM_eq (eip155_enc m hx hv hr hs) hl, ?_⟩
  have ht := rlp_treeBytes _ hl
  rw [← ht, decode_tree m _ _ (by rw [ht]; exact hl)]
  exact legacy_dec_big m (t := ⟨t.nonce, t.gasPrice, t.gasLimit, t.recipient, t.amount, t.data⟩) (Eip155Of.valid hx) hv256 (by
    show (treeBytes (signedList t.fields v r s)).length < _
    rw [ht]; exact hl)

/-- C46 (negation): every EIP-155 transaction with `v` below 256 (chain ids up to 109, in particular the main network) is decoded as a legacy
transaction with the same fields. -/
theorem C46_eip155_as_legacy_violated (x : TransactionEip155) (t : Eip155) (v r s : Nat) (hx : Eip155Of w x.payload t)
    (hv : Denotes w x.v v) (hr : Denotes w x.r r) (hs : Denotes w x.s s) (hv256 : v < 256)
    (hl : (rlp (signedList t.fields v r s)).length < 2 ^ 64) :
    ∃ bytes y, (x.encode m w : Out ε _) = .ok bytes ∧ decode m (decTransactionLegacy m w) bytes = .ok y ∧
      LegacyOf w y.payload ⟨t.nonce, t.gasPrice, t.gasLimit, t.recipient, t.amount, t.data⟩ ∧ y.v.toNat = v := by
  have ht := rlp_treeBytes _ hl
  obtain ⟨y, e, a1, a2, -⟩ := legacy_dec m (w := w) (t := ⟨t.nonce, t.gasPrice, t.gasLimit, t.recipient, t.amount, t.data⟩) (Eip155Of.valid hx)
    hv256 (r := r) (s := s) (by
    show (treeBytes (signedList t.fields v r s)).length < _
    rw [ht]; exact hl)
  refine ⟨_, y, encodeM_eq (eip155_enc m hx hv hr hs) hl, ?_, a1, a2⟩
  rw [← ht, decode_tree m _ _ (by rw [ht]; exact hl)]
  exact e

/-! ## Examples

The signed transaction in the text of EIP-155: nonce 9, gas price 20 Gwei, gas limit 21000, one ether to `0x3535...35`, chain id 1.
`r` and `s` are shortened. -/

def exampleFields : Eip155 := ⟨1, 9, 20000000000, 21000, List.replicate 20 0x35, 1000000000000000000, []⟩

def exampleBytes : List UInt8 :=
  [0xec, 9, 0x85, 0x04, 0xa8, 0x17, 0xc8, 0x00, 0x82, 0x52, 0x08, 0x94] ++ List.replicate 20 0x35 ++
    [0x88, 0x0d, 0xe0, 0xb6, 0xb3, 0xa7, 0x64, 0, 0, 0x80, 37, 0x28, 0x67]

example : exampleFields.Valid := ⟨by decide, by decide, by decide⟩

/-- It is accepted by both decoders; the EIP-155 decoder reports chain id 0. -/
example : (decode .debug (decTransactionEip155 .debug 64) exampleBytes).bind (fun y => .ok (toInt 64 y.payload.chainId, toInt 64 y.v)) = .ok (0, 37) := by
  decide +kernel
example : (decode .debug (decTransactionLegacy .debug 64) exampleBytes).bind (fun y => .ok (toInt 64 y.payload.amount, y.v)) =
    .ok (1000000000000000000, 37) := by decide +kernel

/-- The decoded value meets the hypotheses, so they can be met. -/
example : ∃ x : TransactionEip155, Eip155Of 64 x.payload { exampleFields with chainId := 0 } ∧ Denotes 64 x.v (37 : Nat) ∧
    Denotes 64 x.r (0x28 : Nat) ∧ Denotes 64 x.s (0x67 : Nat) := by
  have hs : (rlp (signedList exampleFields.fields 37 0x28 0x67)).length < 2 ^ 64 := by
    have hn : ∀ n < 2 ^ 64, (rlp (num n)).length ≤ 9 := by
      intro n hn
      have := minBE_length_le n 8 hn
      rw [num, rlp, rlpBytes]
      split
      · omega
      · rw [if_pos (by omega)]; simp; omega
    have h0 : (rlp (.bytes [])).length ≤ 9 := by rw [rlp, rlpBytes]; simp
    have h20 : (rlp (.bytes (List.replicate 20 0x35))).length = 21 := by rw [rlp, rlpBytes]; simp
    have hsq : (rlpSeq (exampleFields.fields ++ [num 37, num 0x28, num 0x67])).length ≤ 93 := by
      simp only [Eip155.fields, exampleFields, List.cons_append, List.nil_append, rlpSeq, List.length_append, h20, List.length_nil]
      have := hn 9 (by decide); have := hn 20000000000 (by decide); have := hn 21000 (by decide)
      have := hn 1000000000000000000 (by decide); have := hn 37 (by decide); have := hn 0x28 (by decide)
      have := hn 0x67 (by decide)
      omega
    rw [signedList, rlp, rlpListOf]
    split
    · simp; omega
    · have := lenLen_le _ (show (rlpSeq (exampleFields.fields ++ [num 37, num 0x28, num 0x67])).length < 2 ^ 64 by omega)
      simp; omega
  have ht := rlp_treeBytes _ hs
  obtain ⟨y, -, h⟩ := eip155_dec (w := 64) .debug (t := exampleFields) ⟨by decide, by decide, by decide⟩ (v := 37) (by decide)
    (by rw [ht]; exact hs)
  exact ⟨y, h⟩

end LCT.Props
