import Verif.Lemmas.Ethereum.Rlp

/-!
# Encoding and decoding of transactions
-/

namespace LCT.Ethereum
open LCT.BigInt LCT.Rlp LCT.Spec LCT.Spec.Eth LCT.Out LCT.Crypto
variable {ε : Type} (m : Build) {w : Nat} [DigitWidth w]

theorem encodeM_eq {α : Type} {enc : α → EncItem → Out ε EncItem} {x : α} {t : Item} (h : ∀ e, enc x e = .ok (e.extend (treeBytes t)))
    (hl : (rlp t).length < 2 ^ 64) : encodeM enc x = .ok (rlp t) := by
  rw [encodeM, h]
  simp [EncItem.takeData, EncItem.extend, EncItem.new, rlp_treeBytes t hl]

/-! ## Payloads -/

theorem payloadLegacy_enc {p : PayloadLegacy} {t : Legacy} (h : LegacyOf w p t) (e : EncItem) :
    (p.encodeTo m w e : Out ε _) = .ok (e.extend (treeBytes (.list t.fields))) := by
  simp only [PayloadLegacy.encodeTo, encNonce_eq, encBig_eq m h.gasPrice, encBig_eq m h.amount, bind_ok, pure_def, encU64_eq, encAddress_eq,
    encVecU8_eq]
  refine congrArg _ (encodeListPayload_eq _ _ _ ?_)
  simp [EncItem.extend, EncItem.new, Legacy.fields, treesBytes, h.nonce, h.gasLimit, h.recipient, h.data]

theorem payloadEip155_enc {p : PayloadEip155} {t : Eip155} (h : Eip155Of w p t) (e : EncItem) :
    (p.encodeTo m w e : Out ε _) = .ok (e.extend (treeBytes (.list (t.fields ++ [num t.chainId, num 0, num 0])))) := by
  simp only [PayloadEip155.encodeTo, encNonce_eq, encBig_eq m h.gasPrice, encBig_eq m h.amount, encBig_eq m h.chainId, bind_ok, pure_def,
    encU64_eq, encAddress_eq, encVecU8_eq]
  refine congrArg _ (encodeListPayload_eq _ _ _ ?_)
  simp [EncItem.extend, EncItem.new, Eip155.fields, treesBytes, h.nonce, h.gasLimit, h.recipient, h.data]

theorem payloadEip2930_enc {p : PayloadEip2930} {t : Eip2930} (h : Eip2930Of w p t) (e : EncItem) :
    (p.encodeTo m w e : Out ε _) = .ok (e.extend (treeBytes (.list t.fields))) := by
  simp only [PayloadEip2930.encodeTo, encNonce_eq, encBig_eq m h.gasPrice, encBig_eq m h.amount, encBig_eq m h.chainId, bind_ok, pure_def,
    encU64_eq, encAddress_eq, encVecU8_eq, encAccessList_eq]
  refine congrArg _ (encodeListPayload_eq _ _ _ ?_)
  simp [EncItem.extend, EncItem.new, Eip2930.fields, treesBytes, h.nonce, h.gasLimit, h.recipient, h.data, h.accessList]

theorem payloadEip1559_enc {p : PayloadEip1559} {t : Eip1559} (h : Eip1559Of w p t) (e : EncItem) :
    (p.encodeTo m w e : Out ε _) = .ok (e.extend (treeBytes (.list t.fields))) := by
  simp only [PayloadEip1559.encodeTo, encNonce_eq, encBig_eq m h.maxPriorityFee, encBig_eq m h.maxFee, encBig_eq m h.amount,
    encBig_eq m h.chainId, bind_ok, pure_def, encU64_eq, encAddress_eq, encVecU8_eq, encAccessList_eq]
  refine congrArg _ (encodeListPayload_eq _ _ _ ?_)
  simp [EncItem.extend, EncItem.new, Eip1559.fields, treesBytes, h.nonce, h.gasLimit, h.recipient, h.data, h.accessList]

/-! ## Signed transactions -/

theorem legacy_enc {x : TransactionLegacy} {t : Legacy} {r s : Nat} (h : LegacyOf w x.payload t) (hr : Denotes w x.r r)
    (hs : Denotes w x.s s) (e : EncItem) :
    (x.encodeTo m w e : Out ε _) = .ok (e.extend (treeBytes (signedList t.fields x.v.toNat r s))) := by
  simp only [TransactionLegacy.encodeTo, encNonce_eq, encBig_eq m h.gasPrice, encBig_eq m h.amount, encBig_eq m hr, encBig_eq m hs, bind_ok,
    pure_def, encU64_eq, encAddress_eq, encVecU8_eq]
  refine congrArg _ (encodeListPayload_eq _ _ _ ?_)
  simp [EncItem.extend, EncItem.new, Legacy.fields, treesBytes, h.nonce, h.gasLimit, h.recipient, h.data]

theorem eip155_enc {x : TransactionEip155} {t : Eip155} {v r s : Nat} (h : Eip155Of w x.payload t) (hv : Denotes w x.v v)
    (hr : Denotes w x.r r) (hs : Denotes w x.s s) (e : EncItem) :
    (x.encodeTo m w e : Out ε _) = .ok (e.extend (treeBytes (signedList t.fields v r s))) := by
  simp only [TransactionEip155.encodeTo, encNonce_eq, encBig_eq m h.gasPrice, encBig_eq m h.amount, encBig_eq m hv, encBig_eq m hr,
    encBig_eq m hs, bind_ok, pure_def, encU64_eq, encAddress_eq, encVecU8_eq]
  refine congrArg _ (encodeListPayload_eq _ _ _ ?_)
  simp [EncItem.extend, EncItem.new, Eip155.fields, treesBytes, h.nonce, h.gasLimit, h.recipient, h.data]

theorem eip2930_enc {x : TransactionEip2930} {t : Eip2930} {r s : Nat} (h : Eip2930Of w x.payload t) (hr : Denotes w x.r r)
    (hs : Denotes w x.s s) (e : EncItem) :
    (x.encodeTo m w e : Out ε _) = .ok (e.extend (treeBytes (signedList t.fields x.yParity.toU8.toNat r s))) := by
  simp only [TransactionEip2930.encodeTo, encNonce_eq, encBig_eq m h.gasPrice, encBig_eq m h.amount, encBig_eq m h.chainId, encBig_eq m hr,
    encBig_eq m hs, bind_ok, pure_def, encU64_eq, encAddress_eq, encVecU8_eq, encAccessList_eq]
  refine congrArg _ (encodeListPayload_eq _ _ _ ?_)
  simp [EncItem.extend, EncItem.new, Eip2930.fields, treesBytes, h.nonce, h.gasLimit, h.recipient, h.data, h.accessList]

theorem eip1559_enc {x : TransactionEip1559} {t : Eip1559} {r s : Nat} (h : Eip1559Of w x.payload t) (hr : Denotes w x.r r)
    (hs : Denotes w x.s s) (e : EncItem) :
    (x.encodeTo m w e : Out ε _) = .ok (e.extend (treeBytes (signedList t.fields x.yParity.toU8.toNat r s))) := by
  simp only [TransactionEip1559.encodeTo, encNonce_eq, encBig_eq m h.maxPriorityFee, encBig_eq m h.maxFee, encBig_eq m h.amount,
    encBig_eq m h.chainId, encBig_eq m hr, encBig_eq m hs, bind_ok, pure_def, encU64_eq, encAddress_eq, encVecU8_eq, encAccessList_eq]
  refine congrArg _ (encodeListPayload_eq _ _ _ ?_)
  simp [EncItem.extend, EncItem.new, Eip1559.fields, treesBytes, h.nonce, h.gasLimit, h.recipient, h.data, h.accessList]

/-! ## Building -/

theorem built_legacy (b : Builder) {n g l d a} (h1 : b.nonce = some n) (h2 : b.gasPrice = some g) (h3 : b.gasLimit = some l)
    (h4 : b.destination = some d) (h5 : b.amount = some a) : built b.takeAndBuildLegacy = .ok ⟨n, g, l, d, a, b.data.getD []⟩ := by
  simp [built, Builder.takeAndBuildLegacy, h1, h2, h3, h4, h5]

theorem built_eip155 (b : Builder) {c n g l d a} (h0 : b.chainId = some c) (h1 : b.nonce = some n) (h2 : b.gasPrice = some g)
    (h3 : b.gasLimit = some l) (h4 : b.destination = some d) (h5 : b.amount = some a) :
    built b.takeAndBuildEip155 = .ok ⟨c, n, g, l, d, a, b.data.getD []⟩ := by
  simp [built, Builder.takeAndBuildEip155, h0, h1, h2, h3, h4, h5]

theorem built_eip2930 (b : Builder) {c n g l d a} (h0 : b.chainId = some c) (h1 : b.nonce = some n) (h2 : b.gasPrice = some g)
    (h3 : b.gasLimit = some l) (h4 : b.destination = some d) (h5 : b.amount = some a) :
    built b.takeAndBuildEip2930 = .ok ⟨c, n, g, l, d, a, b.data.getD [], b.accessList.getD []⟩ := by
  simp [built, Builder.takeAndBuildEip2930, h0, h1, h2, h3, h4, h5]

theorem built_eip1559 (b : Builder) {c n f g l d a} (h0 : b.chainId = some c) (h1 : b.nonce = some n)
    (h2 : b.maxPriorityFeePerGas = some f) (h2' : b.maxFeePerGas = some g)
    (h3 : b.gasLimit = some l) (h4 : b.destination = some d) (h5 : b.amount = some a) :
    built b.takeAndBuildEip1559 = .ok ⟨c, n, f, g, l, d, a, b.data.getD [], b.accessList.getD []⟩ := by
  simp [built, Builder.takeAndBuildEip1559, h0, h1, h2, h2', h3, h4, h5]

/-! ## Decoding -/

omit [DigitWidth w] in
theorem LegacyOf.valid {p : PayloadLegacy} {t : Legacy} (h : LegacyOf w p t) : t.Valid :=
  ⟨h.nonce_max, h.gasLimit ▸ p.gasLimit.toNat_lt, h.recipient ▸ p.destination.len⟩

omit [DigitWidth w] in
theorem Eip155Of.valid {p : PayloadEip155} {t : Eip155} (h : Eip155Of w p t) : t.Valid :=
  ⟨h.nonce_max, h.gasLimit ▸ p.gasLimit.toNat_lt, h.recipient ▸ p.destination.len⟩

theorem accesses_valid (l : AccessList) : validAccesses (accesses l) := by
  intro a ha
  obtain ⟨x, -, rfl⟩ := List.mem_map.mp ha
  refine ⟨x.address.len, fun k hk => ?_⟩
  obtain ⟨y, -, rfl⟩ := List.mem_map.mp hk
  exact y.len

theorem exists_keys (ks : List (List UInt8)) (h : ∀ k ∈ ks, k.length = 32) : ∃ l : List StorageKey, l.map (·.data) = ks := by
  induction ks with
  | nil => exact ⟨[], rfl⟩
  | cons k ks ih =>
    obtain ⟨l, rfl⟩ := ih (fun k hk => h k (by simp [hk]))
    exact ⟨⟨k, h k (by simp)⟩ :: l, rfl⟩

theorem exists_accesses (as : List Access) (h : validAccesses as) : ∃ l : AccessList, accesses l = as := by
  induction as with
  | nil => exact ⟨[], rfl⟩
  | cons a as ih =>
    obtain ⟨l, rfl⟩ := ih (fun k hk => h k (by simp [hk]))
    obtain ⟨ks, e⟩ := exists_keys a.keys (h a (by simp)).2
    refine ⟨⟨⟨a.address, (h a (by simp)).1⟩, ks⟩ :: l, ?_⟩
    show (⟨a.address, ks.map (·.data)⟩ : Access) :: _ = _
    rw [e]; rfl

omit [DigitWidth w] in
theorem Eip2930Of.valid {p : PayloadEip2930} {t : Eip2930} (h : Eip2930Of w p t) : t.Valid :=
  ⟨h.nonce_max, h.gasLimit ▸ p.gasLimit.toNat_lt, h.recipient ▸ p.destination.len, h.accessList ▸ accesses_valid _⟩

omit [DigitWidth w] in
theorem Eip1559Of.valid {p : PayloadEip1559} {t : Eip1559} (h : Eip1559Of w p t) : t.Valid :=
  ⟨h.nonce_max, h.gasLimit ▸ p.gasLimit.toNat_lt, h.recipient ▸ p.destination.len, h.accessList ▸ accesses_valid _⟩

theorem u64_toNat {n : Nat} (h : n < 2 ^ 64) : (UInt64.ofNat n).toNat = n := UInt64.toNat_ofNat_of_lt' h

theorem legacy_dec {t : Legacy} (ht : t.Valid) {v r s : Nat} (hv : v < 256)
    (hl : (treeBytes (signedList t.fields v r s)).length < 2 ^ 64) :
    (decTransactionLegacy m w (dItem (signedList t.fields v r s))).Yields fun x =>
      LegacyOf w x.payload t ∧ x.v.toNat = v ∧ Denotes w x.r r ∧ Denotes w x.s s := by
  obtain ⟨h1, h2, h3⟩ := ht
  have hl' := payload_lt hl
  obtain ⟨gp, e1, d1⟩ := decBig_num w t.gasPrice
  obtain ⟨am, e2, d2⟩ := decBig_num w t.amount
  obtain ⟨r', e3, d3⟩ := decBig_num w r
  obtain ⟨s', e4, d4⟩ := decBig_num w s
  refine ⟨⟨⟨⟨UInt64.ofNat t.nonce⟩, gp, UInt64.ofNat t.gasLimit, ⟨t.recipient, h3⟩, am, t.data⟩, UInt8.ofNat v, r', s'⟩, ?_, ?_⟩
  · simp only [signedList, decTransactionLegacy, dItem_list, decodeAsItems_list m _ hl', bind_ok]
    simp only [Legacy.fields, List.cons_append, List.nil_append, List.map_cons, List.map_nil, List.length_cons, List.length_nil, ne_eq,
      Nat.reduceAdd, not_true_eq_false, if_false, nextItem, bind_ok, pure_def, decNonce_num h1, e1, e2, e3, e4, decU64_num' h2,
      decAddress_bytes ⟨t.recipient, h3⟩, decVecU8_bytes, decU64_num' (show v < 2 ^ 64 by omega), u8FromU64_ofNat hv]
    rw [built_legacy _ rfl rfl rfl rfl rfl]
    rfl
  · exact ⟨⟨u64_toNat (by omega), h1, d1, u64_toNat h2, rfl, d2, rfl⟩, by simp; omega, d3, d4⟩

theorem decU64_big {n : Nat} (h : 2 ^ 64 ≤ n) : decU64 (dItem (num n)) = .err .InvalidFormat := by
  have hl : (minBE n).length > 8 := by
    by_contra hc
    have h1 := ofBE_lt (minBE n)
    rw [ofBE_minBE] at h1
    have : 256 ^ (minBE n).length ≤ 256 ^ 8 := Nat.pow_le_pow_right (by decide) (by omega)
    omega
  show (if _ then _ else if (minBE n).length > 8 then _ else _) = _
  rw [if_neg (by simp [num]), if_pos hl]

theorem legacy_dec_big {t : Legacy} (ht : t.Valid) {v r s : Nat} (hv : 256 ≤ v)
    (hl : (treeBytes (signedList t.fields v r s)).length < 2 ^ 64) :
    decTransactionLegacy m w (dItem (signedList t.fields v r s)) = .err .InvalidFormat := by
  obtain ⟨h1, h2, h3⟩ := ht
  have hl' := payload_lt hl
  obtain ⟨gp, e1, d1⟩ := decBig_num w t.gasPrice
  obtain ⟨am, e2, d2⟩ := decBig_num w t.amount
  simp only [signedList, decTransactionLegacy, dItem_list, decodeAsItems_list m _ hl', bind_ok]
  simp only [Legacy.fields, List.cons_append, List.nil_append, List.map_cons, List.map_nil, List.length_cons, List.length_nil, ne_eq,
    Nat.reduceAdd, not_true_eq_false, if_false, nextItem, bind_ok, pure_def, decNonce_num h1, e1, e2, decU64_num' h2,
    decAddress_bytes ⟨t.recipient, h3⟩, decVecU8_bytes]
  rw [built_legacy _ rfl rfl rfl rfl rfl]
  simp only [bind_ok]
  by_cases hv2 : v < 2 ^ 64
  · rw [decU64_num' hv2]
    simp only [bind_ok, u8FromU64_big hv hv2, bind_err]
  · rw [decU64_big (by omega)]; rfl

theorem ofNat_u {ε : Type} {k : Nat} (hk : k < 2 ^ 128) : (BUint.ofNat w k : Out ε _).Yields (Denotes w · (k : Int)) := by
  obtain ⟨k8, h8, rfl⟩ := DigitWidth.bytes (w := w)
  obtain ⟨x, e, wf, mg, sg⟩ := fromU128_spec (ε := ε) h8 k hk .positive
  exact ⟨x, e, wf, by rw [toInt_pos sg, mg]⟩

theorem eip155_dec {t : Eip155} (ht : t.Valid) {v r s : Nat} (hv : 35 ≤ v)
    (hl : (treeBytes (signedList t.fields v r s)).length < 2 ^ 64) :
    (decTransactionEip155 m w (dItem (signedList t.fields v r s))).Yields fun x =>
      Eip155Of w x.payload { t with chainId := (v - 35) / 4 } ∧ Denotes w x.v v ∧ Denotes w x.r r ∧ Denotes w x.s s := by
  obtain ⟨h1, h2, h3⟩ := ht
  have hl' := payload_lt hl
  obtain ⟨gp, e1, d1⟩ := decBig_num w t.gasPrice
  obtain ⟨am, e2, d2⟩ := decBig_num w t.amount
  obtain ⟨r', e3, d3⟩ := decBig_num w r
  obtain ⟨s', e4, d4⟩ := decBig_num w s
  obtain ⟨v', e5, d5⟩ := decBig_num w v
  obtain ⟨n35, e6, d6⟩ := ofNat_u (ε := RlpErr) (w := w) (k := 35) (by decide)
  obtain ⟨_, e7, rfl⟩ := lt_y (ε := RlpErr) m d5 d6
  obtain ⟨c, e8, d8⟩ := sub_y (ε := RlpErr) m d5 d6
  obtain ⟨c', e9, d9⟩ := shr_y (ε := RlpErr) m d8 2
  have hc : Denotes w c' ((v - 35) / 4 : Nat) := by
    have : (((v : Int) - (35 : Nat)).tdiv (2 ^ 2)) = (((v - 35) / 4 : Nat) : Int) := by
      rw [← Int.ofNat_sub hv]; rfl
    rwa [this] at d9
  refine ⟨⟨⟨c', ⟨UInt64.ofNat t.nonce⟩, gp, UInt64.ofNat t.gasLimit, ⟨t.recipient, h3⟩, am, t.data⟩, v', r', s'⟩, ?_, ?_⟩
  · simp only [signedList, decTransactionEip155, dItem_list, decodeAsItems_list m _ hl', bind_ok]
    simp only [Eip155.fields, List.cons_append, List.nil_append, List.map_cons, List.map_nil, List.length_cons, List.length_nil, ne_eq,
      Nat.reduceAdd, not_true_eq_false, if_false, nextItem, bind_ok, pure_def, decNonce_num h1, e1, e2, e3, e4, e5, e6, decU64_num' h2,
      decAddress_bytes ⟨t.recipient, h3⟩, decVecU8_bytes]
    rw [e7]
    simp only [bind_ok, show decide ((v : Int) < (35 : Nat)) = false by simp; omega, Bool.false_eq_true, if_false, e8, e9]
    rw [built_eip155 _ rfl rfl rfl rfl rfl rfl]
    rfl
  · exact ⟨⟨hc, u64_toNat (by omega), h1, d1, u64_toNat h2, rfl, d2, rfl⟩, d5, d3, d4⟩

theorem eip155_dec_small {t : Eip155} (ht : t.Valid) {v r s : Nat} (hv : v < 35)
    (hl : (treeBytes (signedList t.fields v r s)).length < 2 ^ 64) :
    decTransactionEip155 m w (dItem (signedList t.fields v r s)) = .err .TransactionTypeMismatch := by
  obtain ⟨h1, h2, h3⟩ := ht
  have hl' := payload_lt hl
  obtain ⟨gp, e1, d1⟩ := decBig_num w t.gasPrice
  obtain ⟨am, e2, d2⟩ := decBig_num w t.amount
  obtain ⟨r', e3, d3⟩ := decBig_num w r
  obtain ⟨s', e4, d4⟩ := decBig_num w s
  obtain ⟨v', e5, d5⟩ := decBig_num w v
  obtain ⟨n35, e6, d6⟩ := ofNat_u (ε := RlpErr) (w := w) (k := 35) (by decide)
  obtain ⟨_, e7, rfl⟩ := lt_y (ε := RlpErr) m d5 d6
  simp only [signedList, decTransactionEip155, dItem_list, decodeAsItems_list m _ hl', bind_ok]
  simp only [Eip155.fields, List.cons_append, List.nil_append, List.map_cons, List.map_nil, List.length_cons, List.length_nil, ne_eq,
    Nat.reduceAdd, not_true_eq_false, if_false, nextItem, bind_ok, pure_def, decNonce_num h1, e1, e2, e3, e4, e5, e6, decU64_num' h2,
    decAddress_bytes ⟨t.recipient, h3⟩, decVecU8_bytes]
  rw [e7]
  simp only [bind_ok, show decide ((v : Int) < (35 : Nat)) = true by simp; omega, if_true]

theorem yParity_dec (y : YParity) : decU64 (dItem (num y.toU8.toNat)) = .ok (UInt64.ofNat y.toU8.toNat) ∧
    u8FromU64 (UInt64.ofNat y.toU8.toNat) = .ok y.toU8 ∧ yParityFromU8 y.toU8 = .ok y := by
  refine ⟨decU64_num' (by have := y.toU8.toNat_lt; omega), ?_, by cases y <;> rfl⟩
  rw [u8FromU64_ofNat y.toU8.toNat_lt]; simp

theorem eip2930_dec {t : Eip2930} (ht : t.Valid) (y : YParity) {r s : Nat}
    (hl : (treeBytes (signedList t.fields y.toU8.toNat r s)).length < 2 ^ 64) :
    (decTransactionEip2930 m w (dItem (signedList t.fields y.toU8.toNat r s))).Yields fun x =>
      Eip2930Of w x.payload t ∧ x.yParity = y ∧ Denotes w x.r r ∧ Denotes w x.s s := by
  obtain ⟨h1, h2, h3, h4⟩ := ht
  obtain ⟨al, ea⟩ := exists_accesses _ h4
  have hl' := payload_lt hl
  obtain ⟨gp, e1, d1⟩ := decBig_num w t.gasPrice
  obtain ⟨am, e2, d2⟩ := decBig_num w t.amount
  obtain ⟨r', e3, d3⟩ := decBig_num w r
  obtain ⟨s', e4, d4⟩ := decBig_num w s
  obtain ⟨c', e5, d5⟩ := decBig_num w t.chainId
  obtain ⟨y1, y2, y3⟩ := yParity_dec y
  have e6 := decAccessList_access m al (Nat.lt_of_le_of_lt (mem_length_le (by rw [ea]; simp [Eip2930.fields])) hl')
  rw [ea] at e6
  refine ⟨⟨⟨c', ⟨UInt64.ofNat t.nonce⟩, gp, UInt64.ofNat t.gasLimit, ⟨t.recipient, h3⟩, am, t.data, al⟩, y, r', s'⟩, ?_, ?_⟩
  · simp only [signedList, decTransactionEip2930, dItem_list, decodeAsItems_list m _ hl', bind_ok]
    simp only [Eip2930.fields, List.cons_append, List.nil_append, List.map_cons, List.map_nil, List.length_cons, List.length_nil, ne_eq,
      Nat.reduceAdd, not_true_eq_false, if_false, nextItem, bind_ok, pure_def, decNonce_num h1, e1, e2, e3, e4, e5, e6, decU64_num' h2,
      decAddress_bytes ⟨t.recipient, h3⟩, decVecU8_bytes, y1, y2, y3]
    rw [built_eip2930 _ rfl rfl rfl rfl rfl rfl]
    rfl
  · exact ⟨⟨d5, u64_toNat (by omega), h1, d1, u64_toNat h2, rfl, d2, rfl, ea⟩, rfl, d3, d4⟩

theorem eip1559_dec {t : Eip1559} (ht : t.Valid) (y : YParity) {r s : Nat}
    (hl : (treeBytes (signedList t.fields y.toU8.toNat r s)).length < 2 ^ 64) :
    (decTransactionEip1559 m w (dItem (signedList t.fields y.toU8.toNat r s))).Yields fun x =>
      Eip1559Of w x.payload t ∧ x.yParity = y ∧ Denotes w x.r r ∧ Denotes w x.s s := by
  obtain ⟨h1, h2, h3, h4⟩ := ht
  obtain ⟨al, ea⟩ := exists_accesses _ h4
  have hl' := payload_lt hl
  obtain ⟨f1, e0, d0⟩ := decBig_num w t.maxPriorityFee
  obtain ⟨f2, e1, d1⟩ := decBig_num w t.maxFee
  obtain ⟨am, e2, d2⟩ := decBig_num w t.amount
  obtain ⟨r', e3, d3⟩ := decBig_num w r
  obtain ⟨s', e4, d4⟩ := decBig_num w s
  obtain ⟨c', e5, d5⟩ := decBig_num w t.chainId
  obtain ⟨y1, y2, y3⟩ := yParity_dec y
  have e6 := decAccessList_access m al (Nat.lt_of_le_of_lt (mem_length_le (by rw [ea]; simp [Eip1559.fields])) hl')
  rw [ea] at e6
  refine ⟨⟨⟨c', ⟨UInt64.ofNat t.nonce⟩, f1, f2, UInt64.ofNat t.gasLimit, ⟨t.recipient, h3⟩, am, t.data, al⟩, y, r', s'⟩, ?_, ?_⟩
  · simp only [signedList, decTransactionEip1559, dItem_list, decodeAsItems_list m _ hl', bind_ok]
    simp only [Eip1559.fields, List.cons_append, List.nil_append, List.map_cons, List.map_nil, List.length_cons, List.length_nil, ne_eq,
      Nat.reduceAdd, not_true_eq_false, if_false, nextItem, bind_ok, pure_def, decNonce_num h1, e0, e1, e2, e3, e4, e5, e6, decU64_num' h2,
      decAddress_bytes ⟨t.recipient, h3⟩, decVecU8_bytes, y1, y2, y3]
    rw [built_eip1559 _ rfl rfl rfl rfl rfl rfl rfl]
    rfl
  · exact ⟨⟨d5, u64_toNat (by omega), h1, d0, d1, u64_toNat h2, rfl, d2, rfl, ea⟩, rfl, d3, d4⟩

end LCT.Ethereum
