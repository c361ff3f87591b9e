import Verif.Lemmas.RlpTree
import Verif.Lemmas.RlpAccept

namespace LCT.Rlp
open LCT.Spec

theorem encode_u64 (n : UInt64) : encode encU64 n = rlpBytes (minBE n.toNat) := by
  show [] ++ encodeItem .SingleValue (stripLeadingZeros (toBEk 8 n.toNat)) = _
  rw [strip_eq_minBE, ofBE_toBEk, Nat.mod_eq_of_lt n.toNat_lt, List.nil_append]
  exact encodeSingle_eq _ (Nat.lt_of_le_of_lt (minBE_length_le _ 8 n.toNat_lt) (by decide))

theorem decode_single {α : Type} (m : Build) (dec : Dec α) (p : List UInt8) (h : (rlpBytes p).length < 2 ^ 64) :
    decode m dec (rlpBytes p) = dec ⟨.SingleValue, p⟩ := by
  have hp : p.length ≤ (rlpBytes p).length := by
    unfold rlpBytes; split
    · exact Nat.le_refl _
    · split <;> simp
      omega
  have hp' : p.length < 2 ^ 64 := by omega
  rw [← encodeItem_single_eq p hp'] at h ⊢
  rw [decode, newFromData_encodeItem m _ _ h]; rfl

theorem rlpBytes_length_lt (p : List UInt8) (h : p.length < 2 ^ 32) : (rlpBytes p).length < 2 ^ 64 := by
  unfold rlpBytes; split
  · omega
  · split
    · simp; omega
    · have := lenLen_le p.length (by omega)
      simp; omega

theorem decode_encode_u64 (m : Build) (n : UInt64) : decode m decU64 (encode encU64 n) = .ok n := by
  have hl := minBE_length_le n.toNat 8 n.toNat_lt
  rw [encode_u64, decode_single m _ _ (rlpBytes_length_lt _ (by omega))]
  simp only [decU64, ne_eq, not_true_eq_false, if_false]
  rw [if_neg (by omega), fromBE_eq, ofBE_pad, ofBE_minBE]
  simp

theorem encode_biguint (n : Nat) (h : (rlpBytes (minBE n)).length < 2 ^ 64) : encode encBigUint n = rlpBytes (minBE n) := by
  have hp : (minBE n).length ≤ (rlpBytes (minBE n)).length := by
    unfold rlpBytes; split
    · exact Nat.le_refl _
    · split <;> simp
      omega
  show [] ++ encodeItem .SingleValue (stripLeadingZeros (minBE n)) = _
  rw [strip_eq_minBE, ofBE_minBE, List.nil_append]
  exact encodeSingle_eq _ (by omega)

theorem decode_encode_biguint (m : Build) (n : Nat) (h : (rlpBytes (minBE n)).length < 2 ^ 64) :
    decode m decBigUint (encode encBigUint n) = .ok n := by
  rw [encode_biguint n h, decode_single m _ _ h]
  simp only [decBigUint, decBigUintBytes, ne_eq, not_true_eq_false, if_false, out_bind_ok, fromBE_eq]
  split
  · rename_i hc
    have : n = 0 := minBE_eq_nil.mp (by simpa using hc)
    subst this; rfl
  · rw [ofBE_minBE]

theorem payload_le_rlpBytes (p : List UInt8) : p.length ≤ (rlpBytes p).length := by
  unfold rlpBytes; split
  · exact Nat.le_refl _
  · split <;> simp
    omega

theorem encode_vecU8 (b : List UInt8) (h : (rlpBytes b).length < 2 ^ 64) : encode encVecU8 b = rlpBytes b := by
  show [] ++ encodeItem .SingleValue b = _
  rw [List.nil_append]
  exact encodeSingle_eq _ (Nat.lt_of_le_of_lt (payload_le_rlpBytes b) h)

theorem decode_encode_vecU8 (m : Build) (b : List UInt8) (h : (rlpBytes b).length < 2 ^ 64) :
    decode m decVecU8 (encode encVecU8 b) = .ok b := by
  rw [encode_vecU8 b h, decode_single m _ _ h]; rfl

theorem encode_str (s : String) (h : (rlpBytes s.toByteArray.data.toList).length < 2 ^ 64) :
    encode encStr s = rlpBytes s.toByteArray.data.toList := encode_vecU8 _ h

theorem decode_encode_str (m : Build) (s : String) (h : (rlpBytes s.toByteArray.data.toList).length < 2 ^ 64) :
    decode m decString (encode encStr s) = .ok s := by
  rw [encode_str s h, decode_single m _ _ h]
  simp only [decString, ne_eq, not_true_eq_false, if_false]
  have : (⟨s.toByteArray.data.toList.toArray⟩ : ByteArray) = s.toByteArray := rfl
  rw [this, String.fromUTF8?, dif_pos s.isValidUTF8]
  rfl

/-! ## Totality of the typed decoders -/

theorem decode_returns {α : Type} (m : Build) (dec : Dec α) (data : List UInt8) (h : (decodeData m data).Returns)
    (hd : ∀ d, (dec d).Returns) : (decode m dec data).Returns := by
  unfold decode DecItem.newFromData
  rcases h with ⟨⟨t, p⟩, h⟩ | ⟨e, h⟩
  · rw [h]; exact hd _
  · rw [h]; exact Out.Returns.err e

theorem decU64_returns (d : DecItem) : (decU64 d).Returns := by
  unfold decU64; split
  · exact Out.Returns.err _
  · split
    · exact Out.Returns.err _
    · exact Out.Returns.ok _

theorem decBigUint_returns (d : DecItem) : (decBigUint d).Returns := by
  unfold decBigUint decBigUintBytes; split
  · exact Out.Returns.err _
  · exact Out.Returns.ok _

theorem decVecU8_returns (d : DecItem) : (decVecU8 d).Returns := by
  unfold decVecU8; split
  · exact Out.Returns.err _
  · exact Out.Returns.ok _

theorem decString_returns (d : DecItem) : (decString d).Returns := by
  unfold decString; split
  · exact Out.Returns.err _
  · split
    · exact Out.Returns.ok _
    · exact Out.Returns.err _

/-! ## Nested items -/

def HugeFree (data : List UInt8) : Prop := ∀ s, s <:+ data → ¬ DeclaresHugeLength s

theorem huge_prefix {a b : List UInt8} (h : DeclaresHugeLength a) (hp : a <+: b) : DeclaresHugeLength b := by
  obtain ⟨x, rfl⟩ := hp
  match a, h with
  | c :: rest, ⟨h1, h2, h3⟩ =>
    refine ⟨h1, by simp; omega, ?_⟩
    show _ ≤ ofBE ((rest ++ x).take 8)
    rw [List.take_append_of_le_length h2]; exact h3

theorem HugeFree.infix {a b : List UInt8} (h : HugeFree b) (hi : a <:+: b) : HugeFree a := by
  intro s hs hh
  obtain ⟨x, y, rfl⟩ := hi
  obtain ⟨z, rfl⟩ := hs
  exact h (s ++ y) ⟨x ++ z, by simp⟩ (huge_prefix hh ⟨y, rfl⟩)

theorem header_list_pos (m : Build) (data : List UInt8) (h n : Nat)
    (hd : decodeDataHeader m data = .ok (.List, h, n)) : 1 ≤ h := by
  match data, hd with
  | first :: rest, hd =>
    rw [decodeDataHeader_cons] at hd
    have long : ∀ t k, decodeLongHeader m t k (first :: rest) = .ok (.List, h, n) → 1 ≤ h := by
      intro t k hk
      unfold decodeLongHeader at hk
      split at hk
      · cases hk
      · obtain ⟨tot, _, hk⟩ := out_bind_eq_ok.mp hk
        split at hk
        · cases hk
        · cases hk; omega
    split at hd
    · cases hd
    · split at hd
      · cases hd
      · split at hd
        · exact long _ _ hd
        · split at hd
          · cases hd; omega
          · exact long _ _ hd

theorem decodeListLoop_items (m : Build) (fuel : Nat) (data : List UInt8) (items : List (ItemType × List UInt8))
    (h : decodeListLoop m fuel data = .ok items) :
    ∀ x ∈ items, x.2 <:+: data ∧ (x.1 = .List → x.2.length < data.length) := by
  induction fuel generalizing data items with
  | zero => cases h
  | succ fuel ih =>
    simp only [decodeListLoop] at h
    split at h
    · cases h; simp
    · rename_i hne
      obtain ⟨⟨t, hl, p⟩, hd, h⟩ := out_bind_eq_ok.mp h
      obtain ⟨total, ht, h⟩ := out_bind_eq_ok.mp h
      split at h
      · cases h
      · obtain ⟨payload, hp, h⟩ := out_bind_eq_ok.mp h
        obtain ⟨rest, hr, h⟩ := out_bind_eq_ok.mp h
        cases h
        intro x hx
        rcases List.mem_cons.mp hx with rfl | hx
        · unfold sliceFrom at hp
          split at hp
          · rename_i hle
            cases hp
            refine ⟨(List.drop_suffix _ _).isInfix.trans (List.take_prefix _ _).isInfix, ?_⟩
            rintro rfl
            have := header_list_pos m data hl p hd
            simp only [List.length_drop, List.length_take]
            have : data.length ≠ 0 := by simpa using hne
            omega
          · cases hp
        · obtain ⟨h1, h2⟩ := ih _ _ hr x hx
          refine ⟨h1.trans (List.drop_suffix _ _).isInfix, fun hx => ?_⟩
          have := h2 hx
          simp at this; omega

theorem decTree_returns (m : Build) (fuel : Nat) (d : DecItem) (hf : d.itemType = .List → d.payload.length + 1 < fuel)
    (h0 : 0 < fuel) (hh : HugeFree d.payload) : (decTree m fuel d).Returns := by
  induction fuel generalizing d with
  | zero => omega
  | succ fuel ih =>
    simp only [decTree]
    split
    · rename_i ht
      simp only [decVecU8, ht]; exact Out.Returns.ok _
    · rename_i ht
      have hret := decodeListLoop_returns m (d.payload.length + 1) d.payload (by omega) hh
      simp only [decVec, ht, DecItem.decodeAsItems, decodeListPayload]
      rw [show (dassert m (ItemType.List == ItemType.List) : Out RlpErr Unit) = .ok () by cases m <;> rfl]
      simp only [out_bind_ok, ne_eq, not_true_eq_false, if_false]
      rcases hret with ⟨items, hi⟩ | ⟨e, hi⟩
      · rw [hi]
        simp only [out_bind_ok]
        have hit := decodeListLoop_items m _ _ items hi
        have key : ∀ l : List (ItemType × List UInt8), (∀ x ∈ l, x ∈ items) →
            (decAll (decTree m fuel) (l.map fun x => ⟨x.1, x.2⟩)).Returns := by
          intro l
          induction l with
          | nil => intro _; exact Out.Returns.ok _
          | cons a l ihl =>
            intro hl
            obtain ⟨g1, g2⟩ := hit a (hl a (by simp))
            have := hf ht
            have ha : (decTree m fuel ⟨a.1, a.2⟩).Returns :=
              ih ⟨a.1, a.2⟩ (fun h => by have := g2 h; simp only; omega) (by omega) (hh.infix g1)
            simp only [List.map_cons, decAll]
            rcases ha with ⟨v, hv⟩ | ⟨e, hv⟩
            · rw [hv]; simp only [out_bind_ok]
              rcases ihl (fun x hx => hl x (by simp [hx])) with ⟨vs, hvs⟩ | ⟨e, hvs⟩
              · rw [hvs]; exact Out.Returns.ok _
              · rw [hvs]; exact Out.Returns.err _
            · rw [hv]; exact Out.Returns.err _
        rcases key items (fun x h => h) with ⟨v, hv⟩ | ⟨e, hv⟩
        · rw [hv]; exact Out.Returns.ok _
        · rw [hv]; exact Out.Returns.err _
      · rw [hi]; exact Out.Returns.err e

theorem decodeTree_returns (m : Build) (data : List UInt8) (h : HugeFree data) : (decodeTree m data).Returns := by
  unfold decodeTree decode DecItem.newFromData
  rcases decodeData_returns m data (h data (List.suffix_refl _)) with ⟨⟨t, p⟩, hd⟩ | ⟨e, hd⟩
  · rw [hd]
    simp only [decodeData] at hd
    obtain ⟨⟨t', hl, n⟩, hd', hk⟩ := out_bind_eq_ok.mp hd
    obtain ⟨total, ht, hk⟩ := out_bind_eq_ok.mp hk
    split at hk
    · cases hk
    · obtain ⟨payload, hp, hk⟩ := out_bind_eq_ok.mp hk
      cases hk
      unfold sliceFrom at hp
      split at hp
      · rename_i hle
        cases hp
        simp only [out_bind_ok]
        refine decTree_returns m _ _ ?_ (by omega) (h.infix (List.drop_suffix _ _).isInfix)
        rintro rfl
        have := header_list_pos m data hl n hd'
        simp only [List.length_drop]; omega
      · cases hp
  · rw [hd]; exact Out.Returns.err e

/-! ## Reuse of an encoding item -/

theorem run_append (e : EncItem) (a b : List EncOp) :
    EncItem.run e (a ++ b) = ((EncItem.run (EncItem.run e a).1 b).1, (EncItem.run e a).2 ++ (EncItem.run (EncItem.run e a).1 b).2) := by
  induction a generalizing e with
  | nil => rfl
  | cons op a ih =>
    cases op with
    | bytes x => simp only [List.cons_append, EncItem.run]; exact ih _
    | list x => simp only [List.cons_append, EncItem.run]; exact ih _
    | take => simp only [List.cons_append, EncItem.run, EncItem.takeData, ih]

theorem run_reuse (history next : List EncOp) :
    (EncItem.run (EncItem.run EncItem.new (history ++ [.take])).1 (next ++ [.take])).2 =
      (EncItem.run EncItem.new (next ++ [.take])).2 := by
  rw [run_append EncItem.new history]
  rfl

end LCT.Rlp
