import Verif.Spec.RlpTypes
import Verif.Lemmas.Ethereum.Total
import Verif.Lemmas.RlpPanic

namespace LCT.Rlp
open LCT.Spec LCT.Spec.Eth LCT.Ethereum LCT.Out

/-! ## Encoding -/

theorem encBigUint_eq (n : Nat) (e : EncItem) : encBigUint n e = e.extend (treeBytes (num n)) := by
  simp only [encBigUint, encBigUintBytes, strip_eq_minBE, ofBE_minBE, num, treeBytes, encodeSingleValue]

mutual
theorem encTy_eq : (t : Ty) → (v : t.Val) → (e : EncItem) → encTy t v e = e.extend (treeBytes (itemOf t v))
  | .u64, v, e => by rw [encTy, itemOf]; exact encU64_eq v e
  | .big, v, e => by rw [encTy, itemOf]; exact encBigUint_eq v e
  | .str, v, e => by rw [encTy, itemOf]; exact encodeBytes_eq _ e
  | .bytes, v, e => by rw [encTy, itemOf]; exact encVecU8_eq v e
  | .address, v, e => by rw [encTy, itemOf]; exact encAddress_eq v e
  | .key, v, e => by rw [encTy, itemOf]; exact encStorageKey_eq v e
  | .vec t, v, e => by
    rw [encTy, itemOf]
    exact encVec_eq (encTy t) (itemOf t) (fun x e => encTy_eq t x e) v e
  | .record fs, v, e => by
    rw [encTy, itemOf]
    refine encodeListPayload_eq _ _ _ ?_
    rw [encFields_eq fs v]
    simp [EncItem.extend, EncItem.new]
theorem encFields_eq : (fs : List Ty) → (v : Vals fs) → (e : EncItem) → encFields fs v e = e.extend (treesBytes (itemsOf fs v))
  | [], v, e => by simp [encFields, itemsOf, treesBytes, EncItem.extend]
  | t :: fs, v, e => by
    rw [encFields, itemsOf, encTy_eq t v.1, encFields_eq fs v.2]
    simp [EncItem.extend, treesBytes]
end

theorem encode_ty (t : Ty) (v : t.Val) (h : (rlp (itemOf t v)).length < 2 ^ 64) : encode (encTy t) v = rlp (itemOf t v) := by
  rw [encode, encTy_eq, rlp_treeBytes _ h]
  simp [EncItem.takeData, EncItem.extend, EncItem.new]

/-! ## Decoding -/

theorem opensAll_iff {as : List (ItemType × List UInt8)} {xs : List Item} : OpensAll as xs ↔ List.Forall₂ Opens as xs := by
  induction as generalizing xs with
  | nil => cases xs <;> simp [OpensAll]
  | cons a as ih => cases xs <;> simp [OpensAll, ih]

theorem decString_ok_iff {a : ItemType × List UInt8} {s : String} : decString ⟨a.1, a.2⟩ = .ok s ↔ Opens a (.bytes (utf8 s)) := by
  obtain ⟨t, p⟩ := a
  constructor
  · intro h
    unfold decString at h
    split at h
    · cases h
    · rename_i ht
      simp only [ne_eq, Decidable.not_not] at ht
      subst ht
      split at h
      · rename_i s' hs
        cases h
        unfold String.fromUTF8? at hs
        split at hs
        · cases hs; rfl
        · cases hs
      · cases h
  · intro h
    cases h
    simp only [decString, ne_eq, not_true_eq_false, if_false]
    have : (⟨(utf8 s).toArray⟩ : ByteArray) = s.toByteArray := rfl
    rw [this, String.fromUTF8?, dif_pos s.isValidUTF8]
    rfl

theorem decBigUint_ok_iff {a : ItemType × List UInt8} {n : Nat} : decBigUint ⟨a.1, a.2⟩ = .ok n ↔ ∃ x, Opens a x ∧ LaxNum n x := by
  obtain ⟨t, p⟩ := a
  have hp : ofBE (if p.isEmpty then [0] else p) = ofBE p := by
    cases p <;> rfl
  constructor
  · intro h
    unfold decBigUint decBigUintBytes at h
    split at h
    · cases h
    · rename_i ht
      simp only [ne_eq, Decidable.not_not] at ht
      subst ht
      simp only [out_bind_ok, fromBE_eq, Out.ok.injEq] at h
      exact ⟨.bytes p, rfl, p, rfl, hp.symm.trans h⟩
  · rintro ⟨x, ho, b, rfl, hn⟩
    cases ho
    simp only [decBigUint, decBigUintBytes, ne_eq, not_true_eq_false, if_false, out_bind_ok, fromBE_eq]
    rw [hp, hn]

theorem decAll_ok_iff {α : Type} {dec : Dec α} {ds : List DecItem} {vs : List α} :
    decAll dec ds = .ok vs ↔ List.Forall₂ (fun d v => dec d = .ok v) ds vs := by
  induction ds generalizing vs with
  | nil => cases vs <;> simp [decAll]
  | cons d ds ih =>
    simp only [decAll]
    constructor
    · intro h
      obtain ⟨v, h1, h⟩ := out_bind_eq_ok.mp h
      obtain ⟨vs', h2, h⟩ := out_bind_eq_ok.mp h
      cases h
      exact .cons h1 (ih.mp h2)
    · intro h
      cases h with
      | cons h1 h2 => rw [h1, out_bind_ok, ih.mpr h2]; rfl

/-- Choosing the items that stand between what the decoder shows and what it returns. -/
theorem forall₂_through {α β γ : Type} {R : α → γ → Prop} {S : α → β → Prop} {T : β → γ → Prop} {as : List α} {vs : List γ}
    (h : ∀ a ∈ as, ∀ v, R a v ↔ ∃ x, S a x ∧ T x v) :
    List.Forall₂ R as vs ↔ ∃ xs, List.Forall₂ S as xs ∧ List.Forall₂ T xs vs := by
  induction as generalizing vs with
  | nil =>
    constructor
    · intro h; cases h; exact ⟨[], .nil, .nil⟩
    · rintro ⟨xs, h1, h2⟩; cases h1; cases h2; exact .nil
  | cons a as ih =>
    have ih := fun vs => ih (vs := vs) fun b hb => h b (by simp [hb])
    constructor
    · intro hr
      cases hr with
      | cons h1 h2 =>
        obtain ⟨x, h3, h4⟩ := (h a (by simp) _).mp h1
        obtain ⟨xs, h5, h6⟩ := (ih _).mp h2
        exact ⟨x :: xs, .cons h3 h5, .cons h4 h6⟩
    · rintro ⟨xs, h1, h2⟩
      cases h1 with
      | cons h3 h5 =>
        cases h2 with
        | cons h4 h6 => exact .cons ((h a (by simp) _).mpr ⟨_, h3, h4⟩) ((ih _).mpr ⟨_, h5, h6⟩)

private def item (a : ItemType × List UInt8) : DecItem := ⟨a.1, a.2⟩

theorem decodeAsItems_iff (m : Build) {p : List UInt8} (hl : p.length < 2 ^ 64) {ds : List DecItem} :
    DecItem.decodeAsItems m ⟨.List, p⟩ = .ok ds ↔ ∃ as, RelaxedSeq as p ∧ ds = as.map fun x => ⟨x.1, x.2⟩ := by
  unfold DecItem.decodeAsItems
  rw [if_neg (by simp)]
  constructor
  · intro h
    obtain ⟨as, h1, h⟩ := out_bind_eq_ok.mp h
    cases h
    exact ⟨as, (decodeListPayload_iff m p as hl).mp h1, rfl⟩
  · rintro ⟨as, h1, rfl⟩
    rw [(decodeListPayload_iff m p as hl).mpr h1]
    rfl

mutual
theorem decTy_ok_iff (m : Build) : (t : Ty) → (a : ItemType × List UInt8) → a.2.length < 2 ^ 64 → (v : t.Val) →
    (decTy m t ⟨a.1, a.2⟩ = .ok v ↔ ∃ x, Opens a x ∧ ReadsAs t x v)
  | .u64, a, _, v => by simp only [decTy, ReadsAs]; exact decU64_ok_iff
  | .big, a, _, v => by simp only [decTy, ReadsAs]; exact decBigUint_ok_iff
  | .str, a, _, v => by simp only [decTy, ReadsAs]; exact decString_ok_iff.trans ⟨fun h => ⟨_, h, rfl⟩, fun ⟨_, h, e⟩ => e ▸ h⟩
  | .bytes, a, _, v => by simp only [decTy, ReadsAs]; exact decVecU8_ok_iff.trans ⟨fun h => ⟨_, h, rfl⟩, fun ⟨_, h, e⟩ => e ▸ h⟩
  | .address, a, _, v => by simp only [decTy, ReadsAs]; exact decAddress_ok_iff.trans ⟨fun h => ⟨_, h, rfl⟩, fun ⟨_, h, e⟩ => e ▸ h⟩
  | .key, a, _, v => by simp only [decTy, ReadsAs]; exact decStorageKey_ok_iff.trans ⟨fun h => ⟨_, h, rfl⟩, fun ⟨_, h, e⟩ => e ▸ h⟩
  | .vec t, (.SingleValue, p), _, v => by
    simp only [decTy, ReadsAs]
    constructor
    · intro h; cases m <;> cases h
    · rintro ⟨_, ho, xs, rfl, -⟩; cases ho.1
  | .vec t, (.List, p), hl, v => by
    simp only [decTy, ReadsAs, decVec_list]
    have all : ∀ (v : List t.Val) as, RelaxedSeq as p → (decAll (decTy m t) (as.map fun x => ⟨x.1, x.2⟩) = .ok v ↔
        ∃ xs, OpensAll as xs ∧ List.Forall₂ (ReadsAs t) xs v) := by
      intro v as hs
      have hle := seq_item_le hs
      simp only [opensAll_iff]
      rw [decAll_ok_iff, List.forall₂_map_left_iff]
      exact forall₂_through fun a ha v => decTy_ok_iff m t a (Nat.lt_of_le_of_lt (hle a ha) hl) v
    constructor
    · intro h
      obtain ⟨as, h1, h2⟩ := out_bind_eq_ok.mp h
      have hs := (decodeListPayload_iff m p as hl).mp h1
      obtain ⟨xs, h3, h4⟩ := (all v as hs).mp h2
      exact ⟨.list xs, ⟨rfl, trees_iff_opens.mpr ⟨as, hs, h3⟩⟩, xs, rfl, h4⟩
    · rintro ⟨_, ho, xs, rfl, h4⟩
      obtain ⟨as, hs, h3⟩ := trees_iff_opens.mp ho.2
      rw [(decodeListPayload_iff m p as hl).mpr hs]
      exact (all v as hs).mpr ⟨xs, h3, h4⟩
  | .record fs, (.SingleValue, p), _, v => by
    simp only [decTy, ReadsAs]
    constructor
    · intro h; cases h
    · rintro ⟨_, ho, xs, rfl, -⟩; cases ho.1
  | .record fs, (.List, p), hl, v => by
    simp only [decTy, ReadsAs]
    constructor
    · intro h
      obtain ⟨ds, h1, h2⟩ := bind_eq_ok.mp h
      obtain ⟨as, hs, rfl⟩ := (decodeAsItems_iff m hl).mp h1
      have hle := seq_item_le hs
      by_cases hlen : as.length = fs.length
      · replace h2 := (if_neg (by rw [List.length_map, hlen]; simp)).symm.trans h2
        obtain ⟨xs, h3, h4⟩ := (decFields_ok_iff m fs as (fun a ha => Nat.lt_of_le_of_lt (hle a ha) hl) hlen v).mp h2
        exact ⟨.list xs, ⟨rfl, trees_iff_opens.mpr ⟨as, hs, opensAll_iff.mpr h3⟩⟩, xs, rfl, h4⟩
      · cases (if_pos (by rw [List.length_map]; exact hlen)).symm.trans h2
    · rintro ⟨_, ho, xs, rfl, h4⟩
      obtain ⟨as, hs, h3⟩ := trees_iff_opens.mp ho.2
      have hle := seq_item_le hs
      rw [(decodeAsItems_iff m hl).mpr ⟨as, hs, rfl⟩, Out.bind_ok]
      have hlen : as.length = fs.length := (opensAll_iff.mp h3).length_eq.trans (readAs_length fs xs v h4)
      exact (if_neg (by rw [List.length_map, hlen]; simp)).trans
        ((decFields_ok_iff m fs as (fun a ha => Nat.lt_of_le_of_lt (hle a ha) hl) hlen v).mpr ⟨xs, opensAll_iff.mp h3, h4⟩)
theorem decFields_ok_iff (m : Build) : (fs : List Ty) → (as : List (ItemType × List UInt8)) → (∀ a ∈ as, a.2.length < 2 ^ 64) →
    as.length = fs.length → (v : Vals fs) →
    (decFields m fs (as.map fun x => ⟨x.1, x.2⟩) = .ok v ↔ ∃ xs, List.Forall₂ Opens as xs ∧ ReadAs fs xs v)
  | [], [], _, _, v => by
    simp only [decFields, ReadAs]
    exact ⟨fun _ => ⟨[], .nil, rfl⟩, fun _ => rfl⟩
  | t :: fs, a :: as, hl, hlen, v => by
    have ih1 := decTy_ok_iff m t a (hl a (by simp))
    have ih2 := decFields_ok_iff m fs as (fun b hb => hl b (by simp [hb])) (by simpa using hlen)
    simp only [decFields, ReadAs, List.map_cons]
    change ((decTy m t ⟨a.1, a.2⟩).bind fun v => (decFields m fs (as.map fun x => ⟨x.1, x.2⟩)).bind fun vs => .ok (v, vs)) = .ok v ↔ _
    constructor
    · intro h
      obtain ⟨v1, h1, h⟩ := out_bind_eq_ok.mp h
      obtain ⟨v2, h2, h⟩ := out_bind_eq_ok.mp h
      cases h
      obtain ⟨x, h3, h4⟩ := (ih1 v1).mp h1
      obtain ⟨xs, h5, h6⟩ := (ih2 v2).mp h2
      exact ⟨x :: xs, .cons h3 h5, x, xs, rfl, h4, h6⟩
    · rintro ⟨_, ho, x, xs, rfl, h4, h6⟩
      cases ho with
      | cons h3 h5 =>
        rw [(ih1 v.1).mpr ⟨x, h3, h4⟩, out_bind_ok, (ih2 v.2).mpr ⟨xs, h5, h6⟩]
        rfl
theorem readAs_length : (fs : List Ty) → (xs : List Item) → (v : Vals fs) → ReadAs fs xs v → xs.length = fs.length
  | [], _, _, h => by simp only [ReadAs] at h; simp [h]
  | t :: fs, _, v, h => by
    simp only [ReadAs] at h
    obtain ⟨x, rest, rfl, -, h⟩ := h
    simp [readAs_length fs rest v.2 h]
end

/-! ## What is written can be read -/

mutual
theorem itemOf_reads : (t : Ty) → (v : t.Val) → ReadsAs t (itemOf t v) v
  | .u64, v => by
    simp only [ReadsAs, itemOf]
    exact ⟨_, rfl, minBE_length_le _ 8 (UInt64.toNat_lt v), ofBE_minBE _⟩
  | .big, v => by simp only [ReadsAs, itemOf]; exact ⟨_, rfl, ofBE_minBE _⟩
  | .str, v => by simp only [ReadsAs, itemOf]
  | .bytes, v => by simp only [ReadsAs, itemOf]
  | .address, v => by simp only [ReadsAs, itemOf]
  | .key, v => by simp only [ReadsAs, itemOf]
  | .vec t, v => by
    simp only [ReadsAs, itemOf]
    refine ⟨_, rfl, ?_⟩
    exact (List.forall₂_map_left_iff (u := (v : List t.Val))).mpr (List.forall₂_same.mpr fun x _ => itemOf_reads t x)
  | .record fs, v => by
    simp only [ReadsAs, itemOf]
    exact ⟨_, rfl, itemsOf_read fs v⟩
theorem itemsOf_read : (fs : List Ty) → (v : Vals fs) → ReadAs fs (itemsOf fs v) v
  | [], v => by simp only [ReadAs, itemsOf]
  | t :: fs, v => by
    simp only [ReadAs, itemsOf]
    exact ⟨_, _, rfl, itemOf_reads t v.1, itemsOf_read fs v.2⟩
end

/-! ## Totality -/

mutual
theorem agr_ty : (t : Ty) → (d : DecItem) → d.payload.length < 2 ^ 64 → HugeFree d.payload → Agr True (decTy .debug t d) (decTy .release t d)
  | .u64, d, _, _ => by simp only [decTy]; exact agr_ret (decU64_returns d)
  | .big, d, _, _ => by simp only [decTy]; exact agr_ret (decBigUint_returns d)
  | .str, d, _, _ => by simp only [decTy]; exact agr_ret (decString_returns d)
  | .bytes, d, _, _ => by simp only [decTy]; exact agr_ret (decVecU8_returns d)
  | .address, d, _, _ => by simp only [decTy]; exact agr_ret (decAddress_returns d)
  | .key, d, _, _ => by simp only [decTy]; exact agr_ret (decStorageKey_returns d)
  | .vec t, d, hl, hh => by
    simp only [decTy]
    exact agr_decVec d hl hh (fun _ => trivial) fun i h1 h2 => agr_ty t i h1 h2
  | .record fs, ⟨.SingleValue, p⟩, _, _ => by simp only [decTy]; exact agr_err _
  | .record fs, ⟨.List, p⟩, hl, hh => by
    simp only [decTy]
    refine agr_bind (agr_items _ hl hh) fun ds hds => ?_
    have hin := items_infix hds
    change Agr (α := Vals fs) True (if ds.length ≠ fs.length then .err .InvalidFormat else decFields .debug fs ds)
      (if ds.length ≠ fs.length then .err .InvalidFormat else decFields .release fs ds)
    split
    · exact agr_err _
    · rename_i h
      exact agr_fields fs ds (by simpa using h) fun i hi => ⟨Nat.lt_of_le_of_lt (hin i hi).length_le hl, hh.infix (hin i hi)⟩
theorem agr_fields : (fs : List Ty) → (ds : List DecItem) → ds.length = fs.length →
    (∀ d ∈ ds, d.payload.length < 2 ^ 64 ∧ HugeFree d.payload) → Agr True (decFields .debug fs ds) (decFields .release fs ds)
  | [], ds, _, _ => by simp only [decFields]; exact agr_ok _
  | t :: fs, d :: ds, hlen, h => by
    simp only [decFields]
    obtain ⟨h1, h2⟩ := h d (by simp)
    have ih1 := agr_ty t d h1 h2
    have ih2 := agr_fields fs ds (by simpa using hlen) fun i hi => h i (by simp [hi])
    exact agr_bind (α := t.Val) (β := t.Val × Vals fs) ih1 fun v _ => agr_bind ih2 fun vs _ => agr_ok _
end

mutual
theorem nh_ty (m : Build) : (t : Ty) → (d : DecItem) → NH (decTy m t d)
  | .u64, d => by simp only [decTy]; exact nh_ret (decU64_returns d)
  | .big, d => by simp only [decTy]; exact nh_ret (decBigUint_returns d)
  | .str, d => by simp only [decTy]; exact nh_ret (decString_returns d)
  | .bytes, d => by simp only [decTy]; exact nh_ret (decVecU8_returns d)
  | .address, d => by simp only [decTy]; exact nh_ret (decAddress_returns d)
  | .key, d => by simp only [decTy]; exact nh_ret (decStorageKey_returns d)
  | .vec t, d => by simp only [decTy]; exact nh_decVec m (fun i => nh_ty m t i) d
  | .record fs, ⟨.SingleValue, p⟩ => by simp only [decTy]; exact nh_ret (.err _)
  | .record fs, ⟨.List, p⟩ => by
    simp only [decTy]
    refine nh_bind (nh_items m _) fun ds _ => ?_
    change NH (α := Vals fs) (if ds.length ≠ fs.length then .err .InvalidFormat else decFields m fs ds)
    split
    · exact nh_ret (.err _)
    · rename_i h
      exact nh_fields m fs ds (by simpa using h)
theorem nh_fields (m : Build) : (fs : List Ty) → (ds : List DecItem) → ds.length = fs.length → NH (decFields m fs ds)
  | [], ds, _ => by simp only [decFields]; exact nh_ret (.ok _)
  | t :: fs, d :: ds, hlen => by
    simp only [decFields]
    have ih2 := nh_fields m fs ds (by simpa using hlen)
    exact nh_bind (α := t.Val) (β := t.Val × Vals fs) (nh_ty m t d) fun v _ => nh_bind ih2 fun vs _ => nh_ret (.ok _)
end

end LCT.Rlp
