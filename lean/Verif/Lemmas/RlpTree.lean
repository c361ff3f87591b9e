import Verif.Lemmas.Rlp

namespace LCT.Rlp
open LCT.Spec

mutual
/-- The bytes appended when encoding a tree. -/
def treeBytes : Item → List UInt8
  | .bytes b => encodeItem .SingleValue b
  | .list xs => encodeItem .List (treesBytes xs)
def treesBytes : List Item → List UInt8
  | [] => []
  | x :: xs => treeBytes x ++ treesBytes xs
end

/-- Item type and payload of the outermost level. -/
def shallow : Item → ItemType × List UInt8
  | .bytes b => (.SingleValue, b)
  | .list xs => (.List, treesBytes xs)

theorem treeBytes_shallow (x : Item) : treeBytes x = encodeItem (shallow x).1 (shallow x).2 := by
  cases x <;> simp [treeBytes, shallow]

theorem treesBytes_eq (xs : List Item) : treesBytes xs = encodeItems (xs.map shallow) := by
  induction xs with
  | nil => simp [treesBytes, encodeItems]
  | cons x xs ih => rw [treesBytes, ih, treeBytes_shallow]; rfl

mutual
theorem encTree_eq : (x : Item) → (e : EncItem) → encTree x e = ⟨e.encodedData ++ treeBytes x⟩
  | .bytes b, e => by simp [encTree, encVecU8, EncItem.encodeBytes, EncItem.extend, treeBytes, encodeSingleValue]
  | .list xs, e => by
    rw [encTree, encTrees_eq xs]
    simp [EncItem.encodeListPayload, EncItem.extend, treeBytes, encodeItem, EncItem.new]
theorem encTrees_eq : (xs : List Item) → (e : EncItem) → encTrees xs e = ⟨e.encodedData ++ treesBytes xs⟩
  | [], e => by simp [encTrees, treesBytes]
  | x :: xs, e => by rw [encTrees, encTree_eq x, encTrees_eq xs]; simp [treesBytes]
end

theorem encode_tree (x : Item) : encode encTree x = treeBytes x := by
  simp [encode, encTree_eq, EncItem.takeData, EncItem.new]

theorem payload_le (t : ItemType) (p : List UInt8) : p.length ≤ (encodeItem t p).length := by
  simp [encodeItem]

mutual
theorem treeBytes_rlp : (x : Item) → (treeBytes x).length < 2 ^ 64 → treeBytes x = rlp x
  | .bytes b, h => by
    have := payload_le .SingleValue b
    rw [treeBytes] at *
    rw [rlp]; exact encodeSingle_eq b (by omega)
  | .list xs, h => by
    have := payload_le .List (treesBytes xs)
    rw [treeBytes] at *
    rw [rlp, ← treesBytes_rlp xs (by omega)]; exact encodeList_eq _ (by omega)
theorem treesBytes_rlp : (xs : List Item) → (treesBytes xs).length < 2 ^ 64 → treesBytes xs = rlpSeq xs
  | [], _ => by simp [treesBytes, rlpSeq]
  | x :: xs, h => by
    rw [treesBytes, List.length_append] at h
    rw [treesBytes, rlpSeq, treeBytes_rlp x (by omega), treesBytes_rlp xs (by omega)]
end

mutual
theorem rlp_treeBytes : (x : Item) → (rlp x).length < 2 ^ 64 → treeBytes x = rlp x
  | .bytes b, h => by
    have hb : b.length < 2 ^ 64 := by
      rw [rlp, rlpBytes] at h
      split at h
      · exact h
      · split at h <;> simp at h <;> omega
    rw [treeBytes, rlp]; exact encodeSingle_eq b hb
  | .list xs, h => by
    have hb : (rlpSeq xs).length < 2 ^ 64 := by
      rw [rlp, rlpListOf] at h
      split at h <;> simp at h <;> omega
    have ih := rlp_treesBytes xs hb
    rw [treeBytes, rlp, ih]; exact encodeList_eq _ (by omega)
theorem rlp_treesBytes : (xs : List Item) → (rlpSeq xs).length < 2 ^ 64 → treesBytes xs = rlpSeq xs
  | [], _ => by simp [treesBytes, rlpSeq]
  | x :: xs, h => by
    rw [rlpSeq, List.length_append] at h
    rw [treesBytes, rlpSeq, rlp_treeBytes x (by omega), rlp_treesBytes xs (by omega)]
end

mutual
theorem decTree_shallow (m : Build) : (x : Item) → (fuel : Nat) → (treeBytes x).length < 2 ^ 64 →
    (treeBytes x).length < fuel → decTree m fuel ⟨(shallow x).1, (shallow x).2⟩ = .ok x
  | .bytes b, fuel + 1, _, _ => by simp [decTree, shallow, decVecU8]
  | .list xs, fuel + 1, h, hf => by
    have hlt : (treesBytes xs).length < (treeBytes (.list xs)).length := by
      rw [treeBytes, encodeItem, encodePayloadLength, if_neg (by simp)]
      split <;> simp <;> omega
    simp only [decTree, shallow, decVec, DecItem.decodeAsItems]
    have h1 : (dassert m (ItemType.List == ItemType.List) : Out RlpErr Unit) = .ok () := by cases m <;> rfl
    rw [h1]
    simp only [out_bind_ok, ne_eq, not_true_eq_false, if_false]
    rw [treesBytes_eq, decodeListPayload_encode m _ (by rw [← treesBytes_eq]; omega)]
    simp only [out_bind_ok]
    rw [decAll_shallow m xs fuel (by omega) (by omega)]
    rfl
  | .bytes b, 0, _, hf => by omega
  | .list xs, 0, _, hf => by omega
theorem decAll_shallow (m : Build) : (xs : List Item) → (fuel : Nat) → (treesBytes xs).length < 2 ^ 64 →
    (treesBytes xs).length < fuel → decAll (decTree m fuel) ((xs.map shallow).map fun x => ⟨x.1, x.2⟩) = .ok xs
  | [], _, _, _ => by simp [decAll]
  | x :: xs, fuel, h, hf => by
    rw [treesBytes, List.length_append] at h hf
    simp only [List.map_cons, decAll]
    rw [decTree_shallow m x fuel (by omega) (by omega)]
    simp only [out_bind_ok]
    rw [decAll_shallow m xs fuel (by omega) (by omega)]
    rfl
end

theorem newFromData_encodeItem (m : Build) (t : ItemType) (p : List UInt8) (h : (encodeItem t p).length < 2 ^ 64) :
    DecItem.newFromData m (encodeItem t p) = .ok ⟨t, p⟩ := by
  simp [DecItem.newFromData, decodeData_encodeItem m t p h]

theorem decodeTree_treeBytes (m : Build) (x : Item) (h : (treeBytes x).length < 2 ^ 64) :
    decodeTree m (treeBytes x) = .ok x := by
  simp only [decodeTree, decode]
  have h' := h
  rw [treeBytes_shallow] at h'
  rw [show DecItem.newFromData m (treeBytes x) = .ok ⟨(shallow x).1, (shallow x).2⟩ by
    rw [treeBytes_shallow]; exact newFromData_encodeItem m _ _ h']
  simp only [out_bind_ok]
  exact decTree_shallow m x _ h (by omega)

/-- Two encodings, one a prefix of the other's continuation, have the same length. -/
theorem encodeItem_prefix {t t' : ItemType} {p p' r r' : List UInt8}
    (h : (encodeItem t p ++ r).length < 2 ^ 64) (he : encodeItem t p ++ r = encodeItem t' p' ++ r') :
    t = t' ∧ p = p' ∧ r = r' := by
  have h1 := decodeDataHeader_encode .debug t p r h
  have h2 := decodeDataHeader_encode .debug t' p' r' (by rw [← he]; exact h)
  rw [he, h2] at h1
  simp only [Out.ok.injEq, Prod.mk.injEq] at h1
  obtain ⟨ht, hh, hp⟩ := h1
  have hl : (encodeItem t p).length = (encodeItem t' p').length := by simp [encodeItem, hh, hp]
  obtain ⟨e1, e2⟩ := List.append_inj he hl
  have e3 := List.append_inj (s₁ := encodePayloadLength t p) (s₂ := encodePayloadLength t' p') e1 hh.symm
  exact ⟨ht.symm, e3.2, e2⟩

end LCT.Rlp
