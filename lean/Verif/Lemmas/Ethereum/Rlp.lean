import Verif.Lemmas.RlpTyped
import Verif.Lemmas.BigInt.Yields
import Verif.Spec.Ethereum

/-!
# RLP of the Ethereum value types and transactions
-/

namespace LCT.Ethereum
open LCT.BigInt LCT.Rlp LCT.Spec LCT.Spec.Eth LCT.Out LCT.Crypto
variable {ε : Type}

/-- The decoding item that the decoder makes for an item. -/
def dItem (x : Item) : DecItem := ⟨(shallow x).1, (shallow x).2⟩

@[simp] theorem dItem_bytes (b : List UInt8) : dItem (.bytes b) = ⟨.SingleValue, b⟩ := rfl
@[simp] theorem dItem_list (xs : List Item) : dItem (.list xs) = ⟨.List, treesBytes xs⟩ := rfl

theorem encodeBytes_eq (b : List UInt8) (e : EncItem) : e.encodeBytes b = e.extend (treeBytes (.bytes b)) := by
  simp [EncItem.encodeBytes, treeBytes, encodeSingleValue]

theorem encodeListPayload_eq (e l : EncItem) (xs : List Item) (h : l.encodedData = treesBytes xs) :
    e.encodeListPayload l = e.extend (treeBytes (.list xs)) := by
  simp [EncItem.encodeListPayload, EncItem.extend, treeBytes, encodeItem, h]

theorem encU64_eq (n : UInt64) (e : EncItem) : encU64 n e = e.extend (treeBytes (num n.toNat)) := by
  rw [encU64, strip_eq_minBE, ofBE_toBEk, Nat.mod_eq_of_lt n.toNat_lt]
  simp [num, treeBytes, encodeSingleValue]

theorem encBig_eq (m : Build) {w : Nat} [DigitWidth w] {x : BInt} {n : Nat} (hx : Denotes w x n) (e : EncItem) :
    (encBig m w x e : Out ε _) = .ok (e.extend (treeBytes (num n))) := by
  obtain ⟨_, h, rfl⟩ := toBeBytes_y (ε := ε) m hx
  simp only [encBig, h, bind_ok, pure_def, encBigUintBytes, strip_eq_minBE, ofBE_minBE, num, treeBytes, encodeSingleValue, Int.natAbs_natCast]

theorem encNonce_eq (n : EoaNonce) (e : EncItem) : encNonce n e = e.extend (treeBytes (num n.value.toNat)) := encU64_eq _ _

theorem encAddress_eq (a : Address) (e : EncItem) : encAddress a e = e.extend (treeBytes (.bytes a.data)) := encodeBytes_eq _ _

theorem encStorageKey_eq (a : StorageKey) (e : EncItem) : encStorageKey a e = e.extend (treeBytes (.bytes a.data)) := encodeBytes_eq _ _

theorem encVecU8_eq (b : List UInt8) (e : EncItem) : encVecU8 b e = e.extend (treeBytes (.bytes b)) := encodeBytes_eq _ _

theorem foldl_enc {α : Type} (enc : Enc α) (tree : α → Item) (h : ∀ x e, enc x e = e.extend (treeBytes (tree x))) (xs : List α) (e : EncItem) :
    xs.foldl (fun acc v => enc v acc) e = e.extend (treesBytes (xs.map tree)) := by
  induction xs generalizing e with
  | nil => simp [treesBytes, EncItem.extend]
  | cons x xs ih => rw [List.foldl_cons, h, ih]; simp [EncItem.extend, treesBytes]

theorem encVec_eq {α : Type} (enc : Enc α) (tree : α → Item) (h : ∀ x e, enc x e = e.extend (treeBytes (tree x))) (xs : List α) (e : EncItem) :
    encVec enc xs e = e.extend (treeBytes (.list (xs.map tree))) := by
  rw [encVec, foldl_enc enc tree h]
  exact encodeListPayload_eq _ _ _ (by simp [EncItem.extend, EncItem.new])

/-- The item for an entry of an access list. -/
def entryItem (a : AccessListItem) : Item := .list [.bytes a.address.data, .list (a.storageKeys.map fun k => .bytes k.data)]

theorem encAccessListItem_eq (a : AccessListItem) (e : EncItem) : encAccessListItem a e = e.extend (treeBytes (entryItem a)) := by
  simp only [encAccessListItem, encAddress_eq, encVec_eq encStorageKey (fun k => .bytes k.data) encStorageKey_eq]
  exact encodeListPayload_eq _ _ _ (by simp [EncItem.extend, EncItem.new, treesBytes])

theorem accessItem_eq (l : AccessList) : accessItem (accesses l) = .list (l.map entryItem) := by
  simp [accessItem, accesses, entryItem, Function.comp_def]

theorem encAccessList_eq (l : AccessList) (e : EncItem) : encAccessList l e = e.extend (treeBytes (accessItem (accesses l))) := by
  rw [encAccessList, encVec_eq encAccessListItem entryItem encAccessListItem_eq, accessItem_eq]

/-! ## Decoding -/

theorem decodeAsItems_list (m : Build) (xs : List Item) (h : (treesBytes xs).length < 2 ^ 64) :
    DecItem.decodeAsItems m ⟨.List, treesBytes xs⟩ = .ok (xs.map dItem) := by
  simp only [DecItem.decodeAsItems, ne_eq, not_true_eq_false, if_false]
  rw [treesBytes_eq, decodeListPayload_encode m _ (by rw [← treesBytes_eq]; exact h)]
  simp [dItem, Out.bind, Function.comp_def]

theorem decode_tree {α : Type} (m : Build) (dec : Dec α) (x : Item) (h : (treeBytes x).length < 2 ^ 64) :
    decode m dec (treeBytes x) = dec (dItem x) := by
  have h' := h
  rw [treeBytes_shallow] at h'
  rw [treeBytes_shallow, decode, newFromData_encodeItem m _ _ h']; rfl

theorem decU64_num (n : UInt64) : decU64 (dItem (num n.toNat)) = .ok n := by
  have hl := minBE_length_le n.toNat 8 n.toNat_lt
  show (if _ then _ else if (minBE n.toNat).length > 8 then _ else Out.ok (UInt64.ofNat (fromBE (_ ++ minBE n.toNat)))) = _
  rw [if_neg (by simp [num]), if_neg (by omega), fromBE_eq, ofBE_pad, ofBE_minBE]
  simp

theorem decU64_num' {n : Nat} (h : n < 2 ^ 64) : decU64 (dItem (num n)) = .ok (UInt64.ofNat n) := by
  have := decU64_num (UInt64.ofNat n)
  rwa [UInt64.toNat_ofNat_of_lt' h] at this

theorem decBig_num (w : Nat) [DigitWidth w] (n : Nat) : (decBig w (dItem (num n))).Yields (Denotes w · n) := by
  have : decBigUintBytes (dItem (num n)) = .ok (if (minBE n).isEmpty then [0] else minBE n) := by
    simp [num, decBigUintBytes]
  rw [decBig, this]
  show (BUint.fromBeBytes w _).Yields _
  split
  · rename_i h
    have : n = 0 := minBE_eq_nil.mp (by simpa using h)
    subst this
    exact fromBeBytes_y w [0] (by simp)
  · rename_i h
    have := fromBeBytes_y (ε := RlpErr) w (minBE n) (by simpa using h)
    rw [ofBE_minBE] at this
    exact this

theorem decNonce_num {n : Nat} (h : n < 2 ^ 64 - 1) : decNonce (dItem (num n)) = .ok ⟨UInt64.ofNat n⟩ := by
  have : UInt64.ofNat n ≠ 0xffffffffffffffff := by
    intro hc
    have := congrArg UInt64.toNat hc
    rw [UInt64.toNat_ofNat_of_lt' (by simp [UInt64.size]; omega)] at this
    simp at this; omega
  simp only [decNonce, decU64_num' (show n < 2 ^ 64 by omega), bind_ok, EoaNonce.fromU64, if_neg this]

theorem nonce_ofNat {nonce : EoaNonce} {n : Nat} (h : nonce.value.toNat = n) : (⟨UInt64.ofNat n⟩ : EoaNonce) = nonce := by
  subst h; simp

theorem decAddress_bytes (a : Address) : decAddress (dItem (.bytes a.data)) = .ok a := by
  simp [decAddress, DecItem.decodeAsBytes, Address.fromBytes, a.len]

theorem decStorageKey_bytes (a : StorageKey) : decStorageKey (dItem (.bytes a.data)) = .ok a := by
  simp [decStorageKey, DecItem.decodeAsBytes, StorageKey.fromBytes, a.len]

theorem decVecU8_bytes (b : List UInt8) : decVecU8 (dItem (.bytes b)) = .ok b := by
  simp [decVecU8]

theorem decAll_map {α : Type} (dec : Dec α) (tree : α → Item) (xs : List α) (h : ∀ x ∈ xs, dec (dItem (tree x)) = .ok x) :
    decAll dec ((xs.map tree).map dItem) = .ok xs := by
  induction xs with
  | nil => rfl
  | cons x xs ih =>
    simp only [List.map_cons, decAll, h x (by simp), ih (fun y hy => h y (by simp [hy])), Out.bind]

theorem mem_length_le {x : Item} {xs : List Item} (h : x ∈ xs) : (treeBytes x).length ≤ (treesBytes xs).length := by
  induction xs with
  | nil => simp at h
  | cons y ys ih =>
    rw [treesBytes, List.length_append]
    rcases List.mem_cons.mp h with rfl | h
    · omega
    · have := ih h; omega

theorem payload_lt {xs : List Item} (h : (treeBytes (.list xs)).length < 2 ^ 64) : (treesBytes xs).length < 2 ^ 64 := by
  have := payload_le .List (treesBytes xs)
  rw [treeBytes] at h
  omega

theorem decVec_map {α : Type} (m : Build) (dec : Dec α) (tree : α → Item) (xs : List α)
    (hl : (treeBytes (.list (xs.map tree))).length < 2 ^ 64) (h : ∀ x ∈ xs, dec (dItem (tree x)) = .ok x) :
    decVec m dec (dItem (.list (xs.map tree))) = .ok xs := by
  have h1 : (dassert m (ItemType.List == ItemType.List) : Out RlpErr Unit) = .ok () := by cases m <;> rfl
  simp only [decVec, dItem_list, h1, decodeAsItems_list m _ (payload_lt hl), Out.bind]
  exact decAll_map dec tree xs h

theorem decAccessListItem_entry (m : Build) (a : AccessListItem) (hl : (treeBytes (entryItem a)).length < 2 ^ 64) :
    decAccessListItem m (dItem (entryItem a)) = .ok a := by
  have hl' := payload_lt hl
  have h2 : (treeBytes (.list (a.storageKeys.map fun k => Item.bytes k.data))).length < 2 ^ 64 :=
    Nat.lt_of_le_of_lt (mem_length_le (by simp)) hl'
  simp only [entryItem, dItem_list, decAccessListItem, decodeAsItems_list m _ hl', bind_ok, List.map_cons, List.map_nil, List.length_cons,
    List.length_nil, nextItem, ne_eq, not_true_eq_false, if_false, decAddress_bytes]
  rw [← dItem_list, decVec_map m decStorageKey _ _ h2 (fun x _ => decStorageKey_bytes x)]
  rfl

theorem decAccessList_access (m : Build) (l : AccessList) (hl : (treeBytes (accessItem (accesses l))).length < 2 ^ 64) :
    decAccessList m (dItem (accessItem (accesses l))) = .ok l := by
  rw [accessItem_eq] at *
  have : decAccessList m (dItem (.list (l.map entryItem))) = decVec m (decAccessListItem m) (dItem (.list (l.map entryItem))) := rfl
  rw [this, decVec_map m _ entryItem l hl]
  intro x hx
  exact decAccessListItem_entry m x (Nat.lt_of_le_of_lt (mem_length_le (List.mem_map_of_mem hx)) (payload_lt hl))

theorem u8FromU64_ofNat {n : Nat} (h : n < 256) : u8FromU64 (UInt64.ofNat n) = .ok (UInt8.ofNat n) := by
  have : (UInt64.ofNat n).toNat = n := UInt64.toNat_ofNat_of_lt' (by simp [UInt64.size]; omega)
  rw [u8FromU64, this, if_pos h]

theorem u8FromU64_big {n : Nat} (h : 256 ≤ n) (h2 : n < 2 ^ 64) : u8FromU64 (UInt64.ofNat n) = .err .InvalidFormat := by
  have : (UInt64.ofNat n).toNat = n := UInt64.toNat_ofNat_of_lt' (by simp [UInt64.size]; omega)
  rw [u8FromU64, this, if_neg (by omega)]

end LCT.Ethereum
