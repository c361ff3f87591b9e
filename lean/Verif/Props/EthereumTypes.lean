import Verif.Lemmas.Ethereum.Address
import Verif.Lemmas.Ethereum.Transaction

/-!
# Ethereum value types: C38 (the rest) and C39
-/

namespace LCT.Props
open LCT.BigInt LCT.Rlp LCT.Spec LCT.Spec.Eth LCT.Out LCT.Codecs LCT.Ethereum
variable {ε : Type}

/-! ## C38 -/

/-- C38, at the level of digits: a `BigUint`, `Wei` or `ChainId` whose value is `n`, in whatever representation, is encoded as the RLP string
of the shortest big-endian form of `n`, and decoding gives a well-formed number of the same value, for all builds and digit widths. -/
theorem C38_wei_chain_id (m : Build) (w : Nat) [DigitWidth w] (x : BInt) (n : Nat) (hx : Denotes w x n)
    (hl : (rlpBytes (minBE n)).length < 2 ^ 64) :
    (encodeM (encBig m w) x : Out ε _) = .ok (rlpBytes (minBE n)) ∧
    ∃ y, decode m (decBig w) (rlpBytes (minBE n)) = .ok y ∧ Denotes w y n := by
  have hr : rlp (num n) = rlpBytes (minBE n) := by rw [num, rlp]
  rw [← hr] at hl ⊢
  refine ⟨encodeM_eq (encBig_eq m hx) hl, ?_⟩
  rw [← rlp_treeBytes _ hl, decode_tree m _ _ (by rw [rlp_treeBytes _ hl]; exact hl)]
  exact decBig_num w n

/-- C38: a nonce is made from every 64-bit number except the largest. -/
theorem C38_nonce_from_u64 (n : UInt64) : EoaNonce.fromU64 n = if n.toNat = 2 ^ 64 - 1 then none else some ⟨n⟩ := by
  have : n = 0xffffffffffffffff ↔ n.toNat = 2 ^ 64 - 1 := by
    rw [← UInt64.toNat_inj]; rfl
  simp only [EoaNonce.fromU64, this]

/-- C38: nonces are encoded as the RLP string of the shortest big-endian form, and every nonce that can be made is decoded again; the encoding
of `2 ^ 64 - 1` is rejected. -/
theorem C38_nonce (m : Build) (n : EoaNonce) :
    encode encNonce n = rlpBytes (minBE n.value.toNat) ∧
    (n.value.toNat ≠ 2 ^ 64 - 1 → decode m decNonce (rlpBytes (minBE n.value.toNat)) = .ok n) ∧
    (n.value.toNat = 2 ^ 64 - 1 → decode m decNonce (rlpBytes (minBE n.value.toNat)) = .err .InvalidFormat) := by
  have hlt := n.value.toNat_lt
  have hl := rlpBytes_length_lt (minBE n.value.toNat) (by have := minBE_length_le n.value.toNat 8 hlt; omega)
  have hr : rlp (num n.value.toNat) = rlpBytes (minBE n.value.toNat) := by rw [num, rlp]
  rw [← hr] at hl ⊢
  have ht := rlp_treeBytes _ hl
  refine ⟨?_, fun h => ?_, fun h => ?_⟩
  · rw [encode, encNonce_eq, ht]; simp [EncItem.takeData, EncItem.extend, EncItem.new]
  · rw [← ht, decode_tree m _ _ (by rw [ht]; exact hl), decNonce_num (by omega), nonce_ofNat rfl]
  · rw [← ht, decode_tree m _ _ (by rw [ht]; exact hl), decNonce, decU64_num]
    simp only [bind_ok, C38_nonce_from_u64, if_pos h]

/-- C38: addresses and storage keys are encoded as RLP strings and decoded again. -/
theorem C38_address (m : Build) (a : Address) :
    encode encAddress a = rlpBytes a.data ∧ decode m decAddress (rlpBytes a.data) = .ok a := by
  have hl := rlpBytes_length_lt a.data (by rw [a.len]; decide)
  have hr : rlp (.bytes a.data) = rlpBytes a.data := by rw [rlp]
  rw [← hr] at hl ⊢
  have ht := rlp_treeBytes _ hl
  refine ⟨?_, ?_⟩
  · rw [encode, encAddress_eq, ht]; simp [EncItem.takeData, EncItem.extend, EncItem.new]
  · rw [← ht, decode_tree m _ _ (by rw [ht]; exact hl), decAddress_bytes]

theorem C38_storage_key (m : Build) (a : StorageKey) :
    encode encStorageKey a = rlpBytes a.data ∧ decode m decStorageKey (rlpBytes a.data) = .ok a := by
  have hl := rlpBytes_length_lt a.data (by rw [a.len]; decide)
  have hr : rlp (.bytes a.data) = rlpBytes a.data := by rw [rlp]
  rw [← hr] at hl ⊢
  have ht := rlp_treeBytes _ hl
  refine ⟨?_, ?_⟩
  · rw [encode, encStorageKey_eq, ht]; simp [EncItem.takeData, EncItem.extend, EncItem.new]
  · rw [← ht, decode_tree m _ _ (by rw [ht]; exact hl), decStorageKey_bytes]

/-- C38: access lists of any shape. -/
theorem C38_access_list (m : Build) (l : AccessList) (hl : (rlp (accessItem (accesses l))).length < 2 ^ 64) :
    encode encAccessList l = rlp (accessItem (accesses l)) ∧ decode m (decAccessList m) (rlp (accessItem (accesses l))) = .ok l := by
  have ht := rlp_treeBytes _ hl
  refine ⟨?_, ?_⟩
  · rw [encode, encAccessList_eq, ht]; simp [EncItem.takeData, EncItem.extend, EncItem.new]
  · rw [← ht, decode_tree m _ _ (by rw [ht]; exact hl), decAccessList_access m l (by rw [ht]; exact hl)]

example : encode encNonce ⟨1024⟩ = [0x82, 0x04, 0x00] := by decide
example : decode .debug decNonce [0x88, 255, 255, 255, 255, 255, 255, 255, 255] = .err .InvalidFormat := by decide

/-! ## C39 -/

/-- C39: an address is made from exactly the byte strings of length 20, and holds those bytes. -/
theorem C39_address_from_bytes (bs : List UInt8) :
    (bs.length = 20 → ∃ a, Address.fromBytes bs = some a ∧ a.data = bs) ∧ (bs.length ≠ 20 → Address.fromBytes bs = none) := by
  unfold Address.fromBytes
  exact ⟨fun h => ⟨⟨bs, h⟩, dif_pos h, rfl⟩, fun h => dif_neg h⟩

/-- C39: a storage key is made from exactly the byte strings of length 32, and holds those bytes. -/
theorem C39_storage_key_from_bytes (bs : List UInt8) :
    (bs.length = 32 → ∃ a, StorageKey.fromBytes bs = some a ∧ a.data = bs) ∧ (bs.length ≠ 32 → StorageKey.fromBytes bs = none) := by
  unfold StorageKey.fromBytes
  exact ⟨fun h => ⟨⟨bs, h⟩, dif_pos h, rfl⟩, fun h => dif_neg h⟩

/-- C39: the texts that parse as the address `a` are `0x` followed by 40 hex digits, of either case, that spell its bytes. -/
theorem C39_address_parse_iff (s : List UInt8) (a : Address) :
    Address.tryFromStr s = .ok a ↔
      ∃ h, s = 48 :: 120 :: h ∧ h.length = 40 ∧ (∀ c ∈ h, IsHexDigit c) ∧ h.map lowerChar = hexOf a.data := by
  unfold Address.tryFromStr
  split
  · rename_i h
    rw [show (∃ h', 48 :: 120 :: h = 48 :: 120 :: h' ∧ h'.length = 40 ∧ (∀ c ∈ h', IsHexDigit c) ∧ h'.map lowerChar = hexOf a.data) ↔
      (h.length = 40 ∧ (∀ c ∈ h, IsHexDigit c) ∧ h.map lowerChar = hexOf a.data) by simp]
    rw [← address_fromHex_iff]
    cases Address.fromHex h <;> simp
  · rename_i hn
    constructor
    · intro h; cases h
    · rintro ⟨h, rfl, -⟩
      exact absurd rfl (hn h)

/-- C39: every other text is reported as invalid input: no other error and no panic. -/
theorem C39_address_parse_total (s : List UInt8) :
    (∃ a, Address.tryFromStr s = .ok a) ∨ Address.tryFromStr s = .err .InvalidInput := by
  unfold Address.tryFromStr
  split
  · split
    · exact .inl ⟨_, rfl⟩
    · exact .inr rfl
  · exact .inr rfl

/-- C39: the same for storage keys, with 64 digits. -/
theorem C39_storage_key_parse_iff (s : List UInt8) (a : StorageKey) :
    StorageKey.tryFromStr s = .ok a ↔
      ∃ h, s = 48 :: 120 :: h ∧ h.length = 64 ∧ (∀ c ∈ h, IsHexDigit c) ∧ h.map lowerChar = hexOf a.data := by
  unfold StorageKey.tryFromStr
  split
  · rename_i h
    rw [show (∃ h', 48 :: 120 :: h = 48 :: 120 :: h' ∧ h'.length = 64 ∧ (∀ c ∈ h', IsHexDigit c) ∧ h'.map lowerChar = hexOf a.data) ↔
      (h.length = 64 ∧ (∀ c ∈ h, IsHexDigit c) ∧ h.map lowerChar = hexOf a.data) by simp]
    rw [← storageKey_fromHex_iff]
    cases StorageKey.fromHex h <;> simp
  · rename_i hn
    constructor
    · intro h; cases h
    · rintro ⟨h, rfl, -⟩
      exact absurd rfl (hn h)

theorem C39_storage_key_parse_total (s : List UInt8) :
    (∃ a, StorageKey.tryFromStr s = .ok a) ∨ StorageKey.tryFromStr s = .err .InvalidInput := by
  unfold StorageKey.tryFromStr
  split
  · split
    · exact .inl ⟨_, rfl⟩
    · exact .inr rfl
  · exact .inr rfl

/-- C39: printing an address never panics and gives `0x` and the EIP-55 form, with Keccak-256. -/
theorem C39_address_print (m : Build) (a : Address) :
    (a.display m : Out ε _) = .ok (48 :: 120 :: eip55 Sha3.keccak256 a.data) := display_eq m a

/-- C39: what is printed parses back to the same address. -/
theorem C39_address_print_parse (m : Build) (a : Address) (s : List UInt8) (hs : (a.display m : Out ε _) = .ok s) :
    Address.tryFromStr s = .ok a := by
  rw [display_eq] at hs
  cases hs
  rw [C39_address_parse_iff]
  obtain ⟨h1, h2⟩ := eip55_lower Sha3.keccak256 a.data
  exact ⟨_, rfl, by rw [eip55_length, a.len], fun c hc => (h2 c hc).1, h1⟩

/-- C39: printing what was parsed from any accepted text gives a text that parses and prints as itself. -/
theorem C39_address_fixed_point (m : Build) (s : List UInt8) (a : Address) (_hs : Address.tryFromStr s = .ok a) :
    ∃ s', (a.display m : Out ε _) = .ok s' ∧ ∃ a', Address.tryFromStr s' = .ok a' ∧ (a'.display m : Out ε _) = .ok s' :=
  ⟨_, display_eq m a, a, C39_address_print_parse m a _ (display_eq (ε := Unit) m a), display_eq m a⟩

/-- C39: a storage key is printed as `0x` and 64 lower-case digits, which parse back to it. -/
theorem C39_storage_key_print (k : StorageKey) :
    k.display = 48 :: 120 :: hexOf k.data ∧ StorageKey.tryFromStr k.display = .ok k := by
  have h : k.display = 48 :: 120 :: hexOf k.data := by rw [StorageKey.display, bytesToLowerHex_eq]
  refine ⟨h, ?_⟩
  rw [C39_storage_key_parse_iff, h]
  refine ⟨_, rfl, by rw [hexOf_length, k.len], fun c hc => (lower_upper (hexOf_char hc)).2.2.1, ?_⟩
  conv => rhs; rw [← List.map_id (hexOf k.data)]
  exact List.map_congr_left fun c hc => (lower_upper (hexOf_char hc)).2.1

/-- The null address is the twenty zero bytes. -/
theorem C39_null : Address.null.data = List.replicate 20 0 := rfl

/-- The first example of EIP-55, `0x5aAeb6053F3E94C9b9A09f33669435E7Ef1BeAed`. -/
def eip55Example : Address :=
  ⟨[0x5a, 0xae, 0xb6, 0x05, 0x3f, 0x3e, 0x94, 0xc9, 0xb9, 0xa0, 0x9f, 0x33, 0x66, 0x94, 0x35, 0xe7, 0xef, 0x1b, 0xea, 0xed], rfl⟩

set_option maxRecDepth 100000 in
example : (eip55Example.display .debug : Out Unit _) =
    .ok ("0x5aAeb6053F3E94C9b9A09f33669435E7Ef1BeAed".toList.map fun c => c.toNat.toUInt8) := by decide +kernel

example : Address.tryFromStr ("0x5aAeb6053F3E94C9b9A09f33669435E7Ef1BeAed".toList.map fun c => c.toNat.toUInt8) = .ok eip55Example := by
  decide +kernel

end LCT.Props
