import Verif.Lemmas.Codecs
import Verif.Props.Codecs
import Verif.Lemmas.Hash.Sponge
import Verif.Spec.Ethereum

/-!
# Addresses
-/

namespace LCT.Ethereum
open LCT.Spec LCT.Spec.Eth LCT.Out LCT.Codecs
variable {ε : Type}

def nibbles (bs : List UInt8) : List Nat := bs.flatMap fun b => [b.toNat / 16, b.toNat % 16]

theorem nibbles_cons (b : UInt8) (bs : List UInt8) : nibbles (b :: bs) = b.toNat / 16 :: b.toNat % 16 :: nibbles bs := rfl

theorem hexOf_nibbles (bs : List UInt8) : hexOf bs = (nibbles bs).map hexDigit := by
  simp [hexOf, nibbles, List.map_flatMap]

theorem nibbles_length (bs : List UInt8) : (nibbles bs).length = 2 * bs.length := by
  induction bs with
  | nil => rfl
  | cons b bs ih => rw [nibbles_cons]; simp [ih]; omega

theorem nibbles_lt (bs : List UInt8) : ∀ n ∈ nibbles bs, n < 16 := by
  intro n hn
  obtain ⟨b, -, h⟩ := List.mem_flatMap.mp hn
  have := b.toNat_lt
  simp at h
  omega

theorem nibbles_getD (bs : List UInt8) (i : Nat) : (nibbles bs).getD i 0 = nibble bs i := by
  induction bs generalizing i with
  | nil => simp [nibbles, nibble]
  | cons b bs ih =>
    rw [nibbles_cons]
    match i with
    | 0 => rfl
    | 1 => rfl
    | i + 2 =>
      have := ih i
      simp only [List.getD_cons_succ]
      rw [this, nibble, nibble, Nat.add_mod_right, show (i + 2) / 2 = i / 2 + 1 by omega]
      simp

/-- One character. -/
theorem checksum_char (n k : Nat) (hn : n < 16) (hk : k < 16) :
    (if 48 ≤ hexDigit n ∧ hexDigit n ≤ 57 then pure (hexDigit n)
      else if 97 ≤ hexDigit n ∧ hexDigit n ≤ 102 then (if hexDigit k > 55 then pure (hexDigit n - 32) else pure (hexDigit n))
      else .panic : Out ε UInt8) = .ok (if 8 ≤ k then upperChar (hexDigit n) else hexDigit n) := by
  have h : ∀ n k : Fin 16, (48 ≤ hexDigit n ∧ hexDigit n ≤ 57 ∧ upperChar (hexDigit n) = hexDigit n) ∨
      (¬ (48 ≤ hexDigit n ∧ hexDigit n ≤ 57) ∧ (97 ≤ hexDigit n ∧ hexDigit n ≤ 102) ∧ upperChar (hexDigit n) = hexDigit n - 32 ∧
        (hexDigit k > 55 ↔ 8 ≤ k.val)) := by decide +kernel
  rcases h ⟨n, hn⟩ ⟨k, hk⟩ with ⟨h1, h2, h3⟩ | ⟨h1, h2, h3, h4⟩
  · simp only at h1 h2 h3
    rw [if_pos ⟨h1, h2⟩, h3, ite_self]; rfl
  · simp only at h1 h2 h3 h4
    rw [if_neg h1, if_pos h2, h3]
    by_cases hc : 8 ≤ k
    · rw [if_pos (h4.mpr hc), if_pos hc]; rfl
    · rw [if_neg (fun h => hc (h4.mp h)), if_neg hc]; rfl

theorem checksumLoop_eq (ns ks : List Nat) (hl : ns.length ≤ ks.length) (hn : ∀ n ∈ ns, n < 16) (hk : ∀ k ∈ ks, k < 16) :
    (checksumLoop (ns.map hexDigit) (ks.map hexDigit) : Out ε _) =
      .ok ((ns.map hexDigit).mapIdx fun i c => if 8 ≤ ks.getD i 0 then upperChar c else c) := by
  induction ns generalizing ks with
  | nil => cases ks <;> rfl
  | cons n ns ih =>
    match ks, hl with
    | k :: ks, hl =>
      rw [List.map_cons, List.map_cons, checksumLoop, checksum_char n k (hn n (by simp)) (hk k (by simp))]
      rw [ih ks (by simpa using hl) (fun n h => hn n (by simp [h])) (fun k h => hk k (by simp [h]))]
      rw [List.mapIdx_cons]
      simp

theorem keccak_digest (m : Build) (st : Hash.Sha3.Keccak256.State) (msg : List UInt8) :
    ∃ st', (Hash.Sha3.Keccak256.digest m st msg : Out ε _) = .ok (Spec.Sha3.keccak256 msg, st') :=
  (Hash.Sha3.computesKeccak256 (msg.length + 1)).digest ε m st msg (Nat.lt_succ_self _)

theorem keccak_length (msg : List UInt8) : (Spec.Sha3.keccak256 msg).length = 32 := (Hash.Sha3.computesKeccak256 0).length msg

theorem keccak_eq (m : Build) (msg : List UInt8) : (keccak m msg : Out ε _) = .ok (Spec.Sha3.keccak256 msg) := by
  obtain ⟨st', e⟩ := keccak_digest (ε := ε) m Hash.Sha3.Keccak256.fresh msg
  rw [keccak, e]; rfl

theorem eip55_length (h : List UInt8 → List UInt8) (bs : List UInt8) : (eip55 h bs).length = 2 * bs.length := by
  simp [eip55, hexOf_length]

theorem checksum_eq (m : Build) (bs : List UInt8) (hl : bs.length = 20) :
    (eip55ChecksumEncode m (hexOf bs) : Out ε _) = .ok (eip55 Spec.Sha3.keccak256 bs) := by
  obtain ⟨st', e⟩ := keccak_digest (ε := ε) m Hash.Sha3.Keccak256.fresh (hexOf bs)
  have h32 := keccak_length (hexOf bs)
  simp only [eip55ChecksumEncode, e, bind_ok, bytesToLowerHex_eq]
  have := checksumLoop_eq (ε := ε) (nibbles bs) (nibbles (Spec.Sha3.keccak256 (hexOf bs)))
    (by rw [nibbles_length, nibbles_length]; omega) (nibbles_lt _) (nibbles_lt _)
  simp only [nibbles_getD, ← hexOf_nibbles] at this
  rw [this, bind_ok]
  have h40 : (eip55 Spec.Sha3.keccak256 bs).length = 40 := by rw [eip55_length]; omega
  unfold eip55 at h40 ⊢
  simp only [h40, beq_self_eq_true, rassert_true, bind_ok, pure_def]

theorem lower_upper {c : UInt8} (h : ∃ n < 16, c = hexDigit n) : lowerChar (upperChar c) = c ∧ lowerChar c = c ∧ IsHexDigit c ∧
    IsHexDigit (upperChar c) ∧ c < 128 ∧ upperChar c < 128 := by
  obtain ⟨n, hn, rfl⟩ := h
  have : ∀ n : Fin 16, lowerChar (upperChar (hexDigit n)) = hexDigit n ∧ lowerChar (hexDigit n) = hexDigit n ∧ IsHexDigit (hexDigit n) ∧
    IsHexDigit (upperChar (hexDigit n)) ∧ hexDigit n < 128 ∧ upperChar (hexDigit n) < 128 := by decide +kernel
  exact this ⟨n, hn⟩

theorem hexOf_char {bs : List UInt8} {c : UInt8} (h : c ∈ hexOf bs) : ∃ n < 16, c = hexDigit n := by
  rw [hexOf_nibbles] at h
  obtain ⟨n, hn, rfl⟩ := List.mem_map.mp h
  exact ⟨n, nibbles_lt _ n hn, rfl⟩

theorem eip55_lower (h : List UInt8 → List UInt8) (bs : List UInt8) :
    (eip55 h bs).map lowerChar = hexOf bs ∧ ∀ c ∈ eip55 h bs, IsHexDigit c ∧ c < 128 := by
  constructor
  · apply List.ext_getElem
    · simp [eip55]
    · intro i h1 h2
      obtain ⟨a1, a2, -⟩ := lower_upper (hexOf_char (List.getElem_mem h2))
      simp only [eip55, List.getElem_map, List.getElem_mapIdx]
      split
      · exact a1
      · exact a2
  · intro c hc
    obtain ⟨i, hi, rfl⟩ := List.mem_iff_getElem.mp hc
    have hi' : i < (hexOf bs).length := by simpa [eip55] using hi
    obtain ⟨-, -, a3, a4, a5, a6⟩ := lower_upper (hexOf_char (List.getElem_mem hi'))
    simp only [eip55, List.getElem_mapIdx]
    split
    · exact ⟨a4, a6⟩
    · exact ⟨a3, a5⟩

theorem display_eq (m : Build) (a : Address) : (a.display m : Out ε _) = .ok (48 :: 120 :: eip55 Spec.Sha3.keccak256 a.data) := by
  have hall : (eip55 Spec.Sha3.keccak256 a.data).all (· < 128) = true := by
    rw [List.all_eq_true]
    intro c hc
    simpa using ((eip55_lower _ _).2 c hc).2
  simp only [Address.display, Address.toChecksummedHex, Address.toLowerHex, bytesToLowerHex_eq, checksum_eq m _ a.len, bind_ok, hall,
    rassert_true, pure_def]

theorem address_fromHex_iff (s : List UInt8) (a : Address) :
    Address.fromHex s = some a ↔ s.length = 40 ∧ (∀ c ∈ s, IsHexDigit c) ∧ s.map lowerChar = hexOf a.data := by
  unfold Address.fromHex
  constructor
  · intro h
    split at h
    · rename_i bytes hb
      unfold Address.fromBytes at h
      split at h
      · rename_i hl
        cases h
        obtain ⟨h1, h2, h3⟩ := (Props.C17_decode_ok_iff s bytes).mp hb
        refine ⟨?_, h2, h3⟩
        have := congrArg List.length h3
        simp only [List.length_map, hexOf_length] at this
        omega
      · cases h
    · cases h
  · rintro ⟨h1, h2, h3⟩
    rw [(Props.C17_decode_ok_iff s a.data).mpr ⟨by omega, h2, h3⟩]
    simp [Address.fromBytes, a.len]

theorem storageKey_fromHex_iff (s : List UInt8) (a : StorageKey) :
    StorageKey.fromHex s = some a ↔ s.length = 64 ∧ (∀ c ∈ s, IsHexDigit c) ∧ s.map lowerChar = hexOf a.data := by
  unfold StorageKey.fromHex
  constructor
  · intro h
    split at h
    · rename_i bytes hb
      unfold StorageKey.fromBytes at h
      split at h
      · rename_i hl
        cases h
        obtain ⟨h1, h2, h3⟩ := (Props.C17_decode_ok_iff s bytes).mp hb
        refine ⟨?_, h2, h3⟩
        have := congrArg List.length h3
        simp only [List.length_map, hexOf_length] at this
        omega
      · cases h
    · cases h
  · rintro ⟨h1, h2, h3⟩
    rw [(Props.C17_decode_ok_iff s a.data).mpr ⟨by omega, h2, h3⟩]
    simp [StorageKey.fromBytes, a.len]

end LCT.Ethereum
