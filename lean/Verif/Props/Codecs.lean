import Verif.Lemmas.Codecs

/-!
# C17: hex codec
-/

namespace LCT.Props
open LCT.Spec LCT.Codecs

/-- C17: `bytes_to_lower_hex` writes two lower-case hex digits per byte, for every byte string. -/
theorem C17_encode_spec (bs : List UInt8) : bytesToLowerHex bs = hexOf bs := bytesToLowerHex_eq bs

/-- C17: round trip, for every byte string. -/
theorem C17_round_trip (bs : List UInt8) : hexToBytes (bytesToLowerHex bs) = .ok bs := by
  rw [bytesToLowerHex_eq, hexToBytes_eq, hexOf_length, hexLoop_hexOf]; simp

/-- C17: a text decodes to `bs` exactly when it has even length, consists of hex digits (of either case) only, and its
lower-casing is the two-digit-per-byte form of `bs`. -/
theorem C17_decode_ok_iff (s bs : List UInt8) :
    hexToBytes s = .ok bs ↔ s.length % 2 = 0 ∧ (∀ c ∈ s, IsHexDigit c) ∧ s.map lowerChar = hexOf bs := by
  rw [hexToBytes_eq]
  constructor
  · intro h
    split at h
    · rename_i he
      rcases hexLoop_cases s he with ⟨bs', h', hd, hl⟩ | ⟨h', _⟩
      · rw [h'] at h; cases h; exact ⟨he, hd, hl.symm⟩
      · rw [h'] at h; cases h
    · cases h
  · rintro ⟨he, hd, hl⟩
    rw [if_pos he]
    rcases hexLoop_cases s he with ⟨bs', h', _, hl'⟩ | ⟨_, c, hc, hn⟩
    · rw [h', hexOf_injective (hl'.trans hl)]
    · exact absurd (hd c hc) hn

/-- C17: `NotByteAligned` is reported exactly for odd lengths. -/
theorem C17_not_aligned_iff (s : List UInt8) : hexToBytes s = .err .NotByteAligned ↔ s.length % 2 = 1 := by
  rw [hexToBytes_eq]
  constructor
  · intro h
    split at h
    · rename_i he
      rcases hexLoop_cases s he with ⟨bs', h', _⟩ | ⟨h', _⟩ <;> rw [h'] at h <;> cases h
    · omega
  · intro h; rw [if_neg (by omega)]

/-- C17: `InvalidCharFound` is reported exactly for even-length texts containing a character that is not a hex digit. -/
theorem C17_invalid_char_iff (s : List UInt8) :
    hexToBytes s = .err .InvalidCharFound ↔ s.length % 2 = 0 ∧ ∃ c ∈ s, ¬ IsHexDigit c := by
  rw [hexToBytes_eq]
  constructor
  · intro h
    split at h
    · rename_i he
      rcases hexLoop_cases s he with ⟨bs', h', _⟩ | ⟨_, h'⟩
      · rw [h'] at h; cases h
      · exact ⟨he, h'⟩
    · cases h
  · rintro ⟨he, c, hc, hn⟩
    rw [if_pos he]
    rcases hexLoop_cases s he with ⟨bs', _, hd, _⟩ | ⟨h', _⟩
    · exact absurd (hd c hc) hn
    · exact h'

/-- C17: decoding never panics: every text yields bytes or one of the two errors. -/
theorem C17_total (s : List UInt8) : (hexToBytes s).Returns := by
  rw [hexToBytes_eq]
  split
  · rename_i he
    rcases hexLoop_cases s he with ⟨bs', h', _⟩ | ⟨h', _⟩ <;> rw [h']
    · exact Out.Returns.ok _
    · exact Out.Returns.err _
  · exact Out.Returns.err _

-- Non-vacuity: the text "1aF0" (mixed case) decodes, "1g" and "abc" hit the two errors.
example : hexToBytes [49, 97, 70, 48] = .ok [0x1a, 0xf0] := by decide
example : hexToBytes [49, 103] = .err .InvalidCharFound := by decide
example : hexToBytes [97, 98, 99] = .err .NotByteAligned := by decide
example : bytesToLowerHex [0x13, 0x7a, 0xcf] = [49, 51, 55, 97, 99, 102] := by decide

end LCT.Props
