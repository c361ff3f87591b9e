import Verif.Lemmas.RlpTarget

/-!
# C71: what a message means does not depend on the pointer width of the target
-/

namespace LCT.Props
open LCT.Rlp LCT.Spec

/-- On 64-bit targets the model with a pointer width is the model of the other theorems. -/
theorem C71_same_model (m : Build) (data : List UInt8) :
    decodeDataT 64 m data = decodeData m data ∧ decodeListPayloadT 64 m data = decodeListPayload m data ∧
      decodeTreeT 64 m data = decodeTree m data ∧ ∀ {α : Type} (dec : Dec α), decodeT 64 m dec data = decode m dec data :=
  ⟨decodeData_64 m data, decodeListPayload_64 m data, decodeTree_64 m data, fun dec => decode_64 m dec data⟩

/-- Which data the decoder of one item accepts on a target with `pw`-bit pointers, and with which payload: the low `pw` bits of a declared
length count, the others are ignored. -/
theorem C71_accepts (pw : Nat) (hpw : 8 ≤ pw) (m : Build) (data : List UInt8) (t : ItemType) (p : List UInt8) (hlen : data.length < 2 ^ pw) :
    decodeDataT pw m data = .ok (t, p) ↔ TruncatedItem pw t p data :=
  decodeDataT_iff pw hpw m data t p hlen

/-- The same for the payload of a list. -/
theorem C71_list_accepts (pw : Nat) (hpw : 8 ≤ pw) (m : Build) (data : List UInt8) (items : List (ItemType × List UInt8))
    (hlen : data.length < 2 ^ pw) : decodeListPayloadT pw m data = .ok items ↔ TruncatedSeq pw items data :=
  decodeListLoopT_iff pw hpw m _ data items (Nat.lt_succ_self _) hlen

/-- Exactly when the decoder of one item panics on a target with `pw`-bit pointers. -/
theorem C71_panics (pw : Nat) (hpw : 8 ≤ pw) (m : Build) (data : List UInt8) :
    (¬ (decodeDataT pw m data).Returns ↔ m = .debug ∧ OverflowsTarget pw data) ∧ decodeDataT pw m data ≠ .hang :=
  decodeDataT_panic_iff pw hpw m data

/-- Exactly when the decoder of a list payload panics, in debug builds and in release builds. -/
theorem C71_list_panics (pw : Nat) (hpw : 8 ≤ pw) (m : Build) (data : List UInt8) (hlen : data.length < 2 ^ pw) :
    decodeListPayloadT pw m data = .panic ↔ ∃ items a s, data = a ++ s ∧ TruncatedSeq pw items a ∧ OverflowsTarget pw s :=
  decodeListLoopT_panic_iff pw hpw m _ data (Nat.lt_succ_self _) hlen

theorem ofBE_highBit (payload : List UInt8) (h : payload.length < 2 ^ 32) : ofBE (toBEk 8 (2 ^ 32 + payload.length)) = 2 ^ 32 + payload.length := by
  rw [ofBE_toBEk]
  apply Nat.mod_eq_of_lt
  have : (256 : Nat) ^ 8 = 2 ^ 64 := by decide
  omega

/-- The claim as stated is violated: the header `ff 00 00 00 01 …` declares a list of more than 4 GiB.  A 64-bit target refuses the message, a
32-bit target takes the few bytes that are there for the list, and every decoder of a type sees them. -/
theorem C71_violated (m : Build) (payload : List UInt8) (h : payload.length < 2 ^ 32 - 9) :
    decodeDataT 64 m (0xff :: toBEk 8 (2 ^ 32 + payload.length) ++ payload) = .err .InvalidFormat ∧
    decodeDataT 32 m (0xff :: toBEk 8 (2 ^ 32 + payload.length) ++ payload) = .ok (.List, payload) ∧
    ∀ {α : Type} (dec : Dec α), decodeT 64 m dec (0xff :: toBEk 8 (2 ^ 32 + payload.length) ++ payload) = .err .InvalidFormat ∧
      decodeT 32 m dec (0xff :: toBEk 8 (2 ^ 32 + payload.length) ++ payload) = dec ⟨.List, payload⟩ := by
  have hl : (toBEk 8 (2 ^ 32 + payload.length)).length = 8 := toBEk_length _ _
  have hv := ofBE_highBit payload (by omega)
  have h32 : decodeDataT 32 m (0xff :: toBEk 8 (2 ^ 32 + payload.length) ++ payload) = .ok (.List, payload) := by
    apply (decodeDataT_iff 32 (by decide) m _ _ _ _).mpr
    · have := TruncatedItem.listLong (pw := 32) (toBEk 8 (2 ^ 32 + payload.length)) payload (by omega) (by omega) (by rw [hv]; omega)
      rwa [hl] at this
    · simp only [List.length_append, List.length_cons, hl]
      omega
  have h64 : decodeDataT 64 m (0xff :: toBEk 8 (2 ^ 32 + payload.length) ++ payload) = .err .InvalidFormat := by
    have := header_long_fits 64 m 247 (toBEk 8 (2 ^ 32 + payload.length)) payload (.inr rfl) (by omega) (by omega) (by rw [hv, hl]; omega)
    rw [hl, hv, if_pos (by omega)] at this
    unfold decodeDataT
    rw [show (0xff : UInt8) = UInt8.ofNat (247 + 8) from rfl, this]
    rfl
  refine ⟨h64, h32, fun dec => ⟨?_, ?_⟩⟩
  · unfold decodeT; rw [h64]; rfl
  · unfold decodeT; rw [h32]; rfl

/-- Five bytes that a 64-bit target refuses stop a 32-bit target with a panic: a debug build when they are the message, every build when they are
the payload of a list. -/
theorem C71_violated_panic :
    (∀ m, decodeDataT 64 m [0xbb, 0xff, 0xff, 0xff, 0xff] = .err .InvalidFormat ∧
      decodeListPayloadT 64 m [0xbb, 0xff, 0xff, 0xff, 0xff] = .err .InvalidFormat) ∧
    decodeDataT 32 .debug [0xbb, 0xff, 0xff, 0xff, 0xff] = .panic ∧
    ∀ m, decodeListPayloadT 32 m [0xbb, 0xff, 0xff, 0xff, 0xff] = .panic := by
  refine ⟨fun m => ?_, rfl, fun m => ?_⟩ <;> cases m
  · exact ⟨rfl, rfl⟩
  · exact ⟨rfl, rfl⟩
  · rfl
  · rfl

/-- What holds: on data in which no header declares `2^pw - 9` or more, a target with `pw`-bit pointers decodes one item, a list payload, and a tree
of any depth as every wider target does.  Missing: data with such headers, on which targets differ. -/
theorem C71_targets_agree_partial (pw pw' : Nat) (hpw : 8 ≤ pw) (hle : pw ≤ pw') (m : Build) (data : List UInt8)
    (h : ∀ s, s <:+ data → ∀ k n, Declares s k n → n < 2 ^ pw - 9) :
    decodeDataT pw m data = decodeDataT pw' m data ∧ decodeListPayloadT pw m data = decodeListPayloadT pw' m data ∧
      decodeTreeT pw m data = decodeTreeT pw' m data := by
  have h := (modest_iff pw data).mpr h
  exact ⟨decodeDataT_agree pw pw' hpw hle m data h, decodeListLoopT_agree pw pw' hpw hle m _ data h, decodeTreeT_agree pw pw' hpw hle m data h⟩

/-- On a 32-bit target, what a 64-bit target accepts is accepted with the same payload: only more is accepted. -/
theorem C71_only_more (m m' : Build) (data : List UInt8) (hlen : data.length < 2 ^ 32) (t : ItemType) (p : List UInt8)
    (h : decodeDataT 64 m data = .ok (t, p)) : decodeDataT 32 m' data = .ok (t, p) := by
  replace h := (decodeDataT_iff 64 (by decide) m data t p (by omega)).mp h
  apply (decodeDataT_iff 32 (by decide) m' data t p (by omega)).mpr
  have key : ∀ l : List UInt8, l.length ≤ 8 → ofBE l % 2 ^ 64 = ofBE l := fun l hl => by
    apply Nat.mod_eq_of_lt
    have h1 := ofBE_lt l
    have h2 : 256 ^ l.length ≤ 256 ^ 8 := Nat.pow_le_pow_right (by decide) hl
    have : (256 : Nat) ^ 8 = 2 ^ 64 := by decide
    omega
  cases h with
  | single b h => exact .single b h
  | short p h => exact .short p h
  | listShort p h => exact .listShort p h
  | long l p h1 h8 hl =>
    rw [key l h8] at hl
    simp only [List.length_append, List.length_cons] at hlen
    exact .long l p h1 h8 (by rw [hl, Nat.mod_eq_of_lt (by omega)])
  | listLong l p h1 h8 hl =>
    rw [key l h8] at hl
    simp only [List.length_append, List.length_cons] at hlen
    exact .listLong l p h1 h8 (by rw [hl, Nat.mod_eq_of_lt (by omega)])

/-! ## The hypotheses are met -/

-- The message `ff 0000000100000003 c0 c0 01` is a list of three items on a 32-bit target and no message on a 64-bit target.
example : decodeTreeT 32 .release [0xff, 0, 0, 0, 1, 0, 0, 0, 3, 0xc0, 0xc0, 1] = .ok (.list [.list [], .list [], .bytes [1]]) := by rfl
example : decodeTreeT 64 .release [0xff, 0, 0, 0, 1, 0, 0, 0, 3, 0xc0, 0xc0, 1] = .err .InvalidFormat := by rfl

-- An ordinary nested message meets the hypothesis of the agreement theorem.
example : ∀ s, s <:+ ([0xc4, 0xc3, 0x01, 0x81, 0x80] : List UInt8) → ∀ k n, Declares s k n → n < 2 ^ 32 - 9 := by
  intro s hs k n hd
  rw [declares_iff] at hd
  obtain ⟨base, l, rest, hb, h1, h8, rfl, rfl, rfl⟩ := hd
  have hm : UInt8.ofNat (base + l.length) ∈ ([0xc4, 0xc3, 0x01, 0x81, 0x80] : List UInt8) := hs.subset (by simp)
  have hn := ofNat_toNat_lt (base + l.length) (by omega)
  have hno : ∀ b ∈ ([0xc4, 0xc3, 0x01, 0x81, 0x80] : List UInt8), b.toNat ≤ 183 ∨ (192 ≤ b.toNat ∧ b.toNat ≤ 247) := by decide
  have := hno _ hm
  omega

example : decodeTreeT 32 .debug [0xc4, 0xc3, 0x01, 0x81, 0x80] = .ok (.list [.list [.bytes [1], .bytes [0x80]]]) := by rfl

example : OverflowsTarget 32 [0xbb, 0xff, 0xff, 0xff, 0xff] := 
  ⟨4, ofBE [0xff, 0xff, 0xff, 0xff], .string [0xff, 0xff, 0xff, 0xff] [] (by decide) (by decide), by decide⟩

end LCT.Props
