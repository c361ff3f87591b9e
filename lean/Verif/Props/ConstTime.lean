import Verif.Lemmas.ConstTime

/-!
# C72: the hex codec runs in constant time
-/

namespace LCT.Props
open LCT.Spec LCT.Codecs LCT.CT

/-- The programs whose observations are considered compute the functions of C17, in debug and release builds. -/
theorem C72_same_function (m : Build) (bs : List UInt8) :
    result m encodeProgram bs = .ok (bytesToLowerHex bs) ∧ (bs.length < 2 ^ 64 → result m decodeProgram bs = hexToBytes bs) := by
  refine ⟨?_, fun h => (decode_run m bs h).2⟩
  obtain ⟨st, h, ho, -⟩ := encode_run m bs
  rw [result, h, ← ho]

/-- C72, writing: what an observer sees of writing bytes as hex digits depends on the number of bytes only. -/
theorem C72_encode (m : Build) (bs bs' : List UInt8) (h : bs.length = bs'.length) : seen m encodeProgram bs = seen m encodeProgram bs' := by
  obtain ⟨st, e, -, -⟩ := encode_run m bs
  obtain ⟨st', e', -, -⟩ := encode_run m bs'
  rw [seen, e, seen, e', h]

/-- The text is written into one buffer, allocated at the start, that never moves: no part of it stays behind in memory that was given back. -/
theorem C72_encode_one_buffer (m : Build) (bs : List UInt8) :
    ∃ rest, seen m encodeProgram bs = .alloc (2 * bs.length) :: rest ∧ .room false ∉ rest ∧ ∀ n, .alloc n ∉ rest := by
  obtain ⟨st, e, -, -⟩ := encode_run m bs
  refine ⟨_, congrArg Prod.fst e, ?_, fun n => ?_⟩ <;> cases m <;> simp [encodeSeen, digitChecks]

/-- C72, reading, exactly what an observer sees of reading hex digits: whether the length is odd; if it is not, the length and the position of the
first character that is not a hex digit. -/
theorem C72_decode_sees (m : Build) (h h' : List UInt8) (hl : h.length < 2 ^ 64) (hl' : h'.length < 2 ^ 64) :
    seen m decodeProgram h = seen m decodeProgram h' ↔
      (h.length % 2 = 1 ∧ h'.length % 2 = 1) ∨ (h.length % 2 = 0 ∧ h.length = h'.length ∧ firstBad h = firstBad h') := by
  rw [(decode_run m h hl).1, (decode_run m h' hl').1]
  unfold decodeAllSeen
  by_cases e : h.length % 2 = 0
  · by_cases e' : h'.length % 2 = 0
    · rw [if_pos e, if_pos e']
      simp only [List.cons.injEq, Event.alloc.injEq, true_and]
      constructor
      · rintro ⟨h1, h2⟩
        have h3 : h.length = h'.length := by omega
        exact .inr ⟨e, h3, (decodeSeen_congr (h.length / 2) h h' (by omega) (by omega)).mp h2⟩
      · rintro (⟨h1, -⟩ | ⟨-, h1, h2⟩)
        · omega
        · exact ⟨by omega, (decodeSeen_congr (h.length / 2) h h' (by omega) (by omega)).mpr h2⟩
    · rw [if_pos e, if_neg e']
      refine ⟨fun hh => by simp at hh, ?_⟩
      rintro (⟨h1, -⟩ | ⟨-, h1, -⟩) <;> omega
  · by_cases e' : h'.length % 2 = 0
    · rw [if_neg e, if_pos e']
      refine ⟨fun hh => by simp at hh, ?_⟩
      rintro (⟨-, h1⟩ | ⟨h1, -, -⟩) <;> omega
    · rw [if_neg e, if_neg e']
      exact ⟨fun _ => .inl ⟨by omega, by omega⟩, fun _ => rfl⟩

theorem firstBad_all : ∀ h : List UInt8, (∀ c ∈ h, IsHexDigit c) → firstBad h = h.length
  | [], _ => rfl
  | c :: rest, hh => by
    rw [firstBad, if_pos (show (hexVal c).isSome = true from hh c (by simp)), firstBad_all rest fun x hx => hh x (by simp [hx]), List.length_cons]

/-- C72, reading, what holds: what an observer sees of reading a text of hex digits depends on its length only, so that nothing about a secret that
is read in this form is seen.  Missing: texts with other characters, see `C72_decode_violated`. -/
theorem C72_decode_partial (m : Build) (h h' : List UInt8) (hl : h.length < 2 ^ 64) (e : h.length = h'.length)
    (hd : ∀ c ∈ h, IsHexDigit c) (hd' : ∀ c ∈ h', IsHexDigit c) : seen m decodeProgram h = seen m decodeProgram h' := by
  apply (C72_decode_sees m h h' hl (by omega)).mpr
  by_cases hodd : h.length % 2 = 0
  · exact .inr ⟨hodd, e, by rw [firstBad_all h hd, firstBad_all h' hd', e]⟩
  · exact .inl ⟨by omega, by omega⟩

/-- The claim as stated is violated: of two texts of the same length, one with a wrong character at the front, one with a wrong character
after any number of digits, an observer sees which is which. -/
theorem C72_decode_violated (m : Build) (n : Nat) (hn : n + 1 < 2 ^ 63) :
    let early := 103 :: List.replicate (2 * n + 1) 48
    let late := List.replicate (2 * n + 1) 48 ++ [103]
    early.length = late.length ∧ seen m decodeProgram early ≠ seen m decodeProgram late := by
  have key : ∀ k, firstBad (List.replicate k 48 ++ [103]) = k := by
    intro k
    induction k with
    | zero => rfl
    | succ k ih => rw [List.replicate_succ, List.cons_append, firstBad, if_pos (by decide), ih]
  refine ⟨by simp, fun h => ?_⟩
  rcases (C72_decode_sees m _ _ (by simp; omega) (by simp; omega)).mp h with ⟨h1, -⟩ | ⟨-, -, h1⟩
  · simp at h1; omega
  · rw [key, firstBad, if_neg (by decide)] at h1
    omega

/-! ## The notion tells programs apart -/

/-- An encoder that looks digits up in a table computes the same texts, and the observer learns every byte. -/
theorem C72_table_would_leak (m : Build) (bs bs' : List UInt8) :
    result m tableEncoder bs lowerDigits = .ok (bytesToLowerHex bs) ∧
      (seen m tableEncoder bs lowerDigits = seen m tableEncoder bs' lowerDigits ↔ bs = bs') := by
  refine ⟨by rw [(table_run m bs).2, bytesToLowerHex_eq], fun h => ?_, fun h => by rw [h]⟩
  rw [(table_run m bs).1, (table_run m bs').1] at h
  simp only [List.cons.injEq] at h
  exact table_events_inj _ _ h.2

-- An encoder with branches computes the same texts, and the observer can tell some bytes apart.
example : result .debug branchEncoder [0x1a, 0xf9] = .ok (bytesToLowerHex [0x1a, 0xf9]) := by decide +kernel
example : seen .release branchEncoder [0x1a] ≠ seen .release branchEncoder [0x11] := by decide +kernel

-- Two different keys, written and read, look the same.
example : seen .debug encodeProgram [0x00, 0xff] = seen .debug encodeProgram [0x7a, 0x13] := by decide +kernel
example : seen .release decodeProgram [48, 97, 70, 57] = seen .release decodeProgram [49, 49, 49, 49] := by decide +kernel
example : seen .release decodeProgram [48, 97] = [.branch true, .alloc 1, .loop true, .check false, .addr 0, .branch false, .check false, .addr 1,
  .branch false, .room true, .loop false] := by decide +kernel

end LCT.Props
