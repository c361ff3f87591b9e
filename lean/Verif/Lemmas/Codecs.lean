import Verif.Model.Codecs
import Verif.Spec.Hex

namespace LCT.Codecs
open LCT.Spec

/-- No `i8` overflow in `/repo/src/crypto/codecs.rs:71-72`: with mathematical integers, every intermediate result of the
expression stays in `[-128, 127]`. -/
theorem nibble_no_overflow (n : Nat) (h : n < 16) :
    -128 ≤ (n : Int) - 10 ∧ (87 : Int) + n ≤ 127 ∧ (87 : Int) + n + (-39) ≥ -128 := by omega

theorem all_uint8 (p : UInt8 → Bool) (h : (List.range 256).all (fun n => p (UInt8.ofNat n)) = true) (c : UInt8) :
    p c = true := by
  have h1 := List.all_eq_true.mp h c.toNat (List.mem_range.mpr c.toNat_lt)
  simpa using h1

theorem byte_hex (b : UInt8) :
    nibbleToChar (b >>> 4).toBitVec = hexDigit (b.toNat / 16) ∧
    nibbleToChar (b &&& 0x0f).toBitVec = hexDigit (b.toNat % 16) := by
  have := all_uint8 (fun b => nibbleToChar (b >>> 4).toBitVec == hexDigit (b.toNat / 16) &&
    nibbleToChar (b &&& 0x0f).toBitVec == hexDigit (b.toNat % 16)) (by decide +kernel) b
  simpa using this

theorem bytesToLowerHex_eq (bs : List UInt8) : bytesToLowerHex bs = hexOf bs := by
  induction bs with
  | nil => rfl
  | cons b bs ih =>
    simp only [bytesToLowerHex, (byte_hex b).1, (byte_hex b).2, ih, hexOf, List.flatMap_cons]
    rfl

theorem charToNibble_eq (c : UInt8) : (charToNibble c).map BitVec.toNat = hexVal c := by
  have := all_uint8 (fun c => decide ((charToNibble c).map BitVec.toNat = hexVal c)) (by decide +kernel) c
  simpa using this

theorem hexVal_lt {c : UInt8} {n : Nat} (h : hexVal c = some n) : n < 16 := by
  unfold hexVal at h
  split at h
  · simp at h; omega
  · split at h
    · simp at h; omega
    · split at h
      · simp at h; omega
      · simp at h

theorem hexVal_hexDigit (n : Nat) (h : n < 16) : hexVal (hexDigit n) = some n := by
  have : ∀ n : Fin 16, hexVal (hexDigit n.val) = some n.val := by decide
  exact this ⟨n, h⟩

theorem hexDigit_hexVal {c : UInt8} {n : Nat} (h : hexVal c = some n) : hexDigit n = lowerChar c := by
  have := all_uint8 (fun c => decide (∀ n ∈ hexVal c, hexDigit n = lowerChar c)) (by decide +kernel) c
  simp at this
  exact this n h

theorem pack_nibbles (v1 v2 : BitVec 16) (h1 : v1.toNat < 16) (h2 : v2.toNat < 16) :
    ((⟨v1.truncate 8 <<< 4⟩ : UInt8) ||| (⟨v2.truncate 8⟩ : UInt8)).toNat = v1.toNat * 16 + v2.toNat := by
  have key : ∀ a b : Fin 16, ((⟨(BitVec.ofNat 16 a.val).truncate 8 <<< 4⟩ : UInt8) |||
      (⟨(BitVec.ofNat 16 b.val).truncate 8⟩ : UInt8)).toNat = a.val * 16 + b.val := by decide +kernel
  have := key ⟨v1.toNat, h1⟩ ⟨v2.toNat, h2⟩
  simpa using this

/-- Case analysis of the decoding loop in terms of the specification. -/
theorem hexLoop_cons_cons (c1 c2 : UInt8) (rest : List UInt8) :
    hexLoop (c1 :: c2 :: rest) =
      match hexVal c1, hexVal c2 with
      | some a, some b =>
        (match hexLoop rest with
         | .ok bs => .ok (UInt8.ofNat (a * 16 + b) :: bs)
         | r => r)
      | _, _ => .err .InvalidCharFound := by
  rw [hexLoop]
  have e1 := charToNibble_eq c1
  have e2 := charToNibble_eq c2
  cases h1 : charToNibble c1 with
  | none => rw [h1] at e1; simp at e1; simp [← e1]
  | some v1 =>
    rw [h1] at e1; simp at e1
    cases h2 : charToNibble c2 with
    | none => rw [h2] at e2; simp at e2; simp [← e1, ← e2]
    | some v2 =>
      rw [h2] at e2; simp at e2
      have l1 := hexVal_lt e1.symm
      have l2 := hexVal_lt e2.symm
      have hp : ((⟨v1.truncate 8 <<< 4⟩ : UInt8) ||| (⟨v2.truncate 8⟩ : UInt8)) =
          UInt8.ofNat (v1.toNat * 16 + v2.toNat) := by
        apply UInt8.toNat_inj.mp
        rw [pack_nibbles v1 v2 l1 l2]; simp; omega
      simp only [← e1, ← e2, hp]
      cases hexLoop rest <;> rfl

theorem land_one_eq_zero (n : Nat) : (n &&& 1 == 0) = decide (n % 2 = 0) := by
  rw [Nat.and_one_is_mod]; rfl

theorem hexToBytes_eq (s : List UInt8) :
    hexToBytes s = if s.length % 2 = 0 then hexLoop s else .err .NotByteAligned := by
  rw [hexToBytes, land_one_eq_zero]; simp

theorem hexLoop_cases : (s : List UInt8) → (he : s.length % 2 = 0) →
    (∃ bs, hexLoop s = .ok bs ∧ (∀ c ∈ s, IsHexDigit c) ∧ hexOf bs = s.map lowerChar) ∨
    (hexLoop s = .err .InvalidCharFound ∧ ∃ c ∈ s, ¬ IsHexDigit c)
  | [], _ => Or.inl ⟨[], rfl, by simp, rfl⟩
  | [c], he => by simp at he
  | c1 :: c2 :: rest, he => by
    rw [hexLoop_cons_cons]
    cases h1 : hexVal c1 with
    | none => right; exact ⟨rfl, c1, by simp, by simp [IsHexDigit, h1]⟩
    | some a =>
      cases h2 : hexVal c2 with
      | none => right; exact ⟨rfl, c2, by simp, by simp [IsHexDigit, h2]⟩
      | some b =>
        have la := hexVal_lt h1
        have lb := hexVal_lt h2
        rcases hexLoop_cases rest (by simp only [List.length_cons] at he; omega) with ⟨bs, h, hd, hl⟩ | ⟨h, c, hc, hn⟩
        · left
          refine ⟨UInt8.ofNat (a * 16 + b) :: bs, by simp [h], ?_, ?_⟩
          · intro c hc
            rcases List.mem_cons.mp hc with rfl | hc
            · simp [IsHexDigit, h1]
            · rcases List.mem_cons.mp hc with rfl | hc
              · simp [IsHexDigit, h2]
              · exact hd c hc
          · have ha : (UInt8.ofNat (a * 16 + b)).toNat = a * 16 + b := by simp; omega
            have e1 : (a * 16 + b) / 16 = a := by omega
            have e2 : (a * 16 + b) % 16 = b := by omega
            simp only [hexOf, List.flatMap_cons, ha, e1, e2, hexDigit_hexVal h1, hexDigit_hexVal h2, List.map_cons]
            simp only [hexOf] at hl
            rw [hl]; rfl
        · right
          exact ⟨by simp [h], c, by simp [hc], hn⟩

theorem hexOf_cons (b : UInt8) (bs : List UInt8) :
    hexOf (b :: bs) = hexDigit (b.toNat / 16) :: hexDigit (b.toNat % 16) :: hexOf bs := by
  simp [hexOf]

theorem hexOf_length (bs : List UInt8) : (hexOf bs).length = 2 * bs.length := by
  induction bs with
  | nil => rfl
  | cons b bs ih => rw [hexOf_cons]; simp only [List.length_cons, ih]; omega

theorem hexOf_append (as bs : List UInt8) : hexOf (as ++ bs) = hexOf as ++ hexOf bs := by
  simp [hexOf]

theorem hexLoop_hexOf (bs : List UInt8) : hexLoop (hexOf bs) = .ok bs := by
  induction bs with
  | nil => rfl
  | cons b bs ih =>
    have hb := b.toNat_lt
    rw [hexOf_cons, hexLoop_cons_cons, hexVal_hexDigit _ (by omega), hexVal_hexDigit _ (by omega), ih]
    have : UInt8.ofNat (b.toNat / 16 * 16 + b.toNat % 16) = b := by
      apply UInt8.toNat_inj.mp; simp; omega
    simp only [this]

theorem hexOf_injective {as bs : List UInt8} (h : hexOf as = hexOf bs) : as = bs := by
  have := hexLoop_hexOf as
  rw [h, hexLoop_hexOf] at this
  simpa using this.symm

end LCT.Codecs
