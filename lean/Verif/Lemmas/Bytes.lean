import Verif.Model.Bytes
import Verif.Spec.Bytes

namespace LCT
open Spec

theorem fromBE_eq (bs : List UInt8) : fromBE bs = ofBE bs := rfl

theorem fromLE_eq (bs : List UInt8) : fromLE bs = ofLE bs := by
  induction bs with
  | nil => rfl
  | cons b bs ih => simp only [fromLE, List.foldr, ofLE] at *; rw [ih]

theorem ofBE_nil : ofBE [] = 0 := rfl

theorem ofBE_append_singleton (bs : List UInt8) (b : UInt8) : ofBE (bs ++ [b]) = ofBE bs * 256 + b.toNat := by
  simp [ofBE]

theorem ofBE_foldl (bs : List UInt8) (a : Nat) :
    bs.foldl (fun acc b => acc * 256 + b.toNat) a = a * 256 ^ bs.length + ofBE bs := by
  induction bs generalizing a with
  | nil => simp [ofBE]
  | cons b bs ih =>
    simp only [List.foldl_cons, List.length_cons, ofBE]
    rw [ih, ih (0 * 256 + b.toNat), Nat.pow_succ]
    simp only [Nat.add_mul, Nat.zero_mul, Nat.zero_add, Nat.mul_assoc, Nat.mul_comm 256]
    omega

theorem ofBE_append (as bs : List UInt8) : ofBE (as ++ bs) = ofBE as * 256 ^ bs.length + ofBE bs := by
  rw [ofBE, List.foldl_append, ofBE_foldl]; rfl

theorem ofBE_cons (b : UInt8) (bs : List UInt8) : ofBE (b :: bs) = b.toNat * 256 ^ bs.length + ofBE bs := by
  have := ofBE_append [b] bs
  simpa [ofBE] using this

theorem ofBE_lt (bs : List UInt8) : ofBE bs < 256 ^ bs.length := by
  induction bs with
  | nil => simp [ofBE]
  | cons b bs ih =>
    rw [ofBE_cons, List.length_cons, Nat.pow_succ]
    have := b.toNat_lt
    have h2 : b.toNat * 256 ^ bs.length ≤ 255 * 256 ^ bs.length := Nat.mul_le_mul_right _ (by omega)
    omega

theorem ofLE_lt (bs : List UInt8) : ofLE bs < 256 ^ bs.length := by
  induction bs with
  | nil => simp [ofLE]
  | cons b bs ih =>
    rw [ofLE, List.length_cons, Nat.pow_succ]
    have := b.toNat_lt
    omega

theorem toNat_ofNat_mod (n : Nat) : (UInt8.ofNat n).toNat = n % 256 := by simp

@[simp] theorem toBEk_length (k n : Nat) : (toBEk k n).length = k := by
  induction k generalizing n with
  | zero => rfl
  | succ k ih => simp [toBEk, ih]

@[simp] theorem toLEk_length (k n : Nat) : (toLEk k n).length = k := by
  induction k generalizing n with
  | zero => rfl
  | succ k ih => simp [toLEk, ih]

theorem ofBE_toBEk (k n : Nat) : ofBE (toBEk k n) = n % 256 ^ k := by
  induction k generalizing n with
  | zero => simp [toBEk, ofBE, Nat.mod_one]
  | succ k ih =>
    rw [toBEk, ofBE_append_singleton, ih, toNat_ofNat_mod, Nat.pow_succ, Nat.mul_comm (256 ^ k), Nat.mod_mul]
    omega

theorem ofLE_toLEk (k n : Nat) : ofLE (toLEk k n) = n % 256 ^ k := by
  induction k generalizing n with
  | zero => simp [toLEk, ofLE, Nat.mod_one]
  | succ k ih =>
    rw [toLEk, ofLE, ih, toNat_ofNat_mod, Nat.pow_succ, Nat.mul_comm (256 ^ k), Nat.mod_mul]

theorem minBE_zero : minBE 0 = [] := by rw [minBE]; simp

theorem minBE_pos (n : Nat) (h : n ≠ 0) : minBE n = minBE (n / 256) ++ [UInt8.ofNat n] := by
  rw [minBE]; simp [h]

theorem ofBE_minBE (n : Nat) : ofBE (minBE n) = n := by
  induction n using Nat.strongRecOn with
  | _ n ih =>
    by_cases h : n = 0
    · subst h; simp [minBE_zero, ofBE]
    · rw [minBE_pos n h, ofBE_append_singleton, ih (n / 256) (by omega), toNat_ofNat_mod]; omega

theorem minBE_injective {m n : Nat} (h : minBE m = minBE n) : m = n := by
  rw [← ofBE_minBE m, h, ofBE_minBE]

theorem minBE_eq_nil {n : Nat} : minBE n = [] ↔ n = 0 := by
  constructor
  · intro h; rw [← ofBE_minBE n, h]; rfl
  · rintro rfl; exact minBE_zero

theorem stripLeadingZeros_cons (b : UInt8) (bs : List UInt8) :
    stripLeadingZeros (b :: bs) = if b = 0 then stripLeadingZeros bs else b :: bs := by
  simp only [stripLeadingZeros, List.dropWhile_cons, beq_iff_eq]

theorem stripLeadingZeros_nil : stripLeadingZeros [] = [] := rfl

/-- Stripping leading zeros is the shortest big-endian form of the denoted number. -/
theorem strip_eq_minBE (bs : List UInt8) : stripLeadingZeros bs = minBE (ofBE bs) := by
  induction h : bs.length generalizing bs with
  | zero =>
    have : bs = [] := by simpa using h
    subst this; simp [stripLeadingZeros, minBE_zero, ofBE]
  | succ k ih =>
    obtain ⟨bs', b, rfl⟩ : ∃ bs' b, bs = bs' ++ [b] :=
      ⟨bs.dropLast, bs.getLast (by rintro rfl; simp at h), (List.dropLast_concat_getLast _).symm⟩
    have hl : bs'.length = k := by simpa using h
    have ih' := ih bs' hl
    rw [ofBE_append_singleton]
    have hb := b.toNat_lt
    by_cases h0 : ofBE bs' * 256 + b.toNat = 0
    · rw [h0, minBE_zero]
      have h1 : ofBE bs' = 0 := by omega
      have h2 : b = 0 := by apply UInt8.toNat_inj.mp; show b.toNat = 0; omega
      rw [h1, minBE_zero] at ih'
      subst h2
      simp only [stripLeadingZeros] at *
      rw [List.dropWhile_append, ih']; simp
    · rw [minBE_pos _ h0]
      have hdiv : (ofBE bs' * 256 + b.toNat) / 256 = ofBE bs' := by omega
      have hof : UInt8.ofNat (ofBE bs' * 256 + b.toNat) = b := by
        apply UInt8.toNat_inj.mp; rw [toNat_ofNat_mod]; omega
      rw [hdiv, hof, ← ih']
      simp only [stripLeadingZeros] at *
      rw [List.dropWhile_append]
      by_cases he : (List.dropWhile (fun x => x == 0) bs').isEmpty
      · rw [if_pos he]
        have he' : List.dropWhile (fun x => x == 0) bs' = [] := by simpa using he
        rw [he'] at ih' ⊢
        have : ofBE bs' = 0 := minBE_eq_nil.mp ih'.symm
        have hbne : b ≠ 0 := by rintro rfl; simp [this] at h0
        simp [hbne]
      · rw [if_neg he]

theorem ofBE_strip (bs : List UInt8) : ofBE (stripLeadingZeros bs) = ofBE bs := by
  rw [strip_eq_minBE, ofBE_minBE]

theorem strip_toBEk (k n : Nat) (h : n < 256 ^ k) : stripLeadingZeros (toBEk k n) = minBE n := by
  rw [strip_eq_minBE, ofBE_toBEk, Nat.mod_eq_of_lt h]

theorem minBE_length_le (n k : Nat) (h : n < 256 ^ k) : (minBE n).length ≤ k := by
  induction k generalizing n with
  | zero =>
    have : n = 0 := by simpa using h
    subst this; simp [minBE_zero]
  | succ k ih =>
    by_cases h0 : n = 0
    · subst h0; simp [minBE_zero]
    · rw [minBE_pos n h0, List.length_append]
      have := ih (n / 256) (by rw [Nat.pow_succ] at h; omega)
      simp only [List.length_singleton]; omega

theorem lt_of_minBE_length_le (n k : Nat) (h : (minBE n).length ≤ k) : n < 256 ^ k := by
  have := ofBE_lt (minBE n)
  rw [ofBE_minBE] at this
  exact Nat.lt_of_lt_of_le this (Nat.pow_le_pow_right (by decide) h)

/-- The leading byte of the shortest form is non-zero. -/
theorem minBE_head_ne_zero (n : Nat) (b : UInt8) (bs : List UInt8) (h : minBE n = b :: bs) : b ≠ 0 := by
  have h1 : stripLeadingZeros (minBE n) = minBE n := by rw [strip_eq_minBE, ofBE_minBE]
  rw [h, stripLeadingZeros_cons] at h1
  intro hb
  rw [if_pos hb] at h1
  have h2 : (stripLeadingZeros bs).length ≤ bs.length := (List.dropWhile_suffix _).length_le
  rw [h1] at h2
  simp at h2; omega

theorem minBE_ofBE_of_head (b : UInt8) (bs : List UInt8) (h : b ≠ 0) : minBE (ofBE (b :: bs)) = b :: bs := by
  rw [← strip_eq_minBE, stripLeadingZeros_cons, if_neg h]

theorem ofBE_replicate_zero (k : Nat) : ofBE (List.replicate k 0) = 0 := by
  induction k with
  | zero => rfl
  | succ k ih => rw [List.replicate_succ, ofBE_cons, ih]; simp

theorem ofBE_pad (k : Nat) (bs : List UInt8) : ofBE (List.replicate k 0 ++ bs) = ofBE bs := by
  rw [ofBE_append, ofBE_replicate_zero]; simp

/-- Byte strings of equal length denoting the same number are equal. -/
theorem ofBE_inj_of_length {as bs : List UInt8} (hl : as.length = bs.length) (h : ofBE as = ofBE bs) : as = bs := by
  induction as generalizing bs with
  | nil => cases bs <;> simp_all
  | cons a as ih =>
    cases bs with
    | nil => simp at hl
    | cons b bs =>
      have hl' : as.length = bs.length := by simpa using hl
      rw [ofBE_cons, ofBE_cons, hl'] at h
      have h1 := ofBE_lt as
      have h2 := ofBE_lt bs
      rw [hl'] at h1
      have hab : a.toNat = b.toNat := by
        have e1 : (a.toNat * 256 ^ bs.length + ofBE as) / 256 ^ bs.length = a.toNat := by
          rw [Nat.mul_comm, Nat.mul_add_div (Nat.pow_pos (by decide)), Nat.div_eq_of_lt h1]; rfl
        have e2 : (b.toNat * 256 ^ bs.length + ofBE bs) / 256 ^ bs.length = b.toNat := by
          rw [Nat.mul_comm, Nat.mul_add_div (Nat.pow_pos (by decide)), Nat.div_eq_of_lt h2]; rfl
        rw [← e1, h, e2]
      have : ofBE as = ofBE bs := by rw [hab] at h; omega
      rw [ih hl' this, UInt8.toNat_inj.mp hab]

theorem ofLE_inj_of_length {as bs : List UInt8} (hl : as.length = bs.length) (h : ofLE as = ofLE bs) : as = bs := by
  induction as generalizing bs with
  | nil => cases bs <;> simp_all
  | cons a as ih =>
    cases bs with
    | nil => simp at hl
    | cons b bs =>
      have hl' : as.length = bs.length := by simpa using hl
      rw [ofLE, ofLE] at h
      have h1 := a.toNat_lt
      have h2 := b.toNat_lt
      have hab : a.toNat = b.toNat := by omega
      have : ofLE as = ofLE bs := by omega
      rw [ih hl' this, UInt8.toNat_inj.mp hab]

theorem toBEk_ofBE (bs : List UInt8) : toBEk bs.length (ofBE bs) = bs := by
  apply ofBE_inj_of_length (by simp)
  rw [ofBE_toBEk, Nat.mod_eq_of_lt (ofBE_lt bs)]

theorem toLEk_ofLE (bs : List UInt8) : toLEk bs.length (ofLE bs) = bs := by
  apply ofLE_inj_of_length (by simp)
  rw [ofLE_toLEk, Nat.mod_eq_of_lt (ofLE_lt bs)]

end LCT
