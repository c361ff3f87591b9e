import Verif.Lemmas.BigInt.GcdSpec

/-!
# C11: the extended greatest common divisor
-/

namespace LCT.Props
open LCT.Spec LCT.BigInt
variable {ε : Type}

/-- C11: for all `a > b > 0` the extended gcd terminates (each loop takes at most `2 * max w bits + 1` rounds for numbers of
`bits` bits and digits of `w` bits), without panic, overflow
or write outside a buffer, in both build modes, and returns `x`, `y` and `v` with `v = gcd a b` and `x * a + y * b = v`. -/
theorem C11_gcd (m : Build) (k : Nat) (hk : 1 ≤ k) (xa xb : BInt) (a b : Int) (ha : Denotes (8 * k) xa a)
    (hb : Denotes (8 * k) xb b) (hb0 : 0 < b) (hab : b < a) (bits : Nat) (hbits : a < 2 ^ bits) (fuel : Nat)
    (hf : 2 * max (8 * k) bits + 1 ≤ fuel) :
    ∃ zx zy zv x y, (BInt.gcd m (8 * k) fuel xa xb : Out ε _) = .ok (zx, zy, zv) ∧
      Denotes (8 * k) zx x ∧ Denotes (8 * k) zy y ∧ Denotes (8 * k) zv (Int.gcd a b) ∧ x * a + y * b = Int.gcd a b := by
  have h2 : (a * b).natAbs < 2 ^ (fuel - 1) := by
    have h1 : a.natAbs < 2 ^ bits := by zify; rw [abs_of_pos (by omega)]; exact hbits
    rw [Int.natAbs_mul]
    refine lt_of_lt_of_le (Nat.mul_lt_mul'' h1 (by omega : b.natAbs < 2 ^ bits)) ?_
    rw [← pow_add]
    exact Nat.pow_le_pow_right (by omega) (by omega)
  have h := gcd_spec (ε := ε) m hk ha.1 hb.1 (by rw [hb.2]; exact hb0) (by rw [ha.2, hb.2]; exact hab) fuel (by omega)
    (by rw [ha.2, hb.2]; exact h2)
  rwa [ha.2, hb.2] at h

/-- C11: outside `a > b > 0` the extended gcd panics. -/
theorem C11_precondition (m : Build) (k : Nat) (hk : 1 ≤ k) (xa xb : BInt) (a b : Int) (ha : Denotes (8 * k) xa a)
    (hb : Denotes (8 * k) xb b) (h : b ≤ 0 ∨ a ≤ b) (fuel : Nat) : (BInt.gcd m (8 * k) fuel xa xb : Out ε _) = .panic := by
  obtain ⟨z0, ez0, dz0, -⟩ := zero_spec (ε := ε) hk
  simp only [BInt.gcd, cmp_spec m ha.1 hb.1, Out.bind_ok, ha.2, hb.2]
  by_cases hab : b < a
  · have hb0 : b ≤ 0 := by omega
    rw [show compare a b = .gt from Int.compare_eq_gt.mpr hab]
    simp only [beq_self_eq_true, rassert_true, Out.bind_ok, ez0, cmp_spec m hb.1 dz0.1, hb.2, dz0.2]
    have : (compare b 0 == Ordering.gt) = false := by
      rcases lt_or_eq_of_le hb0 with h1 | h1
      · rw [show compare b 0 = .lt from Int.compare_eq_lt.mpr h1]; rfl
      · rw [show compare b 0 = .eq from Int.compare_eq_eq.mpr h1]; rfl
    rw [this]; rfl
  · have : (compare a b == Ordering.gt) = false := by
      rcases lt_or_eq_of_le (not_lt.mp hab) with h1 | h1
      · rw [show compare a b = .lt from Int.compare_eq_lt.mpr h1]; rfl
      · rw [show compare a b = .eq from Int.compare_eq_eq.mpr h1]; rfl
    rw [this]; rfl

/-- The hypotheses of `C11_gcd` are met, by a pair that takes the double-digit fast path and the fall-back: with one-byte digits,
`gcd 1000000 350003 = 1` with coefficients `169168` and `-483333`. -/
example : Denotes (8 * 1) ⟨[0x40, 0x42, 0x0f], 3, .positive⟩ 1000000 ∧ Denotes (8 * 1) ⟨[0x33, 0x57, 0x05], 3, .positive⟩ 350003 ∧
    (BInt.gcd .debug 8 (2 * max 8 20 + 1) ⟨[0x40, 0x42, 0x0f], 3, .positive⟩ ⟨[0x33, 0x57, 0x05], 3, .positive⟩ : Out Unit _).bind
      (fun r => .ok (toInt 8 r.1, toInt 8 r.2.1, toInt 8 r.2.2)) = .ok (169168, -483333, 1) := by
  refine ⟨⟨⟨by decide, by decide, by decide, by decide, by decide⟩, by decide⟩,
    ⟨⟨by decide, by decide, by decide, by decide, by decide⟩, by decide⟩, by decide +kernel⟩

end LCT.Props
