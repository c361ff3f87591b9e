import Verif.Lemmas.BigInt.DivLoop

/-!
# C03: division with remainder
-/

namespace LCT.Props
open LCT.Spec LCT.BigInt
variable {ε : Type}

/-- C03: for every dividend `a` and every non-zero divisor `b`, `/` and `%` return canonical numbers `q` and `r` with
`a = q * b + r`, `|r| < |b|`, and `r` zero or of the sign of `a`. -/
theorem C03_div_rem (m : Build) (k : Nat) (hk : 1 ≤ k) (x y : BInt) (a b : Int) (hx : Denotes (8 * k) x a)
    (hy : Denotes (8 * k) y b) (hb : b ≠ 0) :
    ∃ zq zr q r, (BInt.div m (8 * k) x y : Out ε _) = .ok zq ∧ (BInt.rem m (8 * k) x y : Out ε _) = .ok zr ∧
      Denotes (8 * k) zq q ∧ Denotes (8 * k) zr r ∧
      a = q * b + r ∧ r.natAbs < b.natAbs ∧ (r = 0 ∨ r.sign = a.sign) := by
  obtain ⟨zq, zr, e, dq, dr⟩ := divRem_spec (ε := ε) (w := 8 * k) m (by omega) hx.1 hy.1 (by rw [hy.2]; exact hb)
  rw [hx.2, hy.2] at dq dr
  refine ⟨zq, zr, _, _, by simp [BInt.div, e], by simp [BInt.rem, e], dq, dr, ?_, ?_, ?_⟩
  · have := Int.mul_tdiv_add_tmod a b; rw [Int.mul_comm]; exact this.symm
  · rw [Int.natAbs_tmod]; exact Nat.mod_lt _ (by omega)
  · rcases Int.lt_trichotomy a 0 with h | h | h
    · by_cases h0 : a.tmod b = 0
      · exact Or.inl h0
      · right
        have h1 : a.tmod b ≤ 0 := by
          have := Int.tmod_nonneg b (a := -a) (by omega)
          rw [Int.neg_tmod] at this; omega
        rw [Int.sign_eq_neg_one_of_neg h, Int.sign_eq_neg_one_of_neg (by omega)]
    · subst h; left; simp
    · by_cases h0 : a.tmod b = 0
      · exact Or.inl h0
      · right
        have h1 := Int.tmod_nonneg b (a := a) (by omega)
        rw [Int.sign_eq_one_of_pos h, Int.sign_eq_one_of_pos (by omega)]

/-- The two conditions of `C03_div_rem` determine quotient and remainder. -/
theorem C03_unique (a b q r q' r' : Int) (h : a = q * b + r) (h' : a = q' * b + r')
    (hr : r.natAbs < b.natAbs) (hr' : r'.natAbs < b.natAbs) (hs : r = 0 ∨ r.sign = a.sign) (hs' : r' = 0 ∨ r'.sign = a.sign) :
    q = q' ∧ r = r' := by
  have key : ∀ q r : Int, a = q * b + r → r.natAbs < b.natAbs → (r = 0 ∨ r.sign = a.sign) → q = a.tdiv b := by
    intro q r h hr hs
    have hb : b ≠ 0 := by intro hb; simp [hb] at hr
    have hrz : r.tdiv b = 0 := Int.natAbs_eq_zero.mp (by rw [Int.natAbs_tdiv]; exact Nat.div_eq_of_lt hr)
    have hm := Int.mul_tdiv_add_tmod a b
    have hmr : (a.tmod b).natAbs < b.natAbs := by rw [Int.natAbs_tmod]; exact Nat.mod_lt _ (by omega)
    have hms : a.tmod b = 0 ∨ (a.tmod b).sign = a.sign := by
      rcases Int.lt_trichotomy a 0 with h | h | h
      · by_cases h0 : a.tmod b = 0
        · exact Or.inl h0
        · right
          have h1 : a.tmod b ≤ 0 := by
            have := Int.tmod_nonneg b (a := -a) (by omega)
            rw [Int.neg_tmod] at this; omega
          rw [Int.sign_eq_neg_one_of_neg h, Int.sign_eq_neg_one_of_neg (by omega)]
      · subst h; left; simp
      · by_cases h0 : a.tmod b = 0
        · exact Or.inl h0
        · right
          have h1 := Int.tmod_nonneg b (a := a) (by omega)
          rw [Int.sign_eq_one_of_pos h, Int.sign_eq_one_of_pos (by omega)]
    have hdiff : b * (q - a.tdiv b) = a.tmod b - r := by
      rw [Int.mul_sub, Int.mul_comm b q]; omega
    have habs : (a.tmod b - r).natAbs < b.natAbs := by
      rcases Int.lt_trichotomy a 0 with h0 | h0 | h0
      · have e1 : r ≤ 0 := by
          rcases hs with h1 | h1
          · omega
          · rw [Int.sign_eq_neg_one_of_neg h0] at h1; have := Int.sign_eq_neg_one_iff_neg.mp h1; omega
        have e2 : a.tmod b ≤ 0 := by
          rcases hms with h1 | h1
          · omega
          · rw [Int.sign_eq_neg_one_of_neg h0] at h1; have := Int.sign_eq_neg_one_iff_neg.mp h1; omega
        omega
      · have e1 : r = 0 := by
          rcases hs with h1 | h1
          · exact h1
          · rw [h0, Int.sign_zero] at h1; exact Int.sign_eq_zero_iff_zero.mp h1
        have e2 : a.tmod b = 0 := by rw [h0]; simp
        rw [e1, e2]; simp; omega
      · have e1 : 0 ≤ r := by
          rcases hs with h1 | h1
          · omega
          · rw [Int.sign_eq_one_of_pos h0] at h1; have := Int.sign_eq_one_iff_pos.mp h1; omega
        have e2 : 0 ≤ a.tmod b := Int.tmod_nonneg b (by omega)
        omega
    rw [← hdiff, Int.natAbs_mul] at habs
    have h0 : (q - a.tdiv b).natAbs = 0 := by
      apply Classical.byContradiction
      intro hc
      have : b.natAbs * 1 ≤ b.natAbs * (q - a.tdiv b).natAbs := Nat.mul_le_mul_left _ (by omega)
      omega
    omega
  have h1 := key q r h hr hs
  have h2 := key q' r' h' hr' hs'
  have hq : q = q' := by omega
  subst hq
  exact ⟨rfl, by omega⟩

/-- C03: division by zero panics, whatever the dividend. -/
theorem C03_zero_divisor (m : Build) (k : Nat) (x y : BInt) (a : Int) (hx : Denotes (8 * k) x a) (hy : Denotes (8 * k) y 0) :
    (BInt.div m (8 * k) x y : Out ε _) = .panic ∧ (BInt.rem m (8 * k) x y : Out ε _) = .panic := by
  have e := divRem_zero (ε := ε) m hx.1 hy.1 hy.2
  exact ⟨by simp [BInt.div, e], by simp [BInt.rem, e]⟩

/-- The hypotheses of `C03_div_rem` are met: a three-digit negative number (one-byte digits) divided by a two-digit one, so that
the multi-digit algorithm runs. -/
example : Denotes (8 * 1) ⟨[0x15, 0xfe, 0x7f], 3, .negative⟩ (-8388117) ∧ Denotes (8 * 1) ⟨[0xff, 0x80], 2, .positive⟩ 33023 ∧
    (BInt.div .debug 8 ⟨[0x15, 0xfe, 0x7f], 3, .negative⟩ ⟨[0xff, 0x80], 2, .positive⟩ : Out Unit _)
      = .ok ⟨[254, 0, 0], 1, .negative⟩ := by
  refine ⟨⟨⟨by decide, by decide, by decide, by decide, by decide⟩, by decide⟩,
    ⟨⟨by decide, by decide, by decide, by decide, by decide⟩, by decide⟩, by decide +kernel⟩

end LCT.Props
