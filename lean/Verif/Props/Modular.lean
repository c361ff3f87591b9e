import Verif.Props.Gcd
import Verif.Lemmas.Math.Sqrt
import Mathlib.Tactic.NormNum.Prime

/-!
# Properties of modular arithmetic: C13, C14
-/

namespace LCT.Props
open LCT.BigInt LCT.Spec LCT.Modular
variable {ε : Type}

/-- C13: `modulo` returns the least non-negative remainder (`%` on `Int` is the remainder of the division rounding down, for a
positive divisor), for every dividend, negative ones included; it never panics on a positive modulus. -/
theorem C13_modulo (m : Build) (w : Nat) [DigitWidth w] (xa xn : BInt) (a n : Int) (ha : Denotes w xa a) (hn : Denotes w xn n)
    (h0 : 0 < n) : ∃ r, (modulo m w xa xn : Out ε _) = .ok r ∧ Denotes w r (a % n) ∧ 0 ≤ a % n ∧ a % n < n ∧ n ∣ a - a % n := by
  obtain ⟨r, e, hr⟩ := modulo_y (ε := ε) m ha hn h0
  exact ⟨r, e, hr, Int.emod_nonneg _ (by omega), Int.emod_lt_of_pos _ h0, Int.dvd_self_sub_emod⟩

/-- C13: on a modulus `n > 1` and a number that is not zero modulo `n`, `invert` returns the inverse, reduced, if there is one (that
is, if `a` and `n` have no common divisor), and `None` otherwise. -/
theorem C13_invert (m : Build) (w : Nat) [DigitWidth w] (xa xn : BInt) (a n : Int) (ha : Denotes w xa a) (hn : Denotes w xn n)
    (h1 : 1 < n) (ha0 : ¬ n ∣ a) :
    (Int.gcd a n = 1 ∧ ∃ r x, (invert m w xa xn : Out ε _) = .ok (some r) ∧ Denotes w r x ∧ 0 ≤ x ∧ x < n ∧ n ∣ a * x - 1) ∨
    (Int.gcd a n ≠ 1 ∧ (invert m w xa xn : Out ε _) = .ok none) := by
  obtain ⟨o, e, h⟩ := invert_y (ε := ε) m ha hn h1 (fun h => ha0 (Int.dvd_of_emod_eq_zero h))
  cases o with
  | none => exact Or.inr ⟨h, e⟩
  | some r =>
    obtain ⟨x, hx, h2, h3, h4⟩ := h
    have hd : n ∣ a * x - 1 := by
      have := Int.dvd_self_sub_emod (x := a * x) (m := n)
      rwa [h4] at this
    refine Or.inl ⟨?_, r, x, e, hx, h2, h3, hd⟩
    have hg1 : ((Int.gcd a n : Nat) : Int) ∣ 1 := by
      have e1 : (1 : Int) = a * x - (a * x - 1) := by ring
      rw [e1]
      exact Int.dvd_sub (Dvd.dvd.mul_right (Int.gcd_dvd_left ..) _) (dvd_trans (Int.gcd_dvd_right ..) hd)
    exact Nat.dvd_one.mp (by exact_mod_cast hg1)

/-- C13: on a number that is zero modulo `n` the function panics, in both build modes. -/
theorem C13_invert_zero (m : Build) (w : Nat) [DigitWidth w] (xa xn : BInt) (a n : Int) (ha : Denotes w xa a) (hn : Denotes w xn n)
    (h1 : 1 < n) (ha0 : n ∣ a) : (invert m w xa xn : Out ε _) = .panic := by
  have hm : a % n = 0 := Int.emod_eq_zero_of_dvd ha0
  obtain ⟨r, er, hr⟩ := modulo_y (ε := ε) m ha hn (by omega)
  rw [hm] at hr
  have hg : ∀ fuel, (BInt.gcd m w fuel xn r : Out ε _) = .panic := by
    intro fuel
    obtain ⟨k, hk, rfl⟩ := (inferInstance : DigitWidth w)
    exact C11_precondition m k hk xn r n 0 hn hr (Or.inl (Int.le_refl 0)) fuel
  unfold invert
  cases m
  · obtain ⟨o, eo, ho⟩ := one_y (ε := ε) w
    obtain ⟨b, eb, hb⟩ := gt_y (ε := ε) .debug hn ho
    obtain ⟨z, ez, hz⟩ := isZero_y (ε := ε) .debug ha
    have hb' : b = true := by rw [hb]; simpa using h1
    simp only [dassertM, eo, Out.bind_ok, eb, hb', rassert_true, ez]
    cases z
    · show (rassert (!false) >>= _) = _
      simp only [Bool.not_false, rassert_true, Out.bind_ok, er, hg]
      rfl
    · rfl
  · simp only [dassertM, Out.bind_ok, er, hg]
    rfl

/-- C13: `pow` returns `a ^ e` reduced modulo `n`, for every exponent: in both build modes for `0 < a < n`, and in release builds (where
the range of `a` is not checked) for every `a ≥ 0`. -/
theorem C13_pow (m : Build) (w : Nat) [DigitWidth w] (xa xe xn : BInt) (a n : Int) (e : Nat) (ha : Denotes w xa a)
    (he : Denotes w xe e) (hn : Denotes w xn n) (h1 : 1 < n) (hr : (0 < a ∧ a < n) ∨ (m = .release ∧ 0 ≤ a)) :
    ∃ r, (Modular.pow m w xa xe xn : Out ε _) = .ok r ∧ Denotes w r (a ^ e % n) :=
  pow_y m ha he hn h1 hr.symm

/-- The hypotheses of the C13 theorems are met, with one-byte digits: `-1000 mod 300 = 200`, `7⁻¹ mod 300 = 43`, `6` has no inverse
modulo `300`, `7 ^ 1000 mod 300 = 1`. -/
example : Denotes 8 ⟨[0xe8, 3], 2, .negative⟩ (-1000) ∧ Denotes 8 ⟨[0x2c, 1], 2, .positive⟩ 300 ∧ Denotes 8 ⟨[7], 1, .positive⟩ 7 ∧
    Denotes 8 ⟨[6], 1, .positive⟩ 6 ∧ Denotes 8 ⟨[0xe8, 3], 2, .positive⟩ (1000 : Nat) := by
  refine ⟨⟨⟨by decide, by decide, by decide, by decide, by decide⟩, by decide⟩,
    ⟨⟨by decide, by decide, by decide, by decide, by decide⟩, by decide⟩,
    ⟨⟨by decide, by decide, by decide, by decide, by decide⟩, by decide⟩,
    ⟨⟨by decide, by decide, by decide, by decide, by decide⟩, by decide⟩,
    ⟨⟨by decide, by decide, by decide, by decide, by decide⟩, by decide⟩⟩
example : (modulo .debug 8 ⟨[0xe8, 3], 2, .negative⟩ ⟨[0x2c, 1], 2, .positive⟩ : Out Unit _).bind (fun r => .ok (toInt 8 r)) = .ok 200 ∧
    (invert .debug 8 ⟨[7], 1, .positive⟩ ⟨[0x2c, 1], 2, .positive⟩ : Out Unit _).bind (fun r => .ok (r.map (toInt 8))) = .ok (some 43) ∧
    (invert .debug 8 ⟨[6], 1, .positive⟩ ⟨[0x2c, 1], 2, .positive⟩ : Out Unit _).bind (fun r => .ok (r.map (toInt 8))) = .ok none ∧
    (Modular.pow .debug 8 ⟨[7], 1, .positive⟩ ⟨[0xe8, 3], 2, .positive⟩ ⟨[0x2c, 1], 2, .positive⟩ : Out Unit _).bind
      (fun r => .ok (toInt 8 r)) = .ok 1 := by
  refine ⟨by decide +kernel, by decide +kernel, by decide +kernel, by decide +kernel⟩

/-- C14: for every odd prime `p` and `0 < a < p`, `sqrt` terminates without panic.  If some integer squares to `a` modulo `p` it
returns the two roots `x` and `p - x` between `0` and `p`; if none does, it returns `None`. -/
theorem C14_sqrt (m : Build) (w : Nat) [DigitWidth w] (p : Nat) (hp : p.Prime) (hp2 : p ≠ 2) (a : Int) (h0 : 0 < a) (ha : a < p)
    (xa xp : BInt) (hxa : Denotes w xa a) (hxp : Denotes w xp p) :
    ((∃ y : Int, (p : Int) ∣ y * y - a) ∧ ∃ r1 r2 x, (Modular.sqrt m w xa xp : Out ε _) = .ok (some (r1, r2)) ∧
      Denotes w r1 x ∧ Denotes w r2 (p - x) ∧ 0 < x ∧ x < p ∧ x * x % p = a) ∨
    ((¬ ∃ y : Int, (p : Int) ∣ y * y - a) ∧ (Modular.sqrt m w xa xp : Out ε _) = .ok none) := by
  have : Fact p.Prime := ⟨hp⟩
  have hr : Res w xa (a : ZMod p) := res_of_int hxa (by omega) ha
  have hne : (a : ZMod p) ≠ 0 := by
    intro h
    rw [ZMod.intCast_zmod_eq_zero_iff_dvd] at h
    exact absurd (Int.le_of_dvd h0 h) (by omega)
  obtain ⟨o, e, h⟩ := sqrt_y (ε := ε) m hp2 hxp hr hne
  cases o with
  | none =>
    refine Or.inr ⟨?_, e⟩
    rintro ⟨y, hy⟩
    apply h
    refine ⟨(y : ZMod p), ?_⟩
    rw [← ZMod.intCast_zmod_eq_zero_iff_dvd, Int.cast_sub, Int.cast_mul, sub_eq_zero] at hy
    exact hy.symm
  | some z =>
    obtain ⟨s, hs, h1, h2⟩ := h
    have hs0 : s ≠ 0 := by
      rintro rfl
      apply hne
      rw [← hs]; simp
    have hneg : ((-s).val : Int) = p - s.val := by
      have : NeZero s := ⟨hs0⟩
      have := ZMod.val_neg_of_ne_zero s
      have := ZMod.val_lt s
      omega
    have hmul : (s.val : Int) * s.val % p = a := by
      rw [← Int.emod_eq_of_lt (show 0 ≤ a by omega) ha]
      have : (((s.val : Int) * s.val : Int) : ZMod p) = ((a : Int) : ZMod p) := by
        rw [Int.cast_mul, int_val, ← pow_two, hs]
      exact (ZMod.intCast_eq_intCast_iff _ _ _).mp this
    refine Or.inl ⟨⟨s.val, ?_⟩, z.1, z.2, s.val, e, h1, ?_, val_pos_iff.mpr hs0, val_lt_int s, hmul⟩
    · have := Int.dvd_self_sub_emod (x := (s.val : Int) * s.val) (m := p)
      rwa [hmul] at this
    · rw [← hneg]; exact h2

/-- The hypotheses of `C14_sqrt` are met, and the loop of the algorithm is exercised: modulo `257` (where `p - 1 = 2 ^ 8`), `2` has the
roots `60` and `197`, and `3` has none; with one-byte digits. -/
example : Nat.Prime 257 ∧ Denotes 8 ⟨[2], 1, .positive⟩ 2 ∧ Denotes 8 ⟨[3], 1, .positive⟩ 3 ∧
    Denotes 8 ⟨[1, 1], 2, .positive⟩ (257 : Nat) := by
  refine ⟨by norm_num, ⟨⟨by decide, by decide, by decide, by decide, by decide⟩, by decide⟩,
    ⟨⟨by decide, by decide, by decide, by decide, by decide⟩, by decide⟩,
    ⟨⟨by decide, by decide, by decide, by decide, by decide⟩, by decide⟩⟩
example : (Modular.sqrt .debug 8 ⟨[2], 1, .positive⟩ ⟨[1, 1], 2, .positive⟩ : Out Unit _).bind
      (fun r => .ok (r.map fun z => (toInt 8 z.1, toInt 8 z.2))) = .ok (some (60, 197)) ∧
    (Modular.sqrt .debug 8 ⟨[3], 1, .positive⟩ ⟨[1, 1], 2, .positive⟩ : Out Unit _) = .ok none := by
  refine ⟨by decide +kernel, by decide +kernel⟩

end LCT.Props
