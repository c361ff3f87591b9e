import Verif.Spec.Curve
import Mathlib.Algebra.Field.ZMod
import Mathlib.SetTheory.Cardinal.Finite
import Mathlib.Data.Fintype.Option
import Mathlib.Data.Fintype.Prod
import Mathlib.Tactic.LinearCombination

/-!
# The group of points of a curve is finite, with at most `2·p + 1` elements
-/

namespace LCT.Curve
open LCT.Spec
open WeierstrassCurve.Affine (Point.some Point.zero)
variable {p : Nat} [hpr : Fact p.Prime] {a b : ZMod p}

theorem two_ne (hp2 : p ≠ 2) : (2 : ZMod p) ≠ 0 := by
  have := (ZMod.natCast_eq_zero_iff 2 p).not.mpr (fun h => hp2 ((Nat.prime_dvd_prime_iff_eq hpr.out Nat.prime_two).mp h))
  exact_mod_cast this

/-- The opposite of a non-zero residue has the other parity. -/
theorem neg_parity (hp2 : p ≠ 2) {y : ZMod p} (hy : y ≠ 0) : (-y).val % 2 ≠ y.val % 2 := by
  have : NeZero y := ⟨hy⟩
  have h1 := ZMod.val_neg_of_ne_zero y
  have h2 := ZMod.val_lt y
  have h3 : p % 2 = 1 := (hpr.out.eq_two_or_odd).resolve_left hp2
  omega

/-- A point is determined by its abscissa and the parity of its ordinate. -/
def compress : (curve a b).Point → Option (ZMod p × Bool)
  | .zero => none
  | .some x y _ => some (x, y.val % 2 == 1)

theorem sq_eq {x y y' : ZMod p} (h : (curve a b).Nonsingular x y) (h' : (curve a b).Nonsingular x y') : y = y' ∨ y = -y' := by
  have e := WeierstrassCurve.Affine.Y_eq_of_X_eq h.1 h'.1 rfl
  simpa [WeierstrassCurve.Affine.negY] using e

theorem compress_injective (hp2 : p ≠ 2) : Function.Injective (compress (a := a) (b := b)) := by
  intro P Q h
  cases P with
  | zero =>
    cases Q with
    | zero => rfl
    | some x' y' hn' => simp [compress] at h
  | some x y hn =>
    cases Q with
    | zero => simp [compress] at h
    | some x' y' hn' =>
      simp only [compress, Option.some.injEq, Prod.mk.injEq] at h
      obtain ⟨rfl, hpar⟩ := h
      have hpar' : y.val % 2 = y'.val % 2 := by
        have := congrArg (fun b => b = true) hpar
        simp only [beq_iff_eq, eq_iff_iff] at this
        omega
      have : y = y' := by
        rcases sq_eq hn hn' with h | h
        · exact h
        · by_cases h0 : y' = 0
          · rw [h, h0, neg_zero]
          · exact absurd (h ▸ hpar') (neg_parity hp2 h0)
      subst this
      rfl

theorem point_finite (hp2 : p ≠ 2) : Finite (curve a b).Point :=
  Finite.of_injective _ (compress_injective hp2)

theorem card_le (hp2 : p ≠ 2) : Nat.card (curve a b).Point ≤ 2 * p + 1 := by
  have h := Nat.card_le_card_of_injective _ (compress_injective (a := a) (b := b) hp2)
  rw [Nat.card_eq_fintype_card (α := Option (ZMod p × Bool)), Fintype.card_option, Fintype.card_prod, ZMod.card, Fintype.card_bool] at h
  omega

/-- A point with `P + P = 0` is zero or has ordinate zero. -/
theorem double_eq_zero (hp2 : p ≠ 2) {x y : ZMod p} (h : (curve a b).Nonsingular x y)
    (h0 : (Point.some x y h : (curve a b).Point) + Point.some x y h = 0) : y = 0 := by
  by_cases hy : y = (curve a b).negY x y
  · simp only [WeierstrassCurve.Affine.negY, zero_mul, sub_zero] at hy
    have : 2 * y = 0 := by linear_combination hy
    exact (mul_eq_zero.mp this).resolve_left (two_ne hp2)
  · rw [WeierstrassCurve.Affine.Point.add_self_of_Y_ne hy] at h0
    exact absurd h0 (WeierstrassCurve.Affine.Point.some_ne_zero _)

/-- A curve without points of order two on which some point has prime order `n` greater than a third of `2·p + 1` has `n` points. -/
theorem card_of_order (hp2 : p ≠ 2) {n : Nat} {G : (curve a b).Point} (hG : addOrderOf G = n) (hn : 2 * p + 1 < n * 3)
    (h2 : ∀ x y : ZMod p, (curve a b).Nonsingular x y → y ≠ 0) : Nat.card (curve a b).Point = n := by
  have hfin : Finite (curve a b).Point := point_finite hp2
  have hle : Nat.card (curve a b).Point ≤ 2 * p + 1 := card_le hp2
  have hpos : 0 < Nat.card (curve a b).Point := Nat.card_pos
  have hdvd : n ∣ Nat.card (curve a b).Point := hG ▸ addOrderOf_dvd_natCard G
  obtain ⟨k, hk⟩ := hdvd
  have hk3 : k < 3 := by
    by_contra h
    have h3 : n * 3 ≤ n * k := Nat.mul_le_mul_left _ (by omega)
    omega
  have hk0 : k ≠ 0 := by rintro rfl; omega
  have hk2 : k ≠ 2 := by
    rintro rfl
    have : Fact (Nat.Prime 2) := ⟨Nat.prime_two⟩
    obtain ⟨P, hP⟩ := exists_prime_addOrderOf_dvd_card' 2 (show 2 ∣ Nat.card (curve a b).Point from ⟨n, by omega⟩)
    have h0 : P + P = 0 := by
      rw [← two_nsmul, ← hP, addOrderOf_nsmul_eq_zero]
    cases P with
    | zero =>
      rw [show (Point.zero : (curve a b).Point) = 0 from rfl, addOrderOf_zero] at hP
      omega
    | some x y hn => exact h2 x y hn (double_eq_zero hp2 hn h0)
  have : k = 1 := by omega
  rw [hk, this, Nat.mul_one]

end LCT.Curve
