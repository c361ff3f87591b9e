import Verif.Lemmas.Crypto.Secp256k1Primes
import Verif.Lemmas.Math.Certify
import Verif.Lemmas.Math.CurveCard
import Mathlib.GroupTheory.Perm.Cycle.Type
import Mathlib.FieldTheory.Finite.Basic

/-!
# The group of points of secp256k1 has order `n` and is generated by the base point
-/

namespace LCT.Secp256k1
open LCT.Spec LCT.Curve
open WeierstrassCurve.Affine (Point.some Point.zero)

instance : Fact (Nat.Prime Secp256k1.p) := ⟨prime_p⟩
instance : Fact (Nat.Prime Secp256k1.n) := ⟨prime_n⟩

/-- The coefficients, as the casts that occur when a stored curve denotes secp256k1. -/
abbrev E := curve (((0 : Int) : ZMod Secp256k1.p)) (((7 : Int) : ZMod Secp256k1.p))

theorem p_ne_two : Secp256k1.p ≠ 2 := by decide

theorem cast_ne_zero {k : Nat} (h0 : 0 < k) (h : k < Secp256k1.p) : ((k : Nat) : ZMod Secp256k1.p) ≠ 0 := by
  intro e
  have := Nat.le_of_dvd h0 ((ZMod.natCast_eq_zero_iff _ _).mp e)
  omega

theorem b_ne_zero : ((7 : Int) : ZMod Secp256k1.p) ≠ 0 := by
  have := cast_ne_zero (k := 7) (by decide) (by decide)
  exact_mod_cast this

theorem base_nonsingular : E.Nonsingular (Secp256k1.gx : ZMod Secp256k1.p) (Secp256k1.gy : ZMod Secp256k1.p) := by
  rw [WeierstrassCurve.Affine.nonsingular_iff, WeierstrassCurve.Affine.equation_iff]
  have hy : (Secp256k1.gy : ZMod Secp256k1.p) ≠ 0 := cast_ne_zero (by decide) (by decide)
  refine ⟨?_, Or.inr ?_⟩
  · have h : (Secp256k1.gy ^ 2) % Secp256k1.p = (Secp256k1.gx ^ 3 + 7) % Secp256k1.p := by decide +kernel
    have h2 := (ZMod.natCast_eq_natCast_iff' _ _ _).mpr h
    push_cast at h2 ⊢
    simp only [zero_mul, add_zero]
    linear_combination h2
  · intro h
    have h2 : 2 * (Secp256k1.gy : ZMod Secp256k1.p) = 0 := by
      simp only [zero_mul, sub_zero] at h
      linear_combination h
    exact hy ((mul_eq_zero.mp h2).resolve_left (two_ne p_ne_two))

/-- The base point. -/
def G : E.Point := Point.some _ _ base_nonsingular

theorem G_ne_zero : G ≠ 0 := WeierstrassCurve.Affine.Point.some_ne_zero _

theorem n_mul_G : Secp256k1.n • G = 0 := by
  have h : Certify.mul Secp256k1.p 0 (Secp256k1.gx, Secp256k1.gy) 257 (Secp256k1.n - 1) =
      some (Secp256k1.gx, Secp256k1.p - Secp256k1.gy) := by decide +kernel
  have hA : ((0 : Int) : ZMod Secp256k1.p) = ((0 : Nat) : ZMod Secp256k1.p) := by simp
  have hg : Certify.Is G (Secp256k1.gx, Secp256k1.gy) := ⟨base_nonsingular, rfl⟩
  have := Certify.order_of hA hg (by decide) h
  rwa [show Secp256k1.n - 1 + 1 = Secp256k1.n by decide] at this

theorem order_G : addOrderOf G = Secp256k1.n := addOrderOf_eq_prime n_mul_G G_ne_zero

/-- `-7` is not a cube modulo `p`: its power `(p - 1) / 3` is not one. -/
theorem no_y_zero {x y : ZMod Secp256k1.p} (h : E.Nonsingular x y) : y ≠ 0 := by
  rintro rfl
  have he := h.1
  rw [WeierstrassCurve.Affine.equation_iff] at he
  have hx : x ^ 3 = ((Secp256k1.p - 7 : Nat) : ZMod Secp256k1.p) := by
    rw [Certify.cast_sub_p (by decide)]
    push_cast at he ⊢
    linear_combination -he
  have hx0 : x ≠ 0 := by
    rintro rfl
    rw [zero_pow (by decide)] at hx
    exact cast_ne_zero (by decide) (by decide) hx.symm
  have h1 : x ^ (Secp256k1.p - 1) = 1 := ZMod.pow_card_sub_one_eq_one hx0
  have hd : Secp256k1.p - 1 = 3 * ((Secp256k1.p - 1) / 3) := by decide
  rw [hd, pow_mul, hx, ← Pratt.powMod_cast _ 256 _ _ (by decide)] at h1
  have h2 : Pratt.powMod Secp256k1.p 256 (Secp256k1.p - 7) ((Secp256k1.p - 1) / 3) % Secp256k1.p ≠ 1 % Secp256k1.p := by
    decide +kernel
  exact h2 ((ZMod.natCast_eq_natCast_iff' _ _ _).mp (by rw [h1, Nat.cast_one]))

/-- No point has order two. -/
theorem no_two_torsion (P : E.Point) (h : P + P = 0) : P = 0 := by
  cases P with
  | zero => rfl
  | some x y hn => exact absurd (double_eq_zero p_ne_two hn h) (no_y_zero hn)

/-- The curve has exactly `n` points. -/
theorem card_points : Nat.card E.Point = Secp256k1.n :=
  card_of_order p_ne_two order_G (by decide) fun _ _ => no_y_zero

end LCT.Secp256k1
