import Verif.Lemmas.Crypto.W25519Primes
import Verif.Lemmas.Crypto.Secp256k1Params
import Verif.Lemmas.Math.Certify
import Verif.Lemmas.Math.CurveCard
import Verif.Model.Crypto.TestCurves
import Mathlib.GroupTheory.OrderOfElement

/-!
# Curve25519 has `8·n` points, and the base point has order `n`

There is a point of order 8, so that the number of points is a multiple of `8·n`; and `16·n` would be more points than any curve over the field has.
-/

namespace LCT.W25519
open LCT.Spec LCT.Curve
open WeierstrassCurve.Affine (Point.some Point.zero)

instance : Fact (Nat.Prime W25519.p) := ⟨prime_p⟩
instance : Fact (Nat.Prime W25519.n) := ⟨prime_n⟩

/-- The coefficients, as the casts that occur when a stored curve denotes Curve25519. -/
abbrev E := curve (((W25519.a : Int) : ZMod W25519.p)) (((W25519.b : Int) : ZMod W25519.p))

theorem p_ne_two : W25519.p ≠ 2 := by decide

theorem cast_ne_zero {k : Nat} (h0 : 0 < k) (h : k < W25519.p) : ((k : Nat) : ZMod W25519.p) ≠ 0 := by
  intro e
  have := Nat.le_of_dvd h0 ((ZMod.natCast_eq_zero_iff _ _).mp e)
  omega

theorem b_ne_zero : ((W25519.b : Int) : ZMod W25519.p) ≠ 0 := by
  have := cast_ne_zero (k := W25519.b) (by decide) (by decide)
  exact_mod_cast this

/-- A pair of numbers that solves the equation, with an ordinate that is not zero, is a point. -/
theorem nonsingular {x y : Nat} (h : (y ^ 2) % W25519.p = (x ^ 3 + W25519.a * x + W25519.b) % W25519.p) (hy0 : 0 < y) (hy : y < W25519.p) :
    E.Nonsingular (x : ZMod W25519.p) (y : ZMod W25519.p) := by
  rw [WeierstrassCurve.Affine.nonsingular_iff, WeierstrassCurve.Affine.equation_iff]
  have hy : (y : ZMod W25519.p) ≠ 0 := cast_ne_zero hy0 hy
  refine ⟨?_, Or.inr ?_⟩
  · have h2 := (ZMod.natCast_eq_natCast_iff' _ _ _).mpr h
    push_cast at h2 ⊢
    simp only [zero_mul, add_zero]
    linear_combination h2
  · intro h
    have h2 : 2 * (y : ZMod W25519.p) = 0 := by
      simp only [zero_mul, sub_zero] at h
      linear_combination h
    exact hy ((mul_eq_zero.mp h2).resolve_left (two_ne p_ne_two))

theorem base_nonsingular : E.Nonsingular (W25519.gx : ZMod W25519.p) (W25519.gy : ZMod W25519.p) :=
  nonsingular (by decide +kernel) (by decide) (by decide)

/-- The base point. -/
def G : E.Point := Point.some _ _ base_nonsingular

theorem G_ne_zero : G ≠ 0 := WeierstrassCurve.Affine.Point.some_ne_zero _

theorem a_cast : ((W25519.a : Int) : ZMod W25519.p) = ((W25519.a : Nat) : ZMod W25519.p) := by push_cast; rfl

theorem G_is : Certify.Is G (W25519.gx, W25519.gy) := ⟨base_nonsingular, rfl⟩

theorem n_mul_G : W25519.n • G = 0 := by
  have h : Certify.mul W25519.p W25519.a (W25519.gx, W25519.gy) 257 (W25519.n - 1) = some (W25519.gx, W25519.p - W25519.gy) := by decide +kernel
  have := Certify.order_of a_cast G_is (by decide) h
  rwa [show W25519.n - 1 + 1 = W25519.n by decide] at this

theorem order_G : addOrderOf G = W25519.n := addOrderOf_eq_prime n_mul_G G_ne_zero

/-- A point of order 8. -/
def tx : Nat := 784994156384216107199399111990385161439916830893843497063691184659069321411
def ty : Nat := 10506421237558716435988711236408671798265365380393424752549290025458740468278
/-- The abscissa of the point of order 2: that of `u = 0`. -/
def x2 : Nat := 0x2aaaaaaaaaaaaaaaaaaaaaaaaaaaaaaaaaaaaaaaaaaaaaaaaaaaaaaaaaad2451

def T : E.Point := Point.some _ _ (nonsingular (x := tx) (y := ty) (by decide +kernel) (by decide) (by decide))

theorem T_is : Certify.Is T (tx, ty) := ⟨_, rfl⟩

theorem four_T : Certify.Is ((T + T) + (T + T)) (x2, 0) := by
  have h2 : Certify.double W25519.p W25519.a (tx, ty) = some (19298681539552699237261830834781317975544997444273427339909597334652188435538,
    9094040566125962849133224048217411091405536248825867518642941381412595940312) := by decide +kernel
  have h4 : Certify.double W25519.p W25519.a (19298681539552699237261830834781317975544997444273427339909597334652188435538,
    9094040566125962849133224048217411091405536248825867518642941381412595940312) = some (x2, 0) := by decide +kernel
  exact Certify.double_is a_cast (Certify.double_is a_cast T_is h2) h4

theorem four_T_ne : 4 • T ≠ 0 := by
  obtain ⟨h, e⟩ := four_T
  have : 4 • T = (T + T) + (T + T) := by abel
  rw [this, e]
  exact WeierstrassCurve.Affine.Point.some_ne_zero _

theorem eight_T : 8 • T = 0 := by
  obtain ⟨h, e⟩ := four_T
  have : 8 • T = ((T + T) + (T + T)) + ((T + T) + (T + T)) := by abel
  rw [this, e]
  exact WeierstrassCurve.Affine.Point.add_of_Y_eq rfl (by simp [WeierstrassCurve.Affine.negY])

theorem order_T : addOrderOf T = 2 ^ 3 :=
  addOrderOf_eq_prime_pow (p := 2) (n := 2) four_T_ne eight_T

/-- The curve has exactly `8·n` points. -/
theorem card_points : Nat.card E.Point = 8 * W25519.n := by
  have hfin : Finite E.Point := point_finite p_ne_two
  have hle : Nat.card E.Point ≤ 2 * W25519.p + 1 := card_le p_ne_two
  have hpos : 0 < Nat.card E.Point := Nat.card_pos
  have h8 : 8 ∣ Nat.card E.Point := by
    have := addOrderOf_dvd_natCard T
    rwa [order_T] at this
  have hn : W25519.n ∣ Nat.card E.Point := order_G ▸ addOrderOf_dvd_natCard G
  obtain ⟨k, hk⟩ := Nat.Coprime.mul_dvd_of_dvd_of_dvd (by decide : Nat.Coprime 8 W25519.n) h8 hn
  have h16 : 2 * W25519.p + 1 < 8 * W25519.n * 2 := by decide
  have hk2 : k < 2 := by
    by_contra h
    have : 8 * W25519.n * 2 ≤ 8 * W25519.n * k := Nat.mul_le_mul_left _ (by omega)
    omega
  have hk0 : k ≠ 0 := by rintro rfl; omega
  have : k = 1 := by omega
  rw [hk, this, Nat.mul_one]

end LCT.W25519

namespace LCT.Crypto
open LCT.Spec LCT.Out LCT.BigInt LCT.Modular LCT.Curve
variable {ε : Type}

theorem w25519_y (w : Nat) [DigitWidth w] :
    (w25519 w : Out ε _).Yields fun cp => Domain w cp W25519.p W25519.n W25519.a W25519.b LCT.W25519.G ∧ cp.cofactor = 8 := by
  unfold w25519
  run (fromHexUnwrap_y (z := W25519.a) (by decide +kernel)) with a ha
  run (fromHexUnwrap_y (z := W25519.b) (by decide +kernel)) with b hb
  run (fromHexUnwrap_y (z := W25519.p) (by decide +kernel)) with p hp
  run (fromHexUnwrap_y (z := W25519.gx) (by decide +kernel)) with gx hgx
  run (fromHexUnwrap_y (z := W25519.gy) (by decide +kernel)) with gy hgy
  run (fromHexUnwrap_y (z := W25519.n) (by decide +kernel)) with n hn
  refine .pure ⟨?_, rfl⟩
  refine ⟨LCT.W25519.p_ne_two, LCT.W25519.prime_n, by decide, ⟨ha, hb, hp⟩, ?_, LCT.W25519.b_ne_zero, ?_, hn, LCT.W25519.G_ne_zero,
    LCT.W25519.n_mul_G, LCT.W25519.card_points⟩
  · have h : (4 * W25519.a ^ 3 + 27 * W25519.b ^ 2) % W25519.p ≠ 0 % W25519.p := by decide +kernel
    intro e
    apply h
    apply (ZMod.natCast_eq_natCast_iff' _ _ _).mp
    push_cast at e ⊢
    exact e
  · show Denotes w gx _ ∧ Denotes w gy _
    rw [show ((W25519.gx : Nat) : ZMod W25519.p).val = W25519.gx from ZMod.val_cast_of_lt (by decide),
      show ((W25519.gy : Nat) : ZMod W25519.p).val = W25519.gy from ZMod.val_cast_of_lt (by decide)]
    exact ⟨hgx, hgy⟩

end LCT.Crypto
