import Verif.Lemmas.Math.Certify
import Verif.Lemmas.Math.Cubic
import Verif.Lemmas.Math.CurveCard

/-!
# Checking inside the kernel that domain parameters are valid

A point of prime order `n` on a curve modulo `p` shows that `p` is prime if `n` is large enough, because a curve modulo a prime factor of `p` would
have too few points.
-/

namespace LCT.ValidCurve
open LCT.Spec LCT.Curve
open WeierstrassCurve.Affine (Point.some Point.zero)

/-- The base point is on the curve modulo `p`, is not its own opposite modulo any factor of `p`, and `n - 1` times the point is its opposite. -/
structure OnCurve (p a b gx gy n : Nat) : Prop where
  equation : gy * gy % p = (gx * gx * gx + a * gx + b) % p
  coprime : Nat.gcd (2 * gy) p = 1
  x_lt : gx < p
  y_lt : gy < p
  mul : Certify.mul p a (gx, gy) (n.log2 + 1) (n - 1) = some (gx, p - gy)

variable {p a b gx gy n : Nat}

theorem nonsingular_of (h : OnCurve p a b gx gy n) {q : Nat} [hq : Fact q.Prime] (hd : q ∣ p) :
    (curve (a : ZMod q) (b : ZMod q)).Nonsingular (gx : ZMod q) (gy : ZMod q) := by
  have hy : 2 * (gy : ZMod q) ≠ 0 := by
    intro e
    have : ((2 * gy : Nat) : ZMod q) = 0 := by push_cast; exact e
    have := Nat.dvd_gcd ((ZMod.natCast_eq_zero_iff _ _).mp this) hd
    rw [h.coprime] at this
    exact hq.out.one_lt.ne' (Nat.dvd_one.mp this)
  rw [WeierstrassCurve.Affine.nonsingular_iff, WeierstrassCurve.Affine.equation_iff]
  refine ⟨?_, Or.inr ?_⟩
  · have e := congrArg (Nat.cast : Nat → ZMod q) h.equation
    rw [Certify.cast_mod_of hd, Certify.cast_mod_of hd] at e
    push_cast at e
    simp only [zero_mul, add_zero]
    linear_combination e
  · intro e
    apply hy
    simp only [zero_mul, sub_zero] at e
    linear_combination e

theorem ne_two_of (h : OnCurve p a b gx gy n) {q : Nat} (hd : q ∣ p) : q ≠ 2 := by
  rintro rfl
  have := Nat.dvd_gcd (Dvd.intro gy rfl : 2 ∣ 2 * gy) hd
  rw [h.coprime] at this
  omega

theorem order_of (h : OnCurve p a b gx gy n) (hn : n.Prime) {q : Nat} [hq : Fact q.Prime] (hd : q ∣ p) :
    n • (Point.some _ _ (nonsingular_of h hd) : (curve (a : ZMod q) (b : ZMod q)).Point) = 0 := by
  have := Certify.order_of_mod hd (lt_of_le_of_lt (Nat.zero_le _) h.x_lt) (B := (b : ZMod q)) rfl ⟨nonsingular_of h hd, rfl⟩ h.y_lt.le h.mul
  rwa [Nat.sub_add_cancel hn.one_lt.le] at this

theorem addOrderOf_eq (h : OnCurve p a b gx gy n) (hn : n.Prime) {q : Nat} [hq : Fact q.Prime] (hd : q ∣ p) :
    addOrderOf (Point.some _ _ (nonsingular_of h hd) : (curve (a : ZMod q) (b : ZMod q)).Point) = n :=
  haveI := Fact.mk hn
  addOrderOf_eq_prime (order_of h hn hd) (WeierstrassCurve.Affine.Point.some_ne_zero _)

/-- The order of the field is prime. -/
theorem prime_of (h : OnCurve p a b gx gy n) (hn : n.Prime) (hp : 2 ≤ p) (hsq : 4 * p < (n - 1) * (n - 1)) : p.Prime := by
  by_contra hc
  have hm := Nat.minFac_sq_le_self (by omega) hc
  haveI : Fact (p.minFac).Prime := ⟨Nat.minFac_prime (by omega)⟩
  have hd := Nat.minFac_dvd p
  have h2 := ne_two_of h hd
  haveI := point_finite (a := (a : ZMod p.minFac)) (b := (b : ZMod p.minFac)) h2
  have hle := card_le (a := (a : ZMod p.minFac)) (b := (b : ZMod p.minFac)) h2
  have ho := addOrderOf_le_card (x := (Point.some _ _ (nonsingular_of h hd) : (curve (a : ZMod p.minFac) (b : ZMod p.minFac)).Point))
  rw [addOrderOf_eq h hn hd] at ho
  have : (n - 1) * (n - 1) ≤ (2 * p.minFac) * (2 * p.minFac) := Nat.mul_le_mul (by omega) (by omega)
  rw [pow_two] at hm
  have h4 : (2 * p.minFac) * (2 * p.minFac) = 4 * (p.minFac * p.minFac) := by ring
  omega

/-- A certificate that the curve has no point of order two. -/
structure NoRoot where
  c : Nat × Nat × Nat
  u0 : Nat
  u1 : Nat
  v0 : Nat
  v1 : Nat
  v2 : Nat

/-- The curve has `n` points. -/
theorem card_eq (h : OnCurve p a b gx gy n) (hn : n.Prime) [hp : Fact p.Prime] (ha : a ≤ p) (hb : b ≤ p) (h3 : 2 * p + 1 < n * 3)
    (c : NoRoot) (hc : Cubic.check p (p - a) (p - b) c.c c.u0 c.u1 c.v0 c.v1 c.v2 = true) :
    Nat.card (curve (a : ZMod p) (b : ZMod p)).Point = n := by
  refine card_of_order (ne_two_of h dvd_rfl) (addOrderOf_eq h hn dvd_rfl) h3 fun x y hxy h0 => ?_
  subst h0
  have he := hxy.1
  rw [WeierstrassCurve.Affine.equation_iff] at he
  refine Cubic.no_root _ _ _ _ _ _ hc x ?_
  rw [Certify.cast_sub_p ha, Certify.cast_sub_p hb]
  simp only [zero_mul, add_zero] at he
  linear_combination -he

end LCT.ValidCurve
