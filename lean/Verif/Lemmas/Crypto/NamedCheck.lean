import Verif.Lemmas.Math.ValidCurve
import Verif.Spec.NamedCurves

/-!
# How the named curves are checked

The multiple of the base point, and that there is no point of order two.
-/

namespace LCT.Named
open LCT.Spec LCT.Curve LCT.ValidCurve
open WeierstrassCurve.Affine (Point.some Point.zero)

/-- What is checked about a curve. -/
structure Checked (c : NamedCurve) : Prop where
  prime_n : c.n.Prime
  onCurve : OnCurve c.p c.a c.b c.gx c.gy c.n
  two_le : 2 ≤ c.p
  square : 4 * c.p < (c.n - 1) * (c.n - 1)
  a_le : c.a ≤ c.p
  b_le : c.b ≤ c.p
  third : 2 * c.p + 1 < c.n * 3
  root : ∃ r : NoRoot, Cubic.check c.p (c.p - c.a) (c.p - c.b) r.c r.u0 r.u1 r.v0 r.v1 r.v2 = true
  disc : (4 * c.a ^ 3 + 27 * c.b ^ 2) % c.p ≠ 0
  b_ne : c.b % c.p ≠ 0

variable {c : NamedCurve}

theorem Checked.prime_p (h : Checked c) : c.p.Prime := prime_of h.onCurve h.prime_n h.two_le h.square

/-- The consequences, for any way of writing the coefficients. -/
theorem Checked.curve_of (h : Checked c) [Fact c.p.Prime] {A B : ZMod c.p} (hA : A = (c.a : ZMod c.p)) (hB : B = (c.b : ZMod c.p)) :
    4 * A ^ 3 + 27 * B ^ 2 ≠ 0 ∧ B ≠ 0 ∧ Nat.card (curve A B).Point = c.n ∧
    ∃ G : (curve A B).Point, xCoord G = c.gx ∧ yCoord G = c.gy ∧ addOrderOf G = c.n ∧ G ≠ 0 ∧ ∃ x y hxy, G = Point.some x y hxy := by
  subst hA hB
  obtain ⟨r, hr⟩ := h.root
  refine ⟨?_, ?_, card_eq h.onCurve h.prime_n h.a_le h.b_le h.third r hr, Point.some _ _ (nonsingular_of h.onCurve dvd_rfl),
    ZMod.val_cast_of_lt h.onCurve.x_lt, ZMod.val_cast_of_lt h.onCurve.y_lt, addOrderOf_eq h.onCurve h.prime_n dvd_rfl,
    WeierstrassCurve.Affine.Point.some_ne_zero _, _, _, _, rfl⟩
  · intro e
    apply h.disc
    apply Nat.mod_eq_zero_of_dvd
    rw [← ZMod.natCast_eq_zero_iff]
    push_cast
    exact e
  · intro e
    exact h.b_ne (Nat.mod_eq_zero_of_dvd ((ZMod.natCast_eq_zero_iff _ _).mp e))

theorem Checked.valid (h : Checked c) : c.Valid := by
  refine ⟨h.prime_n, h.prime_p, ?_⟩
  haveI := Fact.mk h.prime_p
  obtain ⟨h1, -, h2, G, h3, h4, h5, -⟩ := h.curve_of rfl rfl
  exact ⟨h1, h2, G, h3, h4, h5⟩

end LCT.Named
