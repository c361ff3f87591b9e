import Verif.Spec.Ecdsa
import Mathlib.GroupTheory.OrderOfElement
import Mathlib.Tactic.LinearCombination
import Mathlib.Tactic.FieldSimp

/-!
# ECDSA over the group of points
-/

namespace LCT.Crypto
open LCT.Spec
open WeierstrassCurve.Affine (Point.some Point.zero)
variable {p n : Nat} [hpr : Fact p.Prime] [hn : Fact n.Prime] {W : WeierstrassCurve.Affine (ZMod p)} {G Q : W.Point}

/-- Multiples of a point of order dividing `n` depend on the scalar modulo `n` only. -/
theorem smul_congr {P : W.Point} (h : n • P = 0) {i j : Nat} (e : (i : ZMod n) = (j : ZMod n)) : i • P = j • P := by
  have hmod : ∀ k : Nat, k • P = (k % n) • P := by
    intro k
    conv_lhs => rw [← Nat.div_add_mod k n, add_nsmul, mul_nsmul, h, nsmul_zero, zero_add]
  rw [hmod i, hmod j, (ZMod.natCast_eq_natCast_iff' i j n).mp e]

theorem smul_val {P : W.Point} (h : n • P = 0) {z : ZMod n} {j : Nat} (e : z = (j : ZMod n)) : z.val • P = j • P :=
  smul_congr h (by rw [ZMod.natCast_zmod_val, e])

theorem smul_smul_zero {P : W.Point} (h : n • P = 0) (d : Nat) : n • (d • P) = 0 := by
  rw [← mul_nsmul, mul_comm, mul_nsmul, h, nsmul_zero]

theorem order_eq (h0 : G ≠ 0) (h : n • G = 0) : addOrderOf G = n := addOrderOf_eq_prime h h0

theorem smul_ne_zero' (h0 : G ≠ 0) (h : n • G = 0) {k : Nat} (hk : (k : ZMod n) ≠ 0) : k • G ≠ 0 := by
  intro e
  apply hk
  rw [ZMod.natCast_eq_zero_iff, ← order_eq h0 h]
  exact addOrderOf_dvd_iff_nsmul_eq_zero.mpr e

theorem cast_ne_zero_of_lt {k : Nat} (h0 : 0 < k) (h : k < n) : (k : ZMod n) ≠ 0 := by
  intro e
  have := Nat.le_of_dvd h0 ((ZMod.natCast_eq_zero_iff _ _).mp e)
  omega

theorem xCoord_neg (P : W.Point) : xCoord (-P) = xCoord P := by
  cases P <;> rfl

/-- The point computed by the verifier from a signature with nonce `k` is `k•G`. -/
theorem verifier_point (h : n • G = 0) {d e k r s : Nat} (hk : (k : ZMod n) ≠ 0) (hs0 : (s : ZMod n) ≠ 0)
    (hs : (s : ZMod n) = ((e : ZMod n) + (r : ZMod n) * (d : ZMod n)) * (k : ZMod n)⁻¹) :
    ((e : ZMod n) * (s : ZMod n)⁻¹).val • G + ((r : ZMod n) * (s : ZMod n)⁻¹).val • (d • G) = k • G := by
  rw [← mul_nsmul, ← add_nsmul]
  apply smul_congr h
  push_cast
  rw [ZMod.natCast_zmod_val, ZMod.natCast_zmod_val]
  have : (e : ZMod n) * (s : ZMod n)⁻¹ + (d : ZMod n) * ((r : ZMod n) * (s : ZMod n)⁻¹) =
      ((e : ZMod n) + (r : ZMod n) * (d : ZMod n)) * (s : ZMod n)⁻¹ := by ring
  rw [this]
  have h2 : (e : ZMod n) + (r : ZMod n) * (d : ZMod n) = (s : ZMod n) * (k : ZMod n) := by
    rw [hs]; field_simp
  rw [h2]; field_simp

theorem sign_verifies (h0 : G ≠ 0) (h : n • G = 0) {d e k : Nat} (hk : (k : ZMod n) ≠ 0) (hs : ecdsaS n G d e k ≠ 0) :
    EcdsaVerifies n G (d • G) e (ecdsaR n G k) (ecdsaS n G d e k) := by
  have hcast : ((ecdsaS n G d e k : Nat) : ZMod n) = ((e : ZMod n) + (ecdsaR n G k : ZMod n) * (d : ZMod n)) * (k : ZMod n)⁻¹ := by
    unfold ecdsaS; rw [ZMod.natCast_zmod_val]
  have hs0 : ((ecdsaS n G d e k : Nat) : ZMod n) ≠ 0 := cast_ne_zero_of_lt (by omega) (by unfold ecdsaS; exact ZMod.val_lt _)
  unfold EcdsaVerifies
  rw [verifier_point h hk hs0 hcast]
  exact ⟨smul_ne_zero' h0 h hk, rfl⟩

theorem val_neg_smul {P : W.Point} (h : n • P = 0) (z : ZMod n) : (-z).val • P = -(z.val • P) := by
  rw [eq_neg_iff_add_eq_zero, ← add_nsmul, ← zero_nsmul P]
  apply smul_congr h
  push_cast
  rw [ZMod.natCast_zmod_val, ZMod.natCast_zmod_val, neg_add_cancel]

/-- Negating `s` does not change the outcome of verification. -/
theorem verifies_neg (hG : n • G = 0) (hQ : n • Q = 0) {e r s : Nat} (hs : s ≤ n) :
    EcdsaVerifies n G Q e r (n - s) ↔ EcdsaVerifies n G Q e r s := by
  have hc : ((n - s : Nat) : ZMod n) = -(s : ZMod n) := by rw [Nat.cast_sub hs]; simp
  unfold EcdsaVerifies
  have e1 : ∀ z : ZMod n, z * (-(s : ZMod n))⁻¹ = -(z * (s : ZMod n)⁻¹) := by intro z; rw [inv_neg, mul_neg]
  rw [hc, e1, e1, val_neg_smul hG, val_neg_smul hQ, ← neg_add]
  show (_ ≠ 0 ∧ _) ↔ (_ ≠ 0 ∧ _)
  rw [xCoord_neg, neg_ne_zero]

end LCT.Crypto
