import Verif.Lemmas.Crypto.P256Primes
import Verif.Lemmas.Crypto.Secp256k1Params
import Verif.Lemmas.Math.Certify
import Verif.Lemmas.Math.Cubic
import Verif.Lemmas.Math.CurveCard
import Verif.Model.Crypto.TestCurves

/-!
# The group of points of P-256 has order `n` and is generated by the base point
-/

namespace LCT.P256
open LCT.Spec LCT.Curve
open WeierstrassCurve.Affine (Point.some Point.zero)

instance : Fact (Nat.Prime P256.p) := ⟨prime_p⟩
instance : Fact (Nat.Prime P256.n) := ⟨prime_n⟩

/-- The coefficients, as the casts that occur when a stored curve denotes P-256. -/
abbrev E := curve (((-3 : Int) : ZMod P256.p)) (((P256.b : Int) : ZMod P256.p))

theorem p_ne_two : P256.p ≠ 2 := by decide

theorem cast_ne_zero {k : Nat} (h0 : 0 < k) (h : k < P256.p) : ((k : Nat) : ZMod P256.p) ≠ 0 := by
  intro e
  have := Nat.le_of_dvd h0 ((ZMod.natCast_eq_zero_iff _ _).mp e)
  omega

theorem b_ne_zero : ((P256.b : Int) : ZMod P256.p) ≠ 0 := by
  have := cast_ne_zero (k := P256.b) (by decide) (by decide)
  exact_mod_cast this

theorem base_nonsingular : E.Nonsingular (P256.gx : ZMod P256.p) (P256.gy : ZMod P256.p) := by
  rw [WeierstrassCurve.Affine.nonsingular_iff, WeierstrassCurve.Affine.equation_iff]
  have hy : (P256.gy : ZMod P256.p) ≠ 0 := cast_ne_zero (by decide) (by decide)
  refine ⟨?_, Or.inr ?_⟩
  · have h : (P256.gy ^ 2 + 3 * P256.gx) % P256.p = (P256.gx ^ 3 + P256.b) % P256.p := by decide +kernel
    have h2 := (ZMod.natCast_eq_natCast_iff' _ _ _).mpr h
    push_cast at h2 ⊢
    simp only [zero_mul, add_zero]
    linear_combination h2
  · intro h
    have h2 : 2 * (P256.gy : ZMod P256.p) = 0 := by
      simp only [zero_mul, sub_zero] at h
      linear_combination h
    exact hy ((mul_eq_zero.mp h2).resolve_left (two_ne p_ne_two))

/-- The base point. -/
def G : E.Point := Point.some _ _ base_nonsingular

theorem G_ne_zero : G ≠ 0 := WeierstrassCurve.Affine.Point.some_ne_zero _

theorem a_cast : ((-3 : Int) : ZMod P256.p) = ((P256.p - 3 : Nat) : ZMod P256.p) := by
  rw [Certify.cast_sub_p (by decide)]
  push_cast
  rfl

theorem G_is : Certify.Is G (P256.gx, P256.gy) := ⟨base_nonsingular, rfl⟩

theorem n_mul_G : P256.n • G = 0 := by
  have h : Certify.mul P256.p (P256.p - 3) (P256.gx, P256.gy) 257 (P256.n - 1) = some (P256.gx, P256.p - P256.gy) := by decide +kernel
  have := Certify.order_of a_cast G_is (by decide) h
  rwa [show P256.n - 1 + 1 = P256.n by decide] at this

theorem order_G : addOrderOf G = P256.n := addOrderOf_eq_prime n_mul_G G_ne_zero

/-- `X³ - 3X + b` has no root. -/
theorem no_y_zero {x y : ZMod P256.p} (h : E.Nonsingular x y) : y ≠ 0 := by
  rintro rfl
  have he := h.1
  rw [WeierstrassCurve.Affine.equation_iff] at he
  have hc : Cubic.check P256.p 3 (P256.p - P256.b)
      (66434390973925144466073271287821796038003695194169110494110089305650096453661,
        12402202686218762177567235911775779164004716598278868847786114277539554646092,
        24678849118215552148312087830792888746041224110560601850711771001608500700145)
      107286402702237026811154678719514266289498743974321057492273529440068429825344
      6389611969556882025875921584714237703390037729321797349080302270353162149340
      76626890310466861426869089647039036757962535851890885406097439786770458211455
      74462945259064871768191128030512052509059297803194871526163573358218695456204
      34768139465301476436978405170953382516735956999154666452188405812258086013549 = true := by decide +kernel
  refine Cubic.no_root _ _ _ _ _ _ hc x ?_
  rw [Certify.cast_sub_p (by decide)]
  push_cast at he ⊢
  linear_combination -he

/-- The curve has exactly `n` points. -/
theorem card_points : Nat.card E.Point = P256.n :=
  card_of_order p_ne_two order_G (by decide) fun _ _ => no_y_zero

end LCT.P256

namespace LCT.Crypto
open LCT.Spec LCT.Out LCT.BigInt LCT.Modular LCT.Curve
variable {ε : Type}

theorem nistP256_y (w : Nat) [DigitWidth w] :
    (nistP256 w : Out ε _).Yields fun cp => Domain w cp P256.p P256.n (-3) P256.b LCT.P256.G ∧ cp.cofactor = 1 := by
  unfold nistP256
  run (ofInt_y w (-3) (by norm_num) (by norm_num)) with a ha
  run (fromHexUnwrap_y (z := P256.b) (by decide +kernel)) with b hb
  run (fromHexUnwrap_y (z := P256.p) (by decide +kernel)) with p hp
  run (fromHexUnwrap_y (z := P256.gx) (by decide +kernel)) with gx hgx
  run (fromHexUnwrap_y (z := P256.gy) (by decide +kernel)) with gy hgy
  run (fromHexUnwrap_y (z := P256.n) (by decide +kernel)) with n hn
  refine .pure ⟨?_, rfl⟩
  refine ⟨LCT.P256.p_ne_two, LCT.P256.prime_n, by decide, ⟨ha, hb, hp⟩, ?_, LCT.P256.b_ne_zero, ?_, hn, LCT.P256.G_ne_zero,
    LCT.P256.n_mul_G, ?_⟩
  · have h : (27 * P256.b ^ 2) % P256.p ≠ (4 * 27) % P256.p := by decide +kernel
    intro e
    apply h
    apply (ZMod.natCast_eq_natCast_iff' _ _ _).mp
    push_cast at e ⊢
    linear_combination e
  · show Denotes w gx _ ∧ Denotes w gy _
    rw [show ((P256.gx : Nat) : ZMod P256.p).val = P256.gx from ZMod.val_cast_of_lt (by decide),
      show ((P256.gy : Nat) : ZMod P256.p).val = P256.gy from ZMod.val_cast_of_lt (by decide)]
    exact ⟨hgx, hgy⟩
  · rw [LCT.P256.card_points]
    exact (Nat.one_mul _).symm

end LCT.Crypto
