import Verif.Spec.Ecdsa
import Verif.Lemmas.Math.Curve
import Verif.Lemmas.Math.CurveCard
import Mathlib.GroupTheory.OrderOfElement

/-!
# Point validation, and consequences of valid domain parameters
-/

namespace LCT.Crypto
open LCT.Spec LCT.Out LCT.BigInt LCT.Modular LCT.Curve
open WeierstrassCurve.Affine (Point.some Point.zero)
variable {ε : Type} {w : Nat} [hw : DigitWidth w] {p n : Nat} [hpr : Fact p.Prime] {cp : Params} {a b : Int}
  {G : (curve (a : ZMod p) (b : ZMod p)).Point} (m : Build)

theorem nonsingular_of_equation (hp2 : p ≠ 2) {a b : ZMod p} (hd : 4 * a ^ 3 + 27 * b ^ 2 ≠ 0) {x y : ZMod p} (h : y ^ 2 = x ^ 3 + a * x + b) :
    (curve a b).Nonsingular x y := by
  have h2 := two_ne hp2
  rw [WeierstrassCurve.Affine.nonsingular_iff, WeierstrassCurve.Affine.equation_iff]
  refine ⟨by simpa using h, ?_⟩
  by_contra hc
  simp only [zero_mul, mul_zero, add_zero, sub_zero] at hc
  obtain ⟨h1, h3⟩ := not_or.mp hc
  have h1 : 3 * x ^ 2 + a = 0 := by
    have := not_not.mp h1
    linear_combination -this
  have h3 : 2 * y = 0 := by
    have := not_not.mp h3
    linear_combination this
  have hy : y = 0 := (mul_eq_zero.mp h3).resolve_left h2
  apply hd
  have e : x ^ 3 + a * x + b = 0 := by rw [← h, hy]; ring
  have ea : a = -(3 * x ^ 2) := by linear_combination h1
  have eb : b = 2 * x ^ 3 := by rw [ea] at e; linear_combination e
  rw [ea, eb]; ring

theorem equation_of_nonsingular {a b x y : ZMod p} (h : (curve a b).Nonsingular x y) : y ^ 2 = x ^ 3 + a * x + b := by
  have := h.1
  rw [WeierstrassCurve.Affine.equation_iff] at this
  simpa using this

section Domain
variable (hD : Domain w cp p n a b G)
include hD

theorem _root_.LCT.Spec.Domain.finite : Finite (curve (a : ZMod p) (b : ZMod p)).Point := point_finite hD.p_ne

theorem _root_.LCT.Spec.Domain.n_odd : n % 2 = 1 := (hD.n_prime.eq_two_or_odd).resolve_left hD.n_ne

theorem _root_.LCT.Spec.Domain.card_smul (P : (curve (a : ZMod p) (b : ZMod p)).Point) : (cp.cofactor * n) • P = 0 := by
  have := hD.finite
  rw [← hD.card]
  exact addOrderOf_dvd_iff_nsmul_eq_zero.mp (addOrderOf_dvd_natCard P)

theorem _root_.LCT.Spec.Domain.card_odd (hodd : cp.cofactor % 2 = 1) : (cp.cofactor * n) % 2 = 1 := by
  rw [Nat.mul_mod, hodd, hD.n_odd]

theorem _root_.LCT.Spec.Domain.cofactor_pos : 0 < cp.cofactor := by
  have := hD.finite
  have h : 0 < cp.cofactor * n := by rw [← hD.card]; exact Nat.card_pos
  exact Nat.pos_of_mul_pos_right h

/-- A point of the subgroup does not have order two. -/
theorem _root_.LCT.Spec.Domain.double {P : (curve (a : ZMod p) (b : ZMod p)).Point} (hP : n • P = 0) : P = 0 ∨ P + P ≠ 0 :=
  odd_order_double hD.n_odd hP

/-- If the cofactor is odd, no point has order two. -/
theorem _root_.LCT.Spec.Domain.double_odd (hodd : cp.cofactor % 2 = 1) (P : (curve (a : ZMod p) (b : ZMod p)).Point) : P = 0 ∨ P + P ≠ 0 :=
  odd_order_double (hD.card_odd hodd) (hD.card_smul P)

omit hD in
theorem y_ne_of_double {x y : ZMod p} {h : (curve (a : ZMod p) (b : ZMod p)).Nonsingular x y} (hd : Point.some x y h = 0 ∨ Point.some x y h + Point.some x y h ≠ 0) :
    y ≠ 0 := by
  rintro rfl
  rcases hd with h0 | h0
  · exact WeierstrassCurve.Affine.Point.some_ne_zero _ h0
  · apply h0
    apply WeierstrassCurve.Affine.Point.add_self_of_Y_eq
    simp [WeierstrassCurve.Affine.negY]

theorem _root_.LCT.Spec.Domain.y_ne_sub {x y : ZMod p} {h : (curve (a : ZMod p) (b : ZMod p)).Nonsingular x y} (hP : n • Point.some x y h = 0) :
    y ≠ 0 := y_ne_of_double (hD.double hP)

theorem _root_.LCT.Spec.Domain.y_ne (hodd : cp.cofactor % 2 = 1) {x y : ZMod p} (h : (curve (a : ZMod p) (b : ZMod p)).Nonsingular x y) : y ≠ 0 :=
  y_ne_of_double (hD.double_odd hodd (Point.some x y h))

theorem _root_.LCT.Spec.Domain.rhs_ne (hodd : cp.cofactor % 2 = 1) (x : ZMod p) : x ^ 3 + (a : ZMod p) * x + (b : ZMod p) ≠ 0 := by
  intro h
  exact hD.y_ne hodd (nonsingular_of_equation hD.p_ne hD.disc (x := x) (y := 0) (by rw [h]; ring)) rfl

theorem _root_.LCT.Spec.Domain.mul {pt : Point} {P : (curve (a : ZMod p) (b : ZMod p)).Point} (h : PointDenotes w pt P) (hP : n • P = 0) {xk : BInt}
    {k : Nat} (hk : Denotes w xk k) : (mulPoint m w cp.curve pt xk : Out ε _).Yields (PointDenotes w · (k • P)) :=
  mulPoint_y m hD.p_ne hD.curve hD.b_ne h hk hD.n_odd hP

theorem _root_.LCT.Spec.Domain.mul_odd (hodd : cp.cofactor % 2 = 1) {pt : Point} {P : (curve (a : ZMod p) (b : ZMod p)).Point}
    (h : PointDenotes w pt P) {xk : BInt} {k : Nat} (hk : Denotes w xk k) :
    (mulPoint m w cp.curve pt xk : Out ε _).Yields (PointDenotes w · (k • P)) :=
  mulPoint_y m hD.p_ne hD.curve hD.b_ne h hk (hD.card_odd hodd) (hD.card_smul P)

theorem _root_.LCT.Spec.Domain.add {s t : Point} {P Q : (curve (a : ZMod p) (b : ZMod p)).Point} (hs : PointDenotes w s P) (ht : PointDenotes w t Q)
    (hd : P = Q → P = 0 ∨ P + P ≠ 0) : (addPoints m w cp.curve s t : Out ε _).Yields (PointDenotes w · (P + Q)) :=
  addPoints_y m hD.p_ne hD.curve hD.b_ne hs ht hd

end Domain

/-! ## Point validation -/

theorem rhs_y {c : Curve.Curve} {a b x : Int} {xx : BInt} (ha : Denotes w c.a a) (hb : Denotes w c.b b) (hx : Denotes w xx x) :
    (rhs m w c xx : Out ε _).Yields (Denotes w · (x * x * x + a * x + b)) := by
  unfold rhs
  run (mul_y m hx hx) with x2 hx2
  run (mul_y m hx2 hx) with x3 hx3
  run (mul_y m ha hx) with ax hax
  run (add_y m hx3 hax) with t ht
  exact add_y m ht hb

theorem anyNegative_y {pt : Point} {x y : Int} (hx : Denotes w pt.x x) (hy : Denotes w pt.y y) :
    (anyNegative m w pt : Out ε _).Yields (· = decide (x < 0 ∨ y < 0)) := by
  unfold anyNegative
  run (zero_y w) with z hz
  run (lt_y m hx hz) with _ rfl
  by_cases h : x < 0
  · rw [if_pos (decide_eq_true h)]; exact .pure (by simp [h])
  · rw [if_neg (by simpa using h)]
    exact (lt_y m hy hz).mono (by rintro _ rfl; simp [h])

omit hw hpr in
theorem anyTooLarge_y {pt : Point} {xp : BInt} {x y : Int} (hx : Denotes w pt.x x) (hy : Denotes w pt.y y) (hp : Denotes w xp (p : Int)) :
    (anyTooLarge m pt xp : Out ε _).Yields (· = decide (x ≥ p ∨ y ≥ p)) := by
  unfold anyTooLarge
  run (ge_y m hx hp) with _ rfl
  by_cases h : x ≥ p
  · rw [if_pos (decide_eq_true h)]; exact .pure (by simp [h])
  · rw [if_neg (by simpa using h)]
    exact (ge_y m hy hp).mono (by rintro _ rfl; simp [not_le.mp h])

theorem isIdentity_point {pt : Point} (hb : (b : ZMod p) ≠ 0) {P : (curve (a : ZMod p) b).Point} (h : PointDenotes w pt P) :
    (pt.isIdentity m : Out ε _).Yields (fun r => r = true ↔ P = 0) := by
  obtain ⟨x, y, hx, hy, h0, -⟩ := point_res hb h
  refine (isIdentity_y m hx hy).mono ?_
  rintro _ rfl
  rw [decide_eq_true_iff, h0]

theorem denotes_unique (hb : (b : ZMod p) ≠ 0) {pt : Point} {P P' : (curve (a : ZMod p) (b : ZMod p)).Point} (h : PointDenotes w pt P)
    (h' : PointDenotes w pt P') : P = P' := by
  obtain ⟨x, y, hx, hy, h0, hc⟩ := point_res hb h
  obtain ⟨x', y', hx', hy', h0', hc'⟩ := point_res hb h'
  have ex : x = x' := by
    apply ZMod.val_injective
    have := hx.2.symm.trans hx'.2
    omega
  have ey : y = y' := by
    apply ZMod.val_injective
    have := hy.2.symm.trans hy'.2
    omega
  subst ex ey
  rcases hc with hc | ⟨hn, rfl⟩
  · rw [h0.mpr hc, h0'.mpr hc]
  · rcases hc' with hc' | ⟨hn', rfl⟩
    · rw [h0.mpr hc', h0'.mpr hc']
    · rfl

/-- If the cofactor is one, or odd, or the point lies in the subgroup, multiplying it by `n` meets no point of order two. -/
def Clear (w n : Nat) (cp : Params) (W : WeierstrassCurve.Affine (ZMod p)) (pt : Point) : Prop :=
  cp.cofactor ≠ 1 → ∀ P : W.Point, PointDenotes w pt P → ¬ MeetsOrderTwo (bitLength n) P

theorem clear_odd (hD : Domain w cp p n a b G) (hodd : cp.cofactor % 2 = 1) (pt : Point) : Clear w n cp (curve (a : ZMod p) (b : ZMod p)) pt :=
  fun _ P _ => odd_order_meets (hD.card_odd hodd) (hD.card_smul P) _

theorem clear_sub (hD : Domain w cp p n a b G) {pt : Point} {P : (curve (a : ZMod p) (b : ZMod p)).Point} (h : PointDenotes w pt P) (hP : n • P = 0) :
    Clear w n cp (curve (a : ZMod p) (b : ZMod p)) pt := by
  intro _ Q hQ
  rw [denotes_unique hD.b_ne hQ h]
  exact odd_order_meets hD.n_odd hP _

theorem validatePoint_z (hD : Domain w cp p n a b G) {pt : Point} {x y : Int} (hx : Denotes w pt.x x) (hy : Denotes w pt.y y)
    (hclear : Clear w n cp (curve (a : ZMod p) (b : ZMod p)) pt) :
    (cp.validatePoint m w pt : Out ε _).Yields
      (fun r => r = true ↔ ValidPoint w n (W := curve (a : ZMod p) (b : ZMod p)) pt) := by
  have hval : ∀ P : (curve (a : ZMod p) (b : ZMod p)).Point, PointDenotes w pt P → 0 ≤ x ∧ x < p ∧ 0 ≤ y ∧ y < p := by
    intro P hP
    obtain ⟨x', y', hx', hy', -, -⟩ := point_res hD.b_ne hP
    have e1 : x = x'.val := hx.2.symm.trans hx'.2
    have e2 : y = y'.val := hy.2.symm.trans hy'.2
    have := val_lt_int x'
    have := val_lt_int y'
    omega
  unfold Params.validatePoint
  run (anyNegative_y m hx hy) with _ rfl
  by_cases hneg : x < 0 ∨ y < 0
  · rw [if_pos (decide_eq_true hneg)]
    refine .pure ?_
    simp only [Bool.false_eq_true, false_iff]
    rintro ⟨P, hP, -⟩
    have := hval P hP
    omega
  rw [if_neg (by simpa using hneg)]
  run (anyTooLarge_y m hx hy hD.curve.p) with _ rfl
  by_cases hbig : x ≥ p ∨ y ≥ p
  · rw [if_pos (decide_eq_true hbig)]
    refine .pure ?_
    simp only [Bool.false_eq_true, false_iff]
    rintro ⟨P, hP, -⟩
    have := hval P hP
    omega
  rw [if_neg (by simpa using hbig)]
  have hxr : Res w pt.x (x : ZMod p) := res_of_int hx (by omega) (by omega)
  have hyr : Res w pt.y (y : ZMod p) := res_of_int hy (by omega) (by omega)
  run (mul_y m hy hy) with l hl
  run (modulo_z m hl hD.curve.p) with l' hl'
  run (rhs_y m hD.curve.a hD.curve.b hx) with r hr
  run (modulo_z m hr hD.curve.p) with r' hr'
  run (beq_z m hl' hr') with _ rfl
  have heq : (((y * y : Int) : ZMod p) = ((x * x * x + a * x + b : Int) : ZMod p)) ↔
      (y : ZMod p) ^ 2 = (x : ZMod p) ^ 3 + (a : ZMod p) * x + b := by
    push_cast
    rw [pow_two, pow_succ, pow_two]
  by_cases he : (((y * y : Int) : ZMod p) = ((x * x * x + a * x + b : Int) : ZMod p))
  swap
  · rw [if_pos (by rw [decide_eq_false he]; rfl)]
    refine .pure ?_
    simp only [Bool.false_eq_true, false_iff]
    rintro ⟨P, hP, hP0, -⟩
    apply he
    rw [heq]
    obtain ⟨x', y', hx', hy', h0, h1⟩ := point_res hD.b_ne hP
    rcases h1 with h1 | ⟨hn, rfl⟩
    · exact absurd (h0.mpr h1) hP0
    · have e1 : (x : ZMod p) = x' := by rw [hx.2.symm.trans hx'.2, int_val]
      have e2 : (y : ZMod p) = y' := by rw [hy.2.symm.trans hy'.2, int_val]
      rw [e1, e2]
      exact equation_of_nonsingular hn
  rw [if_neg (by rw [decide_eq_true he]; decide)]
  have hn := nonsingular_of_equation hD.p_ne hD.disc (heq.mp he)
  have hP : PointDenotes w pt (Point.some _ _ hn : (curve (a : ZMod p) (b : ZMod p)).Point) := ⟨hxr, hyr⟩
  run (isIdentity_point m hD.b_ne hP) with r hr
  have hr : r = false := by
    rw [← Bool.not_eq_true, hr]
    exact WeierstrassCurve.Affine.Point.some_ne_zero _
  subst hr
  simp only [Bool.false_eq_true, if_false]
  have hinj : ∀ Q : (curve (a : ZMod p) (b : ZMod p)).Point, PointDenotes w pt Q → Q = Point.some _ _ hn := by
    intro Q hQ
    obtain ⟨x', y', hx', hy', h0, h1⟩ := point_res hD.b_ne hQ
    have e1 : x' = (x : ZMod p) := by rw [hx.2.symm.trans hx'.2, int_val]
    have e2 : y' = (y : ZMod p) := by rw [hy.2.symm.trans hy'.2, int_val]
    subst e1 e2
    rcases h1 with h1 | ⟨hn, rfl⟩
    · exfalso
      have := heq.mp he
      rw [h1.1, h1.2] at this
      exact hD.b_ne (by linear_combination -this)
    · rfl
  by_cases hc : cp.cofactor = 1
  · rw [if_neg (by simpa using hc)]
    refine .pure ?_
    simp only [true_iff]
    refine ⟨_, hP, WeierstrassCurve.Affine.Point.some_ne_zero _, ?_⟩
    have := hD.card_smul (Point.some _ _ hn)
    rwa [hc, Nat.one_mul] at this
  · rw [if_pos hc]
    run (mulPoint_z m hD.p_ne hD.curve hD.b_ne hP hD.order (hclear hc _ hP)) with np hnp
    refine (isIdentity_point m hD.b_ne hnp).mono fun r hr => ?_
    rw [hr]
    constructor
    · intro h
      exact ⟨_, hP, WeierstrassCurve.Affine.Point.some_ne_zero _, h⟩
    · rintro ⟨Q, hQ, -, h⟩
      rwa [hinj Q hQ] at h

end LCT.Crypto
