import Verif.Props.Modular
import Verif.Lemmas.Math.Curve
import Verif.Lemmas.Math.Certify

/-!
# Properties of elliptic curve points: C15, C16
-/

namespace LCT.Props
open LCT.BigInt LCT.Spec LCT.Modular LCT.Curve
open WeierstrassCurve.Affine (Point.some Point.zero)
variable {ε : Type}

/-- What the points of `curve a b` are (they are `0` and `Point.some x y h` with `h : (curve a b).Nonsingular x y`): on a curve with non-zero discriminant, the point at infinity and the solutions of
`y² = x³ + a·x + b`.  (Mathlib's `Point` asks for non-singular solutions; without singular points that is no restriction.) -/
theorem C15_points (p : Nat) [Fact p.Prime] (hp2 : p ≠ 2) (a b : ZMod p) (hd : 4 * a ^ 3 + 27 * b ^ 2 ≠ 0) (x y : ZMod p) :
    (curve a b).Nonsingular x y ↔ y ^ 2 = x ^ 3 + a * x + b := by
  have h2 : (2 : ZMod p) ≠ 0 := by
    have := (ZMod.natCast_eq_zero_iff 2 p).not.mpr (fun h => hp2 ((Nat.prime_dvd_prime_iff_eq (Fact.out) Nat.prime_two).mp h))
    exact_mod_cast this
  have heq : (curve a b).Equation x y ↔ y ^ 2 = x ^ 3 + a * x + b := by
    rw [WeierstrassCurve.Affine.equation_iff]
    simp
  constructor
  · intro h
    exact heq.mp h.1
  · intro h
    rw [WeierstrassCurve.Affine.nonsingular_iff]
    refine ⟨heq.mpr h, ?_⟩
    by_contra hc
    simp only [zero_mul, mul_zero, add_zero, sub_zero] at hc
    obtain ⟨h1, h3⟩ := not_or.mp hc
    have h1 : 3 * x ^ 2 + a = 0 := by
      have := not_not.mp h1
      linear_combination -this
    have h3 : 2 * y = 0 := by
      have := not_not.mp h3
      linear_combination this
    have hy : y = 0 := (mul_eq_zero.mp h3).resolve_left h2
    apply hd
    have e : x ^ 3 + a * x + b = 0 := by rw [← h, hy]; ring
    have ea : a = -(3 * x ^ 2) := by linear_combination h1
    have eb : b = 2 * x ^ 3 := by rw [ea] at e; linear_combination e
    rw [ea, eb]; ring

/-- C15: on every curve over a prime field with odd `p` and `b ≠ 0`, `add_points` returns the sum of its arguments in the group of
points of the curve, in every case except the one in which it doubles a point of order two; it does not panic. -/
theorem C15_add_points (m : Build) (w : Nat) [DigitWidth w] (p : Nat) [Fact p.Prime] (hp2 : p ≠ 2) (a b : Int)
    (hb : (b : ZMod p) ≠ 0) (c : Curve.Curve) (hc : CurveDenotes w c p a b) (s t : Curve.Point)
    (P Q : (curve (a : ZMod p) (b : ZMod p)).Point) (hs : PointDenotes w s P) (ht : PointDenotes w t Q)
    (hPQ : ¬ (P = Q ∧ P ≠ 0 ∧ P + P = 0)) :
    ∃ r, (addPoints m w c s t : Out ε _) = .ok r ∧ PointDenotes w r (P + Q) :=
  addPoints_y m hp2 hc hb hs ht fun h => by
    by_cases h0 : P = 0
    · exact Or.inl h0
    · exact Or.inr fun h1 => hPQ ⟨h, h0, h1⟩

/-- C15: `double_point` returns the double of a point that is not of order two. -/
theorem C15_double_point (m : Build) (w : Nat) [DigitWidth w] (p : Nat) [Fact p.Prime] (hp2 : p ≠ 2) (a b : Int)
    (hb : (b : ZMod p) ≠ 0) (c : Curve.Curve) (hc : CurveDenotes w c p a b) (s : Curve.Point)
    (P : (curve (a : ZMod p) (b : ZMod p)).Point) (hs : PointDenotes w s P) (hP : ¬ (P ≠ 0 ∧ P + P = 0)) :
    ∃ r, (doublePoint m w c s : Out ε _) = .ok r ∧ PointDenotes w r (P + P) :=
  doublePoint_y m hp2 hc hb hs <| by
    by_cases h0 : P = 0
    · exact Or.inl h0
    · exact Or.inr fun h1 => hP ⟨h0, h1⟩

/-- C15: the points excluded above are the ones with `y = 0`. -/
theorem C15_order_two (p : Nat) [Fact p.Prime] (hp2 : p ≠ 2) (a b x y : ZMod p) (h : (curve a b).Nonsingular x y) :
    (Point.some x y h : (curve a b).Point) + Point.some x y h = 0 ↔ y = 0 := by
  have h2 : (2 : ZMod p) ≠ 0 := by
    have := (ZMod.natCast_eq_zero_iff 2 p).not.mpr (fun h => hp2 ((Nat.prime_dvd_prime_iff_eq (Fact.out) Nat.prime_two).mp h))
    exact_mod_cast this
  by_cases hy : y = (curve a b).negY x y
  · refine ⟨fun _ => ?_, fun _ => WeierstrassCurve.Affine.Point.add_self_of_Y_eq hy⟩
    simp only [WeierstrassCurve.Affine.negY, zero_mul, sub_zero] at hy
    have : 2 * y = 0 := by linear_combination hy
    exact (mul_eq_zero.mp this).resolve_left h2
  · constructor
    · intro h0
      rw [WeierstrassCurve.Affine.Point.add_self_of_Y_ne hy] at h0
      exact absurd h0 (WeierstrassCurve.Affine.Point.some_ne_zero _)
    · rintro rfl
      exact absurd (by simp [WeierstrassCurve.Affine.negY]) hy

/-- C15: doubling a point with `y = 0`, or adding it to itself, panics in both build modes (the code inverts `2·y` and unwraps; the
group says the double of such a point is the point at infinity). -/
theorem C15_double_panics (m : Build) (w : Nat) [DigitWidth w] (p : Nat) [Fact p.Prime] (a b : Int) (c : Curve.Curve)
    (hc : CurveDenotes w c p a b) (pt : Curve.Point) (x : ZMod p) (hx0 : x ≠ 0) (hx : Denotes w pt.x x.val) (hy : Denotes w pt.y 0) :
    (doublePoint m w c pt : Out ε _) = .panic ∧ (addPoints m w c pt pt : Out ε _) = .panic := by
  have hp1 : (1 : Int) < p := by exact_mod_cast (Fact.out : p.Prime).one_lt
  have hy' : Res w pt.y (0 : ZMod p) := by
    show Denotes w pt.y _
    rw [ZMod.val_zero]; exact hy
  have hd : (doublePoint m w c pt : Out ε _) = .panic :=
    doublePoint_panic m hc hx hy' hx0 rfl fun v hv => C13_invert_zero m w v c.p 0 p hv hc.p hp1 ⟨0, by ring⟩
  refine ⟨hd, ?_⟩
  obtain ⟨_, e1, -⟩ := dassertM_y (ε := ε) m (inRange_y m hx hc.p)
  obtain ⟨_, e2, -⟩ := dassertM_y (ε := ε) m (inRange_y m hy' hc.p)
  obtain ⟨_, e3, rfl⟩ := isIdentity_y (ε := ε) m hx hy'
  obtain ⟨_, e4, rfl⟩ := beq_point_y (ε := ε) m hx hy' hx hy'
  unfold addPoints
  simp [e1, e2, e3, e4, hx0, hd]

/-- C16: on every such curve, for every point `P` of odd order and every scalar `n ≥ 0`, `mul_point` terminates without panic and
returns `n • P`, the `n`-fold sum of `P` in the group of points (the point at infinity for `n = 0`). -/
theorem C16_mul_point (m : Build) (w : Nat) [DigitWidth w] (p : Nat) [Fact p.Prime] (hp2 : p ≠ 2) (a b : Int)
    (hb : (b : ZMod p) ≠ 0) (c : Curve.Curve) (hc : CurveDenotes w c p a b) (pt : Curve.Point)
    (P : (curve (a : ZMod p) (b : ZMod p)).Point) (hpt : PointDenotes w pt P) (hodd : Odd (addOrderOf P)) (n : Nat) (xn : BInt)
    (hn : Denotes w xn n) : ∃ r, (mulPoint m w c pt xn : Out ε _) = .ok r ∧ PointDenotes w r (n • P) :=
  mulPoint_y m hp2 hc hb hpt hn (Nat.odd_iff.mp hodd) (addOrderOf_nsmul_eq_zero P)

/-- C16: the scalar may be reduced modulo the order of the point, and the order itself gives the point at infinity. -/
theorem C16_mul_point_mod (m : Build) (w : Nat) [DigitWidth w] (p : Nat) [Fact p.Prime] (hp2 : p ≠ 2) (a b : Int)
    (hb : (b : ZMod p) ≠ 0) (c : Curve.Curve) (hc : CurveDenotes w c p a b) (pt : Curve.Point)
    (P : (curve (a : ZMod p) (b : ZMod p)).Point) (hpt : PointDenotes w pt P) (hodd : Odd (addOrderOf P)) (n k : Nat) (xn xk : BInt)
    (hn : Denotes w xn n) (hk : Denotes w xk k) (hmod : n % addOrderOf P = k % addOrderOf P) :
    ∃ r s R, (mulPoint m w c pt xn : Out ε _) = .ok r ∧ (mulPoint m w c pt xk : Out ε _) = .ok s ∧
      PointDenotes w r R ∧ PointDenotes w s R ∧ (n % addOrderOf P = 0 → R = (0 : (curve (a : ZMod p) (b : ZMod p)).Point)) := by
  obtain ⟨r, er, hr⟩ := C16_mul_point (ε := ε) m w p hp2 a b hb c hc pt P hpt hodd n xn hn
  obtain ⟨s, es, hs⟩ := C16_mul_point (ε := ε) m w p hp2 a b hb c hc pt P hpt hodd k xk hk
  have e : n • P = k • P := by
    rw [← mod_addOrderOf_nsmul P n, hmod, mod_addOrderOf_nsmul]
  refine ⟨r, s, n • P, er, es, hr, e ▸ hs, fun h => ?_⟩
  rw [← mod_addOrderOf_nsmul P n, h, zero_nsmul]

/-- C16: `mul_point` turns the sum of scalars into the sum of points, as computed by `add_points`. -/
theorem C16_mul_point_add (m : Build) (w : Nat) [DigitWidth w] (p : Nat) [Fact p.Prime] (hp2 : p ≠ 2) (a b : Int)
    (hb : (b : ZMod p) ≠ 0) (c : Curve.Curve) (hc : CurveDenotes w c p a b) (pt : Curve.Point)
    (P : (curve (a : ZMod p) (b : ZMod p)).Point) (hpt : PointDenotes w pt P) (hodd : Odd (addOrderOf P)) (n k : Nat)
    (xn xk xs : BInt) (hn : Denotes w xn n) (hk : Denotes w xk k) (hs : Denotes w xs ((n + k : Nat) : Int)) :
    ∃ r s u v, (mulPoint m w c pt xn : Out ε _) = .ok r ∧ (mulPoint m w c pt xk : Out ε _) = .ok s ∧
      (mulPoint m w c pt xs : Out ε _) = .ok u ∧ (addPoints m w c r s : Out ε _) = .ok v ∧
      ∃ R : (curve (a : ZMod p) (b : ZMod p)).Point, PointDenotes w u R ∧ PointDenotes w v R := by
  obtain ⟨r, er, hr⟩ := C16_mul_point (ε := ε) m w p hp2 a b hb c hc pt P hpt hodd n xn hn
  obtain ⟨s, es, hs'⟩ := C16_mul_point (ε := ε) m w p hp2 a b hb c hc pt P hpt hodd k xk hk
  obtain ⟨u, eu, hu⟩ := C16_mul_point (ε := ε) m w p hp2 a b hb c hc pt P hpt hodd (n + k) xs hs
  obtain ⟨v, ev, hv⟩ := addPoints_y (ε := ε) m hp2 hc hb hr hs' fun _ =>
    odd_order_double (k := addOrderOf P) (P := n • P) (Nat.odd_iff.mp hodd)
      (by rw [← mul_nsmul, mul_comm, mul_nsmul, addOrderOf_nsmul_eq_zero, nsmul_zero])
  exact ⟨r, s, u, v, er, es, eu, ev, (n + k) • P, hu, add_nsmul P n k ▸ hv⟩

section Example
local instance : Fact (Nat.Prime 17) := ⟨by norm_num⟩

/-- The curve `y² = x³ + 2·x + 2` modulo `17`, its point `(5, 1)` of order `19`, and its other points, meet the hypotheses. -/
example : CurveDenotes 8 ⟨⟨[2], 1, .positive⟩, ⟨[2], 1, .positive⟩, ⟨[17], 1, .positive⟩⟩ 17 2 2 ∧ ((2 : Int) : ZMod 17) ≠ 0 ∧
    (4 * 2 ^ 3 + 27 * 2 ^ 2 : ZMod 17) ≠ 0 ∧
    ∃ P : (curve ((2 : Int) : ZMod 17) ((2 : Int) : ZMod 17)).Point, PointDenotes 8 ⟨⟨[5], 1, .positive⟩, ⟨[1], 1, .positive⟩⟩ P ∧
      addOrderOf P = 19 ∧ ¬ (P = P ∧ P ≠ 0 ∧ P + P = 0) := by
  refine ⟨⟨⟨⟨by decide, by decide, by decide, by decide, by decide⟩, by decide⟩,
    ⟨⟨by decide, by decide, by decide, by decide, by decide⟩, by decide⟩,
    ⟨⟨by decide, by decide, by decide, by decide, by decide⟩, by decide⟩⟩, by decide, by decide, ?_⟩
  have hn := (C15_points 17 (by decide) ((2 : Int) : ZMod 17) ((2 : Int) : ZMod 17) (by decide) 5 1).mpr (by decide)
  refine ⟨Point.some 5 1 hn, ⟨⟨⟨by decide, by decide, by decide, by decide, by decide⟩, by decide⟩,
    ⟨⟨by decide, by decide, by decide, by decide, by decide⟩, by decide⟩⟩, ?_, ?_⟩
  · refine addOrderOf_eq_prime (hp := ⟨by norm_num⟩) ?_ (WeierstrassCurve.Affine.Point.some_ne_zero _)
    exact Certify.order_of (p := 17) (a := 2) rfl (x := 5) (y := 1) (k := 18) (f := 10) ⟨hn, rfl⟩ (by decide) (by decide +kernel)
  · rw [C15_order_two 17 (by decide)]
    exact fun h => absurd h.2.2 (by decide)

example : (addPoints .debug 8 ⟨⟨[2], 1, .positive⟩, ⟨[2], 1, .positive⟩, ⟨[17], 1, .positive⟩⟩
      ⟨⟨[5], 1, .positive⟩, ⟨[1], 1, .positive⟩⟩ ⟨⟨[6], 1, .positive⟩, ⟨[3], 1, .positive⟩⟩ : Out Unit _).bind
      (fun r => .ok (toInt 8 r.x, toInt 8 r.y)) = .ok (10, 6) ∧
    (mulPoint .debug 8 ⟨⟨[2], 1, .positive⟩, ⟨[2], 1, .positive⟩, ⟨[17], 1, .positive⟩⟩
      ⟨⟨[5], 1, .positive⟩, ⟨[1], 1, .positive⟩⟩ ⟨[30], 1, .positive⟩ : Out Unit _).bind
      (fun r => .ok (toInt 8 r.x, toInt 8 r.y)) = .ok (13, 10) ∧
    (mulPoint .debug 8 ⟨⟨[2], 1, .positive⟩, ⟨[2], 1, .positive⟩, ⟨[17], 1, .positive⟩⟩
      ⟨⟨[5], 1, .positive⟩, ⟨[1], 1, .positive⟩⟩ ⟨[19], 1, .positive⟩ : Out Unit _).bind
      (fun r => .ok (toInt 8 r.x, toInt 8 r.y)) = .ok (0, 0) := by
  refine ⟨by decide +kernel, by decide +kernel, by decide +kernel⟩

/-- The hypotheses of `C15_double_panics` are met: the non-singular curve `y² = x³ + x + 15` modulo `17` has the point `(1, 0)`. -/
example : ((1 : ZMod 17) ^ 3 + 1 * 1 + 15 = 0 ^ 2) ∧ (4 * 1 ^ 3 + 27 * 15 ^ 2 : ZMod 17) ≠ 0 ∧
    CurveDenotes 8 ⟨⟨[1], 1, .positive⟩, ⟨[15], 1, .positive⟩, ⟨[17], 1, .positive⟩⟩ 17 1 15 ∧
    Denotes 8 ⟨[1], 1, .positive⟩ ((1 : ZMod 17).val) ∧ Denotes 8 ⟨[0], 1, .positive⟩ 0 ∧
    (doublePoint .release 8 ⟨⟨[1], 1, .positive⟩, ⟨[15], 1, .positive⟩, ⟨[17], 1, .positive⟩⟩
      ⟨⟨[1], 1, .positive⟩, ⟨[0], 1, .positive⟩⟩ : Out Unit _).bind (fun _ => .ok ()) = .panic := by
  refine ⟨by decide, by decide, ⟨⟨⟨by decide, by decide, by decide, by decide, by decide⟩, by decide⟩,
    ⟨⟨by decide, by decide, by decide, by decide, by decide⟩, by decide⟩,
    ⟨⟨by decide, by decide, by decide, by decide, by decide⟩, by decide⟩⟩,
    ⟨⟨by decide, by decide, by decide, by decide, by decide⟩, by decide⟩,
    ⟨⟨by decide, by decide, by decide, by decide, by decide⟩, by decide⟩, by decide +kernel⟩
end Example

end LCT.Props
