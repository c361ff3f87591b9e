import Verif.Props.Modular
import Verif.Lemmas.Crypto.Params
import Mathlib.GroupTheory.Perm.Cycle.Type

/-!
# Points of order two: where validation and the square root panic
-/

namespace LCT.Crypto
open LCT.Spec LCT.Out LCT.BigInt LCT.Modular LCT.Curve
open WeierstrassCurve.Affine (Point.some Point.zero)
variable {ε : Type} {w : Nat} [hw : DigitWidth w] {p n : Nat} [hpr : Fact p.Prime] {cp : Params} {a b : Int}
  {G : (curve (a : ZMod p) (b : ZMod p)).Point} (m : Build)

/-- The outcome is a value with the property `Q`, or, if the condition `c` does not hold, possibly a panic. -/
def Settles {α : Type} (c : Prop) (x : Out ε α) (Q : α → Prop) : Prop := x.Yields Q ∨ (¬ c ∧ x = .panic)

omit hw hpr in
theorem Settles.bind {α β : Type} {c : Prop} {x : Out ε α} {f : α → Out ε β} {P : α → Prop} {Q : β → Prop} (hx : Settles c x P)
    (hf : ∀ v, P v → Settles c (f v) Q) : Settles c (x >>= f) Q := by
  rcases hx with ⟨v, rfl, hv⟩ | ⟨hc, rfl⟩
  · exact hf v hv
  · exact Or.inr ⟨hc, rfl⟩

omit hw hpr in
theorem Settles.mono {α : Type} {c c' : Prop} {x : Out ε α} {P Q : α → Prop} (hx : Settles c x P) (hc : c' → c) (h : ∀ v, P v → Q v) :
    Settles c' x Q := hx.imp (·.mono h) fun ⟨h1, h2⟩ => ⟨fun h' => h1 (hc h'), h2⟩

omit hw hpr in
theorem Settles.pure {α : Type} {c : Prop} {v : α} {Q : α → Prop} (h : Q v) : Settles c (Pure.pure v : Out ε α) Q := Or.inl (.pure h)

omit hw hpr in
theorem Settles.yields {α : Type} {c : Prop} {x : Out ε α} {Q : α → Prop} (h : Settles c x Q) (hc : c) : x.Yields Q :=
  h.resolve_right fun h => h.1 hc

/-- The inverse of zero. -/
theorem invert_zero {c : Curve.Curve} (hc : CurveDenotes w c p a b) (v : BInt) (hv : Denotes w v 0) : (invert m w v c.p : Out ε _) = .panic :=
  Props.C13_invert_zero m w v c.p 0 p hv hc.p (by exact_mod_cast hpr.out.one_lt) ⟨0, by ring⟩

/-- The square root of zero. -/
theorem sqrt_zero_odd {q : Nat} {xa xp : BInt} (hodd : q % 2 = 1) (h2 : 2 < q) (hp : Denotes w xp (q : Int)) (ha : Denotes w xa 0) :
    (sqrt m w xa xp : Out ε _) = .panic := by
  obtain ⟨z, e0, hz⟩ := zero_y (ε := ε) w
  obtain ⟨o, e1, ho⟩ := one_y (ε := ε) w
  obtain ⟨t, e2, ht⟩ := ofInt_y (ε := ε) w 2 (by norm_num) (by norm_num)
  obtain ⟨_, e3, rfl⟩ := isOdd_y (ε := ε) hp
  obtain ⟨_, e4, rfl⟩ := gt_y (ε := ε) m hp ht
  obtain ⟨_, e5, rfl⟩ := gt_y (ε := ε) m ha hz
  have h3 : (¬ 2 ∣ (q : Int)) := by omega
  have h4 : (q : Int) > 2 := by omega
  unfold sqrt sqrtWithin
  simp [e0, e1, e2, e3, e4, e5, h3, h4]

theorem sqrt_zero {xa xp : BInt} (hp2 : p ≠ 2) (hp : Denotes w xp (p : Int)) (ha : Denotes w xa 0) : (sqrt m w xa xp : Out ε _) = .panic :=
  have hodd : p % 2 = 1 := (hpr.out.eq_two_or_odd).resolve_left hp2
  sqrt_zero_odd m hodd (by have := hpr.out.two_le; omega) hp ha

/-- Multiplication by `n` in the validation of a point that meets a point of order two. -/
theorem validatePoint_panic (hD : Domain w cp p n a b G) (hc : cp.cofactor ≠ 1) {pt : Point} {P : (curve (a : ZMod p) (b : ZMod p)).Point}
    (hP : PointDenotes w pt P) (hm : MeetsOrderTwo (bitLength n) P) : (cp.validatePoint m w pt : Out ε _) = .panic := by
  have hP0 : P ≠ 0 := by
    rintro rfl
    obtain ⟨i, -, h, -⟩ := hm
    exact h (nsmul_zero _)
  have hmul := mulPoint_panic (ε := ε) m hD.p_ne hD.curve hD.b_ne (invert_zero m hD.curve) hP hD.order hm
  obtain ⟨u, v, hu, hv, h0, h1⟩ := point_res hD.b_ne hP
  obtain ⟨hn, rfl⟩ := h1.resolve_left fun h => hP0 (h0.mpr h)
  have bu := val_lt_int u
  have bv := val_lt_int v
  obtain ⟨_, e1, rfl⟩ := anyNegative_y (ε := ε) m hu hv
  obtain ⟨_, e2, rfl⟩ := anyTooLarge_y (ε := ε) m hu hv hD.curve.p
  obtain ⟨l, e3, hl⟩ := mul_y (ε := ε) m hv hv
  obtain ⟨l', e4, hl'⟩ := modulo_z (ε := ε) m hl hD.curve.p
  obtain ⟨r, e5, hr⟩ := rhs_y (ε := ε) m hD.curve.a hD.curve.b hu
  obtain ⟨r', e6, hr'⟩ := modulo_z (ε := ε) m hr hD.curve.p
  obtain ⟨_, e7, rfl⟩ := beq_z (ε := ε) m hl' hr'
  obtain ⟨i, e8, hi⟩ := isIdentity_point (ε := ε) m hD.b_ne hP
  have hi' : i = false := by rw [← Bool.not_eq_true, hi]; exact hP0
  subst hi'
  have heq : (((v.val : Int) * v.val : Int) : ZMod p) = (((u.val : Int) * u.val * u.val + a * u.val + b : Int) : ZMod p) := by
    push_cast
    rw [ZMod.natCast_zmod_val, ZMod.natCast_zmod_val]
    linear_combination equation_of_nonsingular hn
  have hneg : ¬ ((u.val : Int) < 0 ∨ (v.val : Int) < 0) := by omega
  have hbig : ¬ ((u.val : Int) ≥ p ∨ (v.val : Int) ≥ p) := by omega
  unfold Params.validatePoint
  rw [e1]
  simp only [bind_ok, decide_eq_false hneg, e2, decide_eq_false hbig, e3, e4, e5, e6, e7, decide_eq_true heq, e8, Bool.false_eq_true, if_false,
    Bool.not_true, hmul, if_pos hc]
  rfl

/-- A point whose validation returns. -/
theorem clear_of_returns (hD : Domain w cp p n a b G) {pt : Point} (h : (cp.validatePoint m w pt : Out ε _) ≠ .panic) :
    Clear w n cp (curve (a : ZMod p) (b : ZMod p)) pt :=
  fun hc _ hP hm => h (validatePoint_panic m hD hc hP hm)

/-- If the cofactor is even there is a point of order two. -/
theorem exists_order_two (hD : Domain w cp p n a b G) (heven : cp.cofactor % 2 = 0) :
    ∃ (x : ZMod p) (h : (curve (a : ZMod p) (b : ZMod p)).Nonsingular x 0), x ^ 3 + (a : ZMod p) * x + b = 0 ∧
      MeetsOrderTwo (bitLength n) (Point.some x 0 h) := by
  have := hD.finite
  have h2 : 2 ∣ Nat.card (curve (a : ZMod p) (b : ZMod p)).Point := by
    rw [hD.card]
    exact Dvd.dvd.mul_right (Nat.dvd_of_mod_eq_zero heven) n
  obtain ⟨P, hP⟩ := exists_prime_addOrderOf_dvd_card' (G := (curve (a : ZMod p) (b : ZMod p)).Point) 2 h2
  have hP2 : P + P = 0 := by rw [← two_nsmul, ← hP]; exact addOrderOf_nsmul_eq_zero P
  have hP0 : P ≠ 0 := by
    rintro rfl
    rw [addOrderOf_zero] at hP
    omega
  cases P with
  | zero => exact absurd rfl hP0
  | some x y h =>
    have hy : y = 0 := by
      by_contra hy
      have hy' : y ≠ (curve (a : ZMod p) (b : ZMod p)).negY x y := by
        simp only [WeierstrassCurve.Affine.negY, zero_mul, sub_zero]
        intro h
        have h2 : (2 : ZMod p) * y = 0 := by linear_combination h
        exact hy ((mul_eq_zero.mp h2).resolve_left (two_ne hD.p_ne))
      rw [WeierstrassCurve.Affine.Point.add_self_of_Y_ne hy'] at hP2
      exact absurd hP2 (WeierstrassCurve.Affine.Point.some_ne_zero _)
    subst hy
    refine ⟨x, h, ?_, 0, ?_, by simp, by simpa [two_nsmul] using hP2⟩
    · have := equation_of_nonsingular h
      linear_combination -this
    · unfold bitLength
      have := hD.n_prime.pos
      split <;> omega

end LCT.Crypto
