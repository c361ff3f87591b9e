import Verif.Spec.Curve
import Verif.Lemmas.Math.Field

/-!
# The curve operations implement Mathlib's group of points
-/

namespace LCT.Curve
open LCT.Spec LCT.Out LCT.BigInt LCT.Modular
open WeierstrassCurve.Affine (Point.some Point.zero)
variable {ε : Type} {w : Nat} [hw : DigitWidth w] {p : Nat} [hpr : Fact p.Prime] {c : Curve} {a b : Int} (m : Build)

/-- The coordinates of a stored point: residues, and both zero exactly for the point at infinity. -/
theorem point_res {pt : Point} (hb : (b : ZMod p) ≠ 0) {P : (curve (a : ZMod p) b).Point} (h : PointDenotes w pt P) :
    ∃ x y : ZMod p, Res w pt.x x ∧ Res w pt.y y ∧ (P = 0 ↔ x = 0 ∧ y = 0) ∧
      ((x = 0 ∧ y = 0) ∨ ∃ hn, P = Point.some x y hn) := by
  cases P with
  | zero =>
    refine ⟨0, 0, ?_, ?_, ⟨fun _ => ⟨rfl, rfl⟩, fun _ => rfl⟩, Or.inl ⟨rfl, rfl⟩⟩
    · show Denotes w pt.x _; simpa using h.1
    · show Denotes w pt.y _; simpa using h.2
  | some x y hn =>
    refine ⟨x, y, h.1, h.2, ⟨fun h0 => ?_, ?_⟩, Or.inr ⟨hn, rfl⟩⟩
    · exact absurd h0 (WeierstrassCurve.Affine.Point.some_ne_zero hn)
    · rintro ⟨rfl, rfl⟩
      exfalso
      rw [WeierstrassCurve.Affine.nonsingular_zero] at hn
      exact hb hn.1

theorem isIdentity_y {pt : Point} {x y : ZMod p} (hx : Res w pt.x x) (hy : Res w pt.y y) :
    (pt.isIdentity m : Out ε _).Yields (· = decide (x = 0 ∧ y = 0)) := by
  unfold Point.isIdentity
  have hz : ∀ v : ZMod p, ((v.val : Int) = 0) ↔ v = 0 := by
    intro v
    rw [← ZMod.val_eq_zero v]; omega
  run (isZero_y m hx) with _ rfl
  by_cases h0 : x = 0
  · rw [if_pos (decide_eq_true ((hz x).mpr h0))]
    refine (isZero_y m hy).mono ?_
    rintro _ rfl
    apply decide_eq_decide.mpr
    rw [hz y]; simp [h0]
  · rw [if_neg (fun h => h0 ((hz x).mp (of_decide_eq_true h)))]
    exact .pure (by simp [h0])

theorem identity_y : (Point.identity w : Out ε _).Yields (fun pt => Denotes w pt.x 0 ∧ Denotes w pt.y 0) := by
  unfold Point.identity
  run (zero_y w) with x hx
  run (zero_y w) with y hy
  exact .pure ⟨hx, hy⟩

theorem beq_point_y {s t : Point} {x y x' y' : ZMod p} (hx : Res w s.x x) (hy : Res w s.y y) (hx' : Res w t.x x')
    (hy' : Res w t.y y') : (Point.beq m s t : Out ε _).Yields (· = decide (x = x' ∧ y = y')) := by
  unfold Point.beq
  run (beq_z m hx hx') with _ rfl
  by_cases h : x = x'
  · rw [if_pos (decide_eq_true h)]
    exact (beq_z m hy hy').mono (by rintro _ rfl; simp [h])
  · rw [if_neg (by simpa using h)]
    exact .pure (by simp [h])

theorem inRange_y {x xp : BInt} {v : ZMod p} (hx : Res w x v) (hp : Denotes w xp (p : Int)) :
    (inRange m w x xp : Out ε _).Yields (· = true) := by
  unfold inRange
  run (zero_y w) with z hz
  run (ge_y m hx hz) with _ rfl
  rw [if_pos (decide_eq_true (Int.natCast_nonneg _))]
  exact (lt_y m hx hp).mono (by rintro _ rfl; exact decide_eq_true (val_lt_int v))

theorem invertUnwrap_y {x xp : BInt} {z : Int} (hx : Denotes w x z) (hp : Denotes w xp (p : Int)) (hz : (z : ZMod p) ≠ 0) :
    (invertUnwrap m w x xp : Out ε _).Yields (Res w · ((z : ZMod p)⁻¹)) := by
  unfold invertUnwrap
  refine Yields.bind (invert_z m hx hp hz) ?_
  rintro _ ⟨r, rfl, hr⟩
  exact .ok hr

theorem thirdPoint_y {pt : Point} {xm xx : BInt} {x y l x3 : ZMod p} (hc : Denotes w c.p (p : Int)) (hx : Res w pt.x x)
    (hy : Res w pt.y y) (hl : Res w xm l) (hx3 : Res w xx x3) :
    (thirdPoint m w c pt xm xx : Out ε _).Yields (fun q => Res w q.x x3 ∧ Res w q.y (l * (x - x3) - y)) := by
  unfold thirdPoint
  run (sub_y m hx hx3) with d hd
  run (mul_y m hl hd) with t ht
  run (sub_y m ht hy) with y1 hy1
  run (modulo_z m hy1 hc) with y2 hy2
  refine .pure ⟨hx3, ?_⟩
  have : (((l.val : Int) * (x.val - x3.val) - y.val : Int) : ZMod p) = l * (x - x3) - y := by
    push_cast; simp only [ZMod.natCast_zmod_val]
  rwa [this] at hy2

/-- Doubling on the coordinates. -/
theorem doublePoint_coords {pt : Point} {x y : ZMod p} (hc : CurveDenotes w c p a b) (hx : Res w pt.x x) (hy : Res w pt.y y)
    (hne : ¬ (x = 0 ∧ y = 0)) (hy0 : 2 * y ≠ 0) :
    (doublePoint m w c pt : Out ε _).Yields (fun q => Res w q.x (((3 * x * x + (a : ZMod p)) * (2 * y)⁻¹) ^ 2 - 2 * x) ∧
      Res w q.y (((3 * x * x + (a : ZMod p)) * (2 * y)⁻¹) * (x - (((3 * x * x + (a : ZMod p)) * (2 * y)⁻¹) ^ 2 - 2 * x)) - y)) := by
  unfold doublePoint
  run (dassertM_y m (inRange_y m hx hc.p)) with - -
  run (dassertM_y m (inRange_y m hy hc.p)) with - -
  run (isIdentity_y m hx hy) with _ rfl
  rw [if_neg (by simpa using hne)]
  run (ofInt_y w 2 (by norm_num) (by norm_num)) with two h2
  run (ofInt_y w 3 (by norm_num) (by norm_num)) with three h3
  run (mul_y m h3 hx) with t1 ht1
  run (mul_y m ht1 hx) with t2 ht2
  run (add_y m ht2 hc.a) with num hnum
  run (mul_y m h2 hy) with den hden
  have hd : ((2 * (y.val : Int) : Int) : ZMod p) = 2 * y := by push_cast; simp only [ZMod.natCast_zmod_val]
  run (invertUnwrap_y m hden hc.p (by rw [hd]; exact hy0)) with inv hinv
  rw [hd] at hinv
  run (mul_y m hnum hinv) with mm0 hmm0
  run (modulo_z m hmm0 hc.p) with mm hmm
  have hl : (((3 * (x.val : Int) * x.val + a) * ((2 * y)⁻¹ : ZMod p).val : Int) : ZMod p) = (3 * x * x + (a : ZMod p)) * (2 * y)⁻¹ := by
    push_cast; simp only [ZMod.natCast_zmod_val]
  rw [hl] at hmm
  generalize (3 * x * x + (a : ZMod p)) * (2 * y)⁻¹ = l at hmm ⊢
  run (mul_y m hmm hmm) with sq hsq
  run (mul_y m h2 hx) with x2 hx2
  run (sub_y m hsq hx2) with x3 hx3
  run (modulo_z m hx3 hc.p) with x4 hx4
  have hxx : (((l.val : Int) * l.val - 2 * x.val : Int) : ZMod p) = l ^ 2 - 2 * x := by
    push_cast; simp only [ZMod.natCast_zmod_val, pow_two]
  rw [hxx] at hx4
  exact thirdPoint_y m hc.p hx hy hmm hx4

/-- The chord case on the coordinates. -/
theorem chord_coords {s t : Point} {x y x' y' : ZMod p} (hc : CurveDenotes w c p a b) (hx : Res w s.x x) (hy : Res w s.y y)
    (hx' : Res w t.x x') (hy' : Res w t.y y') (hne : x' - x ≠ 0) :
    (chord m w c s t : Out ε _).Yields (fun q => Res w q.x (((y' - y) * (x' - x)⁻¹) ^ 2 - x - x') ∧
      Res w q.y (((y' - y) * (x' - x)⁻¹) * (x - (((y' - y) * (x' - x)⁻¹) ^ 2 - x - x')) - y)) := by
  unfold chord
  run (sub_y m hy' hy) with num hnum
  run (sub_y m hx' hx) with den hden
  have hd : (((x'.val : Int) - x.val : Int) : ZMod p) = x' - x := by push_cast; simp only [ZMod.natCast_zmod_val]
  run (invertUnwrap_y m hden hc.p (by rw [hd]; exact hne)) with inv hinv
  rw [hd] at hinv
  run (mul_y m hnum hinv) with mm0 hmm0
  run (modulo_z m hmm0 hc.p) with mm hmm
  have hl : ((((y'.val : Int) - y.val) * ((x' - x)⁻¹ : ZMod p).val : Int) : ZMod p) = (y' - y) * (x' - x)⁻¹ := by
    push_cast; simp only [ZMod.natCast_zmod_val]
  rw [hl] at hmm
  generalize (y' - y) * (x' - x)⁻¹ = l at hmm ⊢
  run (mul_y m hmm hmm) with sq hsq
  run (sub_y m hsq hx) with x2 hx2
  run (sub_y m hx2 hx') with x3 hx3
  run (modulo_z m hx3 hc.p) with x4 hx4
  have hxx : (((l.val : Int) * l.val - x.val - x'.val : Int) : ZMod p) = l ^ 2 - x - x' := by
    push_cast; simp only [ZMod.natCast_zmod_val, pow_two]
  rw [hxx] at hx4
  exact thirdPoint_y m hc.p hx hy hmm hx4

/-- Doubling a point that is not of order two. -/
theorem doublePoint_y {pt : Point} (hp2 : p ≠ 2) (hc : CurveDenotes w c p a b) (hb : (b : ZMod p) ≠ 0)
    {P : (curve (a : ZMod p) b).Point} (h : PointDenotes w pt P) (hP : P = 0 ∨ P + P ≠ 0) :
    (doublePoint m w c pt : Out ε _).Yields (PointDenotes w · (P + P)) := by
  obtain ⟨x, y, hx, hy, h0, hs⟩ := point_res hb h
  by_cases hz : x = 0 ∧ y = 0
  · have hP0 := h0.mpr hz
    subst hP0
    unfold doublePoint
    run (dassertM_y m (inRange_y m hx hc.p)) with - -
    run (dassertM_y m (inRange_y m hy hc.p)) with - -
    run (isIdentity_y m hx hy) with _ rfl
    rw [if_pos (by simpa using hz), add_zero]
    exact identity_y
  · obtain ⟨hn, rfl⟩ := hs.resolve_left hz
    have hyn : y ≠ (curve (a : ZMod p) b).negY x y := by
      intro hy2
      rcases hP with h1 | h1
      · exact WeierstrassCurve.Affine.Point.some_ne_zero hn h1
      · exact h1 (WeierstrassCurve.Affine.Point.add_self_of_Y_eq hy2)
    have hny : (curve (a : ZMod p) b).negY x y = -y := by
      simp [WeierstrassCurve.Affine.negY]
    have hy0 : 2 * y ≠ 0 := by
      intro h2
      apply hyn
      rw [hny, eq_neg_iff_add_eq_zero, ← two_mul, h2]
    refine (doublePoint_coords m hc hx hy hz hy0).mono fun q hq => ?_
    rw [WeierstrassCurve.Affine.Point.add_self_of_Y_ne hyn]
    have hsl : (curve (a : ZMod p) b).slope x x y y = (3 * x * x + (a : ZMod p)) * (2 * y)⁻¹ := by
      rw [WeierstrassCurve.Affine.slope_of_Y_ne rfl hyn, hny, div_eq_mul_inv]
      simp only [sub_neg_eq_add, ← two_mul]
      ring
    refine ⟨?_, ?_⟩
    · have : (curve (a : ZMod p) b).addX x x ((curve (a : ZMod p) b).slope x x y y) = ((3 * x * x + (a : ZMod p)) * (2 * y)⁻¹) ^ 2 - 2 * x := by
        rw [hsl, WeierstrassCurve.Affine.addX]; ring
      rw [this]; exact hq.1
    · have : (curve (a : ZMod p) b).addY x x y ((curve (a : ZMod p) b).slope x x y y) =
          ((3 * x * x + (a : ZMod p)) * (2 * y)⁻¹) * (x - (((3 * x * x + (a : ZMod p)) * (2 * y)⁻¹) ^ 2 - 2 * x)) - y := by
        rw [hsl, WeierstrassCurve.Affine.addY, WeierstrassCurve.Affine.negAddY, WeierstrassCurve.Affine.negY,
          WeierstrassCurve.Affine.addX]; ring
      rw [this]; exact hq.2

/-- Addition, unless it doubles a point of order two. -/
theorem addPoints_y {s t : Point} (hp2 : p ≠ 2) (hc : CurveDenotes w c p a b) (hb : (b : ZMod p) ≠ 0)
    {P Q : (curve (a : ZMod p) b).Point} (hs : PointDenotes w s P) (ht : PointDenotes w t Q) (hPQ : P = Q → P = 0 ∨ P + P ≠ 0) :
    (addPoints m w c s t : Out ε _).Yields (PointDenotes w · (P + Q)) := by
  obtain ⟨x, y, hx, hy, h0, h1⟩ := point_res hb hs
  obtain ⟨x', y', hx', hy', h0', h1'⟩ := point_res hb ht
  unfold addPoints
  run (dassertM_y m (inRange_y m hx hc.p)) with - -
  run (dassertM_y m (inRange_y m hy hc.p)) with - -
  run (dassertM_y m (inRange_y m hx' hc.p)) with - -
  run (dassertM_y m (inRange_y m hy' hc.p)) with - -
  run (isIdentity_y m hx hy) with _ rfl
  run (isIdentity_y m hx' hy') with _ rfl
  by_cases hz : x = 0 ∧ y = 0
  · by_cases hz' : x' = 0 ∧ y' = 0
    · rw [if_pos (by rw [decide_eq_true hz, decide_eq_true hz']; rfl), h0.mpr hz, h0'.mpr hz', add_zero]
      exact identity_y
    · rw [if_neg (by rw [decide_eq_true hz, decide_eq_false hz']; decide), if_pos (decide_eq_true hz), h0.mpr hz, zero_add]
      exact .pure ht
  rw [if_neg (by rw [decide_eq_false hz]; simp), if_neg (by rw [decide_eq_false hz]; decide)]
  by_cases hz' : x' = 0 ∧ y' = 0
  · rw [if_pos (decide_eq_true hz'), h0'.mpr hz', add_zero]
    exact .pure hs
  rw [if_neg (by rw [decide_eq_false hz']; decide)]
  obtain ⟨hn, rfl⟩ := h1.resolve_left hz
  obtain ⟨hn', rfl⟩ := h1'.resolve_left hz'
  have hny : ∀ u v, (curve (a : ZMod p) b).negY u v = -v := by
    intro u v; simp [WeierstrassCurve.Affine.negY]
  run (beq_point_y m hx hy hx' hy') with _ rfl
  by_cases hxy : x = x' ∧ y = y'
  · rw [if_pos (decide_eq_true hxy)]
    obtain ⟨rfl, rfl⟩ := hxy
    exact doublePoint_y m hp2 hc hb hs (hPQ rfl)
  rw [if_neg (by rw [decide_eq_false hxy]; decide)]
  run (beq_z m hx hx') with _ rfl
  by_cases hxx : x = x'
  · rw [if_pos (decide_eq_true hxx)]
    have hyy : y = -y' := by
      rcases WeierstrassCurve.Affine.Y_eq_of_X_eq hn.1 hn'.1 hxx with h | h
      · exact absurd ⟨hxx, h⟩ hxy
      · rw [h, hny]
    run (modulo_z m (neg_d hy') hc.p) with ny hny'
    have hcast : ((-(y'.val : Int) : Int) : ZMod p) = -y' := by rw [Int.cast_neg, int_val]
    rw [hcast] at hny'
    run (beq_z m hy hny') with _ rfl
    rw [if_pos (decide_eq_true hyy), WeierstrassCurve.Affine.Point.add_of_Y_eq hxx (by rw [hny, hyy])]
    exact identity_y
  · rw [if_neg (by rw [decide_eq_false hxx]; decide)]
    have hd : x' - x ≠ 0 := fun h => hxx (sub_eq_zero.mp h).symm
    refine (chord_coords m hc hx hy hx' hy' hd).mono fun q hq => ?_
    rw [WeierstrassCurve.Affine.Point.add_of_X_ne hxx]
    have hsl : (curve (a : ZMod p) b).slope x x' y y' = (y' - y) * (x' - x)⁻¹ := by
      rw [WeierstrassCurve.Affine.slope_of_X_ne hxx, ← neg_sub x' x, ← neg_sub y' y, neg_div_neg_eq, div_eq_mul_inv]
    refine ⟨?_, ?_⟩
    · have : (curve (a : ZMod p) b).addX x x' ((curve (a : ZMod p) b).slope x x' y y') = ((y' - y) * (x' - x)⁻¹) ^ 2 - x - x' := by
        rw [hsl, WeierstrassCurve.Affine.addX]; ring
      rw [this]; exact hq.1
    · have : (curve (a : ZMod p) b).addY x x' y ((curve (a : ZMod p) b).slope x x' y y') =
          ((y' - y) * (x' - x)⁻¹) * (x - (((y' - y) * (x' - x)⁻¹) ^ 2 - x - x')) - y := by
        rw [hsl, WeierstrassCurve.Affine.addY, WeierstrassCurve.Affine.negAddY, WeierstrassCurve.Affine.negY,
          WeierstrassCurve.Affine.addX]; ring
      rw [this]; exact hq.2

/-- Doubling a point with `y = 0` panics. -/
theorem doublePoint_panic {pt : Point} {x y : ZMod p} (hc : CurveDenotes w c p a b) (hx : Res w pt.x x) (hy : Res w pt.y y)
    (hx0 : x ≠ 0) (hy0 : y = 0) (hinv : ∀ v : BInt, Denotes w v 0 → (invert m w v c.p : Out ε _) = .panic) :
    (doublePoint m w c pt : Out ε _) = .panic := by
  unfold doublePoint
  obtain ⟨_, e1, -⟩ := dassertM_y (ε := ε) m (inRange_y m hx hc.p)
  obtain ⟨_, e2, -⟩ := dassertM_y (ε := ε) m (inRange_y m hy hc.p)
  obtain ⟨_, e3, rfl⟩ := isIdentity_y (ε := ε) m hx hy
  obtain ⟨two, e4, h2⟩ := ofInt_y (ε := ε) w 2 (by norm_num) (by norm_num)
  obtain ⟨three, e5, h3⟩ := ofInt_y (ε := ε) w 3 (by norm_num) (by norm_num)
  obtain ⟨t1, e6, ht1⟩ := mul_y (ε := ε) m h3 hx
  obtain ⟨t2, e7, ht2⟩ := mul_y (ε := ε) m ht1 hx
  obtain ⟨num, e8, hnum⟩ := add_y (ε := ε) m ht2 hc.a
  obtain ⟨den, e9, hden⟩ := mul_y (ε := ε) m h2 hy
  have hv : 2 * (y.val : Int) = 0 := by rw [hy0, ZMod.val_zero]; rfl
  rw [hv] at hden
  simp only [e1, e2, e3, e4, e5, e6, e7, e8, e9, Out.bind_ok, hx0, false_and, decide_false, Bool.false_eq_true, if_false,
    invertUnwrap, hinv den hden, Out.bind_panic]

/-! ## Scalar multiplication -/

/-- The number with the given bits, least significant first. -/
def ofBits : List Bool → Nat
  | [] => 0
  | b :: bs => b.toNat + 2 * ofBits bs

theorem ofBits_range (k n : Nat) : ofBits ((List.range k).map n.testBit) = n % 2 ^ k := by
  induction k generalizing n with
  | zero => simp [ofBits, Nat.mod_one]
  | succ k ih =>
    rw [List.range_succ_eq_map, List.map_cons, List.map_map]
    have : (n.testBit ∘ Nat.succ) = (n / 2).testBit := by
      funext i; simp [Nat.testBit_succ]
    rw [this, ofBits, ih, Nat.pow_succ', Nat.mod_mul]
    have h2 : (n.testBit 0).toNat = n % 2 := by
      rw [Nat.testBit_zero]
      rcases Nat.mod_two_eq_zero_or_one n with h | h <;> simp [h]
    rw [h2]

/-- A point of odd order is not of order two. -/
theorem odd_order_double {G : Type} [AddCommGroup G] {P : G} {k : Nat} (hk : k % 2 = 1) (h : k • P = 0) : P = 0 ∨ P + P ≠ 0 := by
  by_cases h2 : P + P = 0
  · left
    have h3 : k = 2 * (k / 2) + 1 := by omega
    rw [h3, add_nsmul, one_nsmul, mul_nsmul, two_nsmul, h2, nsmul_zero, zero_add] at h
    exact h
  · exact Or.inr h2

theorem odd_order_meets {G : Type} [AddCommGroup G] {P : G} {k : Nat} (hk : k % 2 = 1) (h : k • P = 0) (l : Nat) : ¬ MeetsOrderTwo l P := by
  rintro ⟨i, -, h0, h1⟩
  rcases odd_order_double (P := 2 ^ i • P) hk (by rw [← mul_nsmul', mul_comm, mul_nsmul', h, nsmul_zero]) with h2 | h2
  · exact h0 h2
  · rw [pow_succ, mul_nsmul, two_nsmul, ← nsmul_add] at h1
    rw [← nsmul_add] at h2
    exact h2 h1

theorem meets_succ {G : Type} [AddCommGroup G] (P : G) (k : Nat) :
    MeetsOrderTwo (k + 1) P ↔ (P ≠ 0 ∧ P + P = 0) ∨ MeetsOrderTwo k (P + P) := by
  constructor
  · rintro ⟨i, hi, h0, h1⟩
    cases i with
    | zero => left; simpa [two_nsmul] using And.intro h0 h1
    | succ i =>
      refine Or.inr ⟨i, by omega, ?_, ?_⟩
      · rwa [← two_nsmul, ← mul_nsmul, ← pow_succ']
      · rwa [← two_nsmul, ← mul_nsmul, ← pow_succ']
  · rintro (⟨h0, h1⟩ | ⟨i, hi, h0, h1⟩)
    · exact ⟨0, by omega, by simpa using h0, by simpa [two_nsmul] using h1⟩
    · refine ⟨i + 1, by omega, ?_, ?_⟩
      · rwa [← two_nsmul, ← mul_nsmul, ← pow_succ'] at h0
      · rwa [← two_nsmul, ← mul_nsmul, ← pow_succ'] at h1

theorem mulLoop_y (hp2 : p ≠ 2) (hc : CurveDenotes w c p a b) (hb : (b : ZMod p) ≠ 0) :
    ∀ (bits : List Bool) (base result : Point) (B R : (curve (a : ZMod p) b).Point), PointDenotes w base B → PointDenotes w result R →
      ¬ MeetsOrderTwo bits.length B → (mulLoop m w c bits base result : Out ε _).Yields (PointDenotes w · (R + ofBits bits • B)) := by
  intro bits
  induction bits with
  | nil =>
    intro base result B R _ hR _
    refine .pure ?_
    simpa [ofBits] using hR
  | cons bit bits ih =>
    intro base result B R hB hR hkB
    rw [List.length_cons, meets_succ, not_or] at hkB
    unfold mulLoop
    have hord : B = 0 ∨ B + B ≠ 0 := by tauto
    refine Yields.bind (P := (PointDenotes w · (R + bit.toNat • B))) ?_ ?_
    · cases bit
      · refine Yields.pure ?_
        simpa using hR
      · simp only [if_true, Bool.toNat_true, one_nsmul]
        rw [add_comm]
        exact addPoints_y m hp2 hc hb hB hR (fun _ => hord)
    · intro r hr
      run (doublePoint_y m hp2 hc hb hB hord) with base' hB'
      refine (ih base' r _ _ hB' hr hkB.2).mono fun q hq => ?_
      have : R + bit.toNat • B + ofBits bits • (B + B) = R + ofBits (bit :: bits) • B := by
        rw [ofBits, add_nsmul, mul_nsmul, ← two_nsmul, add_assoc]
      rwa [this] at hq

/-- `mul_point` computes the multiples of a point, unless it meets a point of order two on the way. -/
theorem mulPoint_z {pt : Point} {xn : BInt} {n : Nat} (hp2 : p ≠ 2) (hc : CurveDenotes w c p a b) (hb : (b : ZMod p) ≠ 0)
    {P : (curve (a : ZMod p) b).Point} (h : PointDenotes w pt P) (hn : Denotes w xn n) (hk : ¬ MeetsOrderTwo (bitLength n) P) :
    (mulPoint m w c pt xn : Out ε _).Yields (PointDenotes w · (n • P)) := by
  obtain ⟨x, y, hx, hy, -, -⟩ := point_res hb h
  unfold mulPoint
  run (dassertM_y m (geZero_y m hx (Int.natCast_nonneg _))) with - -
  run (dassertM_y m (geZero_y m hy (Int.natCast_nonneg _))) with - -
  run (dassertM_y m (geZero_y m hn (Int.natCast_nonneg _))) with - -
  run (isZero_y m hn) with _ rfl
  by_cases h0 : (n : Int) = 0
  · have : n = 0 := by omega
    rw [if_pos (decide_eq_true h0), this, zero_nsmul]
    exact identity_y
  · rw [if_neg (by rw [decide_eq_false h0]; decide)]
    run (identity_y) with r hr
    run (leBits_y m hn) with _ rfl
    refine (mulLoop_y m hp2 hc hb _ pt r P 0 h hr (by rwa [List.length_map, List.length_range, Int.natAbs_natCast])).mono fun q hq => ?_
    have hlt : n < 2 ^ bitLength n := by
      unfold bitLength
      split
      · omega
      · exact Nat.lt_log2_self
    rwa [zero_add, ofBits_range, Int.natAbs_natCast, Nat.mod_eq_of_lt hlt] at hq

/-- `mul_point` computes the multiples of a point of odd order. -/
theorem mulPoint_y {pt : Point} {xn : BInt} {n k : Nat} (hp2 : p ≠ 2) (hc : CurveDenotes w c p a b) (hb : (b : ZMod p) ≠ 0)
    {P : (curve (a : ZMod p) b).Point} (h : PointDenotes w pt P) (hn : Denotes w xn n) (hk : k % 2 = 1) (hkP : k • P = 0) :
    (mulPoint m w c pt xn : Out ε _).Yields (PointDenotes w · (n • P)) :=
  mulPoint_z m hp2 hc hb h hn (odd_order_meets hk hkP _)

/-! ## Where it panics -/

section
variable (hp2 : p ≠ 2) (hc : CurveDenotes w c p a b) (hb : (b : ZMod p) ≠ 0)
  (hinv : ∀ v : BInt, Denotes w v 0 → (invert m w v c.p : Out ε _) = .panic)
include hp2 hc hb hinv

/-- Doubling a point of order two panics. -/
theorem doublePoint_two {pt : Point} {P : (curve (a : ZMod p) b).Point} (h : PointDenotes w pt P) (h0 : P ≠ 0) (h2 : P + P = 0) :
    (doublePoint m w c pt : Out ε _) = .panic := by
  cases P with
  | zero => exact absurd rfl h0
  | some x y hn =>
    have hy : y = 0 := by
      by_contra hy
      have hy' : y ≠ (curve (a : ZMod p) (b : ZMod p)).negY x y := by
        simp only [WeierstrassCurve.Affine.negY, zero_mul, sub_zero]
        intro h
        have h2 : (2 : ZMod p) * y = 0 := by linear_combination h
        have h2' : (2 : ZMod p) ≠ 0 := by
          intro h
          rw [show (2 : ZMod p) = ((2 : Nat) : ZMod p) from by norm_num, ZMod.natCast_eq_zero_iff] at h
          exact hp2 ((Nat.prime_dvd_prime_iff_eq hpr.out Nat.prime_two).mp h)
        exact hy ((mul_eq_zero.mp h2).resolve_left h2')
      rw [WeierstrassCurve.Affine.Point.add_self_of_Y_ne hy'] at h2
      exact absurd h2 (WeierstrassCurve.Affine.Point.some_ne_zero _)
    subst hy
    refine doublePoint_panic m hc h.1 h.2 ?_ rfl hinv
    rintro rfl
    rw [WeierstrassCurve.Affine.nonsingular_zero] at hn
    exact hb hn.1

/-- Adding such a point to itself panics. -/
theorem addPoints_two {s t : Point} {P : (curve (a : ZMod p) b).Point} (h : PointDenotes w s P) (h' : PointDenotes w t P) (h0 : P ≠ 0)
    (h2 : P + P = 0) : (addPoints m w c s t : Out ε _) = .panic := by
  have hd := doublePoint_two m hp2 hc hb hinv h h0 h2
  obtain ⟨x, y, hx, hy, hz, -⟩ := point_res hb h
  obtain ⟨x', y', hx', hy', hz', -⟩ := point_res hb h'
  have hxe : Res w t.x x ∧ Res w t.y y := by
    cases P with
    | zero => exact absurd rfl h0
    | some u v hn =>
      have e1 : x = u := ZMod.val_injective _ (by have := hx.2.symm.trans h.1.2; omega)
      have e2 : y = v := ZMod.val_injective _ (by have := hy.2.symm.trans h.2.2; omega)
      subst e1 e2
      exact h'
  obtain ⟨_, e1, -⟩ := dassertM_y (ε := ε) m (inRange_y m hx hc.p)
  obtain ⟨_, e2, -⟩ := dassertM_y (ε := ε) m (inRange_y m hy hc.p)
  obtain ⟨_, e1', -⟩ := dassertM_y (ε := ε) m (inRange_y m hxe.1 hc.p)
  obtain ⟨_, e2', -⟩ := dassertM_y (ε := ε) m (inRange_y m hxe.2 hc.p)
  obtain ⟨_, e3, rfl⟩ := isIdentity_y (ε := ε) m hx hy
  obtain ⟨_, e3', rfl⟩ := isIdentity_y (ε := ε) m hxe.1 hxe.2
  obtain ⟨_, e4, rfl⟩ := beq_point_y (ε := ε) m hx hy hxe.1 hxe.2
  have hne : ¬ (x = 0 ∧ y = 0) := fun h => h0 (hz.mpr h)
  unfold addPoints
  simp [e1, e2, e1', e2', e3, e3', e4, hne, hd]

theorem mulLoop_panic :
    ∀ (bits : List Bool) (base result : Point) (B R : (curve (a : ZMod p) b).Point), PointDenotes w base B → PointDenotes w result R →
      MeetsOrderTwo bits.length B → (mulLoop m w c bits base result : Out ε _) = .panic := by
  intro bits
  induction bits with
  | nil =>
    rintro base result B R - - ⟨i, hi, -⟩
    exact absurd hi (Nat.not_lt_zero i)
  | cons bit bits ih =>
    intro base result B R hB hR hkB
    rw [List.length_cons, meets_succ] at hkB
    unfold mulLoop
    by_cases hB2 : B ≠ 0 ∧ B + B = 0
    · have hd := doublePoint_two m hp2 hc hb hinv hB hB2.1 hB2.2
      cases bit
      · simp [hd]
      · by_cases hBR : B = R
        · subst hBR
          simp [addPoints_two m hp2 hc hb hinv hB hR hB2.1 hB2.2]
        · obtain ⟨r, er, -⟩ := addPoints_y (ε := ε) m hp2 hc hb hB hR (fun h => absurd h hBR)
          simp [er, hd]
    · have hord : B = 0 ∨ B + B ≠ 0 := by tauto
      obtain ⟨base', eb, hB'⟩ := doublePoint_y (ε := ε) m hp2 hc hb hB hord
      have hrest := hkB.resolve_left hB2
      cases bit
      · simp [eb, ih base' result _ _ hB' hR hrest]
      · obtain ⟨r, er, hr⟩ := addPoints_y (ε := ε) m hp2 hc hb hB hR (fun _ => hord)
        simp [er, eb, ih base' r _ _ hB' hr hrest]

/-- `mul_point` panics if it meets a point of order two. -/
theorem mulPoint_panic {pt : Point} {xn : BInt} {n : Nat} {P : (curve (a : ZMod p) b).Point} (h : PointDenotes w pt P) (hn : Denotes w xn n)
    (hk : MeetsOrderTwo (bitLength n) P) : (mulPoint m w c pt xn : Out ε _) = .panic := by
  obtain ⟨x, y, hx, hy, -, -⟩ := point_res hb h
  have hn0 : (n : Int) ≠ 0 := by
    intro h0
    have : n = 0 := by omega
    subst this
    obtain ⟨i, hi, -⟩ := hk
    exact absurd hi (Nat.not_lt_zero i)
  obtain ⟨_, e1, -⟩ := dassertM_y (ε := ε) m (geZero_y m hx (Int.natCast_nonneg _))
  obtain ⟨_, e2, -⟩ := dassertM_y (ε := ε) m (geZero_y m hy (Int.natCast_nonneg _))
  obtain ⟨_, e3, -⟩ := dassertM_y (ε := ε) m (geZero_y m hn (Int.natCast_nonneg _))
  obtain ⟨_, e4, rfl⟩ := isZero_y (ε := ε) m hn
  obtain ⟨r, e5, hr⟩ := identity_y (ε := ε) (w := w)
  obtain ⟨_, e6, rfl⟩ := leBits_y (ε := ε) m hn
  unfold mulPoint
  simp only [e1, e2, e3, e4, e5, e6, Out.bind_ok, decide_eq_false hn0, Bool.false_eq_true, if_false]
  exact mulLoop_panic m hp2 hc hb hinv _ pt r P 0 h hr (by rwa [List.length_map, List.length_range, Int.natAbs_natCast])

end

end LCT.Curve
