import Verif.Spec.Curve
import Mathlib.Algebra.Field.ZMod
import Mathlib.Tactic.LinearCombination

/-!
# Computing multiples of a point inside the kernel

Affine formulas over natural numbers reduced modulo a multiple of `p`; the inverse is computed by a helper about which nothing is proved and checked
before use.  Used to establish the order of concrete base points.
-/

namespace LCT.Certify
open LCT.Spec
open WeierstrassCurve.Affine (Point.some Point.zero)

/-- The coefficient of `b` in the extended Euclidean algorithm, modulo `p`. -/
def inverseLoop (p : Nat) : Nat → Nat → Nat → Nat → Nat → Nat
  | 0, _, _, _, t => t
  | k + 1, r, r', t, t' => bif r' == 0 then t else inverseLoop p k r' (r % r') t' ((t + (p - r / r' * t' % p)) % p)

/-- A candidate for the inverse of `a` modulo `p`. -/
def inverse (p a : Nat) : Nat := inverseLoop p (2 * p.log2 + 10) p (a % p) 0 1

/-- The third point on the line of slope `l` through points with abscissas `x1`, `x2`, reflected. -/
def third (p l x1 x2 y1 : Nat) : Nat × Nat :=
  let x3 := (l * l + (p - x1) + (p - x2)) % p
  (x3, (l * (x1 + (p - x3)) + (p - y1)) % p)

def double (p a : Nat) (q : Nat × Nat) : Option (Nat × Nat) :=
  let i := inverse p (2 * q.2)
  bif Nat.ble q.1 p && Nat.ble q.2 p && (2 * q.2 * i % p == 1) then
    some (third p ((3 * q.1 * q.1 + a) * i % p) q.1 q.1 q.2)
  else none

def add (p : Nat) (q r : Nat × Nat) : Option (Nat × Nat) :=
  let i := inverse p (r.1 + (p - q.1))
  bif Nat.ble q.1 p && Nat.ble r.1 p && Nat.ble q.2 p && ((r.1 + (p - q.1)) * i % p == 1) then
    some (third p ((r.2 + (p - q.2)) * i % p) q.1 r.1 q.2)
  else none

/-- `k` times `g`, by halving `k`. -/
def mul (p a : Nat) (g : Nat × Nat) : Nat → Nat → Option (Nat × Nat)
  | 0, _ => none
  | f + 1, k =>
    bif k == 1 then some g else bif k == 0 then none else
      match mul p a g f (k / 2) with
      | none => none
      | some h =>
        match double p a h with
        | none => none
        | some d => bif k % 2 == 0 then some d else add p d g

variable {p N : Nat} [hpr : Fact p.Prime] {a : Nat} {A B : ZMod p}

/-- `q` are the coordinates of `P`. -/
def Is (P : (curve A B).Point) (q : Nat × Nat) : Prop :=
  ∃ h, P = Point.some (q.1 : ZMod p) (q.2 : ZMod p) h

theorem is_of {r : Nat × Nat} {x y : ZMod p} {h : (curve A B).Nonsingular x y} (hx : (r.1 : ZMod p) = x)
    (hy : (r.2 : ZMod p) = y) : Is (Point.some x y h) r := by
  subst hx hy; exact ⟨h, rfl⟩

/-- Residues modulo a multiple of `p` determine residues modulo `p`. -/
theorem cast_mod_of (hd : p ∣ N) (x : Nat) : ((x % N : Nat) : ZMod p) = x := by
  rw [ZMod.natCast_eq_natCast_iff', Nat.mod_mod_of_dvd _ hd]

theorem cast_sub_of (hd : p ∣ N) {x : Nat} (h : x ≤ N) : ((N - x : Nat) : ZMod p) = -(x : ZMod p) := by
  rw [Nat.cast_sub h, (ZMod.natCast_eq_zero_iff _ _).mpr hd, zero_sub]

theorem cast_sub_p {x : Nat} (h : x ≤ p) : ((p - x : Nat) : ZMod p) = -(x : ZMod p) := cast_sub_of dvd_rfl h

theorem third_cast_of (hd : p ∣ N) {l x1 x2 y1 : Nat} (h1 : x1 ≤ N) (h2 : x2 ≤ N) (h3 : y1 ≤ N) (hp : 0 < N) :
    ((third N l x1 x2 y1).1 : ZMod p) = (l : ZMod p) ^ 2 - x1 - x2 ∧
    ((third N l x1 x2 y1).2 : ZMod p) = (l : ZMod p) * (x1 - ((l : ZMod p) ^ 2 - x1 - x2)) - y1 := by
  have e1 : ((third N l x1 x2 y1).1 : ZMod p) = (l : ZMod p) ^ 2 - x1 - x2 := by
    simp only [third, cast_mod_of hd, Nat.cast_add, Nat.cast_mul, cast_sub_of hd h1, cast_sub_of hd h2]
    ring
  refine ⟨e1, ?_⟩
  rw [← e1]
  have hle : (third N l x1 x2 y1).1 ≤ N := (Nat.mod_lt _ hp).le
  show (((l * (x1 + (N - (third N l x1 x2 y1).1)) + (N - y1)) % N : Nat) : ZMod p) = _
  rw [cast_mod_of hd, Nat.cast_add, Nat.cast_mul, Nat.cast_add, cast_sub_of hd hle, cast_sub_of hd h3]
  ring

theorem double_is_of (hd : p ∣ N) (hN : 0 < N) (hA : A = a) {P : (curve A B).Point} {q r : Nat × Nat} (h : Is P q)
    (e : double N a q = some r) : Is (P + P) r := by
  obtain ⟨hn, rfl⟩ := h
  simp only [double] at e
  generalize inverse N (2 * q.2) = i at e
  rw [Bool.cond_eq_ite] at e
  split at e
  case isFalse => simp at e
  case isTrue hc =>
    simp only [Bool.and_eq_true, Nat.ble_eq, beq_iff_eq] at hc
    obtain ⟨⟨hx, hy⟩, hi⟩ := hc
    have hi' : (2 * (q.2 : ZMod p)) * (i : ZMod p) = 1 := by
      have := congrArg (Nat.cast : Nat → ZMod p) hi
      rw [cast_mod_of hd] at this
      push_cast at this; exact this
    have h2y : 2 * (q.2 : ZMod p) ≠ 0 := left_ne_zero_of_mul_eq_one hi'
    have hinv : (i : ZMod p) = (2 * (q.2 : ZMod p))⁻¹ := (inv_eq_of_mul_eq_one_right hi').symm
    have hne : (q.2 : ZMod p) ≠ (curve A B).negY q.1 q.2 := by
      intro h
      apply h2y
      simp only [WeierstrassCurve.Affine.negY, zero_mul, sub_zero] at h
      linear_combination h
    rw [WeierstrassCurve.Affine.Point.add_self_of_Y_ne hne]
    simp only [Option.some.injEq] at e
    have hl : (((3 * q.1 * q.1 + a) * i % N : Nat) : ZMod p) = (curve A B).slope q.1 q.1 q.2 q.2 := by
      rw [WeierstrassCurve.Affine.slope_of_Y_ne rfl hne, cast_mod_of hd]
      have : (q.2 : ZMod p) - (curve A B).negY q.1 q.2 = 2 * q.2 := by
        simp only [WeierstrassCurve.Affine.negY]; ring
      rw [this, div_eq_mul_inv, ← hinv, hA]
      push_cast; ring
    obtain ⟨t1, t2⟩ := third_cast_of hd (l := (3 * q.1 * q.1 + a) * i % N) hx hx hy hN
    rw [e, hl] at t1 t2
    refine is_of ?_ ?_
    · rw [t1, WeierstrassCurve.Affine.addX]; ring
    · rw [t2, WeierstrassCurve.Affine.addY, WeierstrassCurve.Affine.negAddY, WeierstrassCurve.Affine.negY, WeierstrassCurve.Affine.addX]
      ring

theorem add_is_of (hd : p ∣ N) (hN : 0 < N) {P Q : (curve A B).Point} {q q' r : Nat × Nat} (h : Is P q) (h' : Is Q q')
    (e : add N q q' = some r) : Is (P + Q) r := by
  obtain ⟨hn, rfl⟩ := h
  obtain ⟨hn', rfl⟩ := h'
  simp only [add] at e
  generalize inverse N _ = i at e
  rw [Bool.cond_eq_ite] at e
  split at e
  case isFalse => simp at e
  case isTrue hc =>
    simp only [Bool.and_eq_true, Nat.ble_eq, beq_iff_eq] at hc
    obtain ⟨⟨⟨hx, hx'⟩, hy⟩, hi⟩ := hc
    have hi' : ((q'.1 : ZMod p) - q.1) * (i : ZMod p) = 1 := by
      have := congrArg (Nat.cast : Nat → ZMod p) hi
      rw [cast_mod_of hd] at this
      rw [Nat.cast_mul, Nat.cast_add, cast_sub_of hd hx, Nat.cast_one] at this
      rw [← this]; ring
    have hsub : (q'.1 : ZMod p) - q.1 ≠ 0 := left_ne_zero_of_mul_eq_one hi'
    have hne : (q.1 : ZMod p) ≠ q'.1 := fun h => hsub (by rw [h, sub_self])
    have hinv : (i : ZMod p) = ((q'.1 : ZMod p) - q.1)⁻¹ := (inv_eq_of_mul_eq_one_right hi').symm
    rw [WeierstrassCurve.Affine.Point.add_of_X_ne hne]
    simp only [Option.some.injEq] at e
    have hl : (((q'.2 + (N - q.2)) * i % N : Nat) : ZMod p) = (curve A B).slope q.1 q'.1 q.2 q'.2 := by
      rw [WeierstrassCurve.Affine.slope_of_X_ne hne, cast_mod_of hd, Nat.cast_mul, Nat.cast_add, cast_sub_of hd hy, hinv,
        ← neg_sub (q'.1 : ZMod p) q.1, ← neg_sub (q'.2 : ZMod p) q.2, neg_div_neg_eq, div_eq_mul_inv]
      ring
    obtain ⟨t1, t2⟩ := third_cast_of hd (l := (q'.2 + (N - q.2)) * i % N) hx hx' hy hN
    rw [e, hl] at t1 t2
    refine is_of ?_ ?_
    · rw [t1, WeierstrassCurve.Affine.addX]; ring
    · rw [t2, WeierstrassCurve.Affine.addY, WeierstrassCurve.Affine.negAddY, WeierstrassCurve.Affine.negY, WeierstrassCurve.Affine.addX]
      ring

theorem mul_is_of (hd : p ∣ N) (hN : 0 < N) (hA : A = a) {G : (curve A B).Point} {g : Nat × Nat} (hg : Is G g) : ∀ (f k : Nat) (r : Nat × Nat),
    mul N a g f k = some r → Is (k • G) r := by
  intro f
  induction f with
  | zero => intro k r h; simp [mul] at h
  | succ f ih =>
    intro k r h
    unfold mul at h
    simp only [Bool.cond_eq_ite, beq_iff_eq] at h
    split at h
    · rename_i hk
      cases h
      rw [hk, one_nsmul]; exact hg
    split at h
    · cases h
    split at h
    · cases h
    rename_i q hq
    split at h
    · cases h
    rename_i d hdbl
    have h1 := double_is_of hd hN hA (ih _ _ hq) hdbl
    have hk : k • G = (k / 2) • G + (k / 2) • G + (k % 2) • G := by
      rw [← add_nsmul, ← add_nsmul]
      congr 1; omega
    split at h
    · rename_i h0
      cases h
      rw [hk, h0, zero_nsmul, add_zero]; exact h1
    · have h0 : k % 2 = 1 := by omega
      rw [hk, h0, one_nsmul]
      exact add_is_of hd hN h1 hg h

/-- If `k` times the point `(x, y)` is `(x, -y)`, then `k + 1` times the point is zero. -/
theorem order_of_mod (hd : p ∣ N) (hN : 0 < N) (hA : A = a) {G : (curve A B).Point} {x y k f : Nat} (hg : Is G (x, y)) (hy : y ≤ N)
    (h : mul N a (x, y) f k = some (x, N - y)) : (k + 1) • G = 0 := by
  obtain ⟨hn, e⟩ := mul_is_of hd hN hA hg f k _ h
  rw [add_nsmul, one_nsmul, e]
  obtain ⟨hn', rfl⟩ := hg
  apply WeierstrassCurve.Affine.Point.add_of_Y_eq rfl
  simp only [WeierstrassCurve.Affine.negY, zero_mul, sub_zero]
  exact cast_sub_of hd hy

theorem double_is (hA : A = a) {P : (curve A B).Point} {q r : Nat × Nat} (h : Is P q) (e : double p a q = some r) : Is (P + P) r :=
  double_is_of dvd_rfl hpr.out.pos hA h e

theorem mul_is (hA : A = a) {G : (curve A B).Point} {g : Nat × Nat} (hg : Is G g) (f k : Nat) (r : Nat × Nat) (h : mul p a g f k = some r) :
    Is (k • G) r := mul_is_of dvd_rfl hpr.out.pos hA hg f k r h

theorem order_of (hA : A = a) {G : (curve A B).Point} {x y k f : Nat} (hg : Is G (x, y)) (hy : y ≤ p)
    (h : mul p a (x, y) f k = some (x, p - y)) : (k + 1) • G = 0 := order_of_mod dvd_rfl hpr.out.pos hA hg hy h

end LCT.Certify
