import Verif.Model.BigInt.Gcd
import Verif.Lemmas.BigInt.DivLoop

namespace LCT.BigInt
open LCT.Spec
variable {ε : Type}

/-! ## The single-precision cosequences (pure arithmetic) -/

/-- `+1` after an even number of iterations, `-1` after an odd number. -/
def sg (odd : Bool) : Int := if odd then 1 else -1

theorem sg_mul_self (o : Bool) : sg o * sg o = 1 := by cases o <;> rfl
theorem sg_not (o : Bool) : sg (!o) = - sg o := by cases o <;> rfl

/-- What the variables `u0 u1 v0 v1` are good for once the loop has run at least once. -/
structure Good (A B : Int) (odd : Bool) (u0 u1 v0 v1 : Int) : Prop where
  det : u0 * v1 - u1 * v0 = - sg odd
  pos : 0 < sg odd * (u1 * A - v1 * B)
  lt : sg odd * (u1 * A - v1 * B) < - sg odd * (u0 * A - v0 * B)
  le_a : - sg odd * (u0 * A - v0 * B) ≤ A
  le_b : sg odd * (u1 * A - v1 * B) ≤ B
  le_b0 : v0 ≠ 0 → - sg odd * (u0 * A - v0 * B) ≤ B

/-- Invariant of the single-precision loop: `ah = A / K`, `bh = B / K`. -/
structure DInv (K A B : Int) (ah bh : Nat) (s : Dpcc) : Prop where
  yx : s.y ≤ s.x
  xah : s.x ≤ ah
  vsum : s.v2 * s.x + s.v1 * s.y = ah
  usum : s.u2 * s.x + s.u1 * s.y = bh
  xeq : (s.x : Int) = sg s.odd * (s.u1 * ah - s.v1 * bh)
  yeq : (s.y : Int) = - sg s.odd * (s.u2 * ah - s.v2 * bh)
  det : (s.u1 * s.v2 - s.u2 * s.v1 : Int) = sg s.odd
  v2pos : 1 ≤ s.v2
  u2v2 : s.u2 ≤ s.v2
  bnd : s.u0 ≤ max ah 1 ∧ s.u1 ≤ max ah 1 ∧ s.u2 ≤ max ah 1 ∧ s.v0 ≤ max ah 1 ∧ s.v1 ≤ max ah 1 ∧ s.v2 ≤ max ah 1
  stage : (s.odd = true ∧ s.u0 = 0 ∧ s.u1 = 1 ∧ s.u2 = 0 ∧ s.v0 = 0 ∧ s.v1 = 0 ∧ s.v2 = 1) ∨
    (s.u1 ≤ s.v1 ∧ 1 ≤ s.v1 ∧ Good A B s.odd s.u0 s.u1 s.v0 s.v1)

theorem err_bound {K a b u v : Int} (ha0 : 0 ≤ a) (ha : a < K) (hb0 : 0 ≤ b) (hb : b < K) (hu0 : 0 ≤ u) (huv : u ≤ v) (hv : 1 ≤ v)
    (o : Bool) : - (K * v) < sg o * (u * a - v * b) ∧ sg o * (u * a - v * b) < K * v := by
  have h1 : 0 ≤ u * a := mul_nonneg hu0 ha0
  have h2 : u * a ≤ v * a := mul_le_mul_of_nonneg_right huv ha0
  have h3 : v * a ≤ v * (K - 1) := mul_le_mul_of_nonneg_left (by omega) (by omega)
  have h4 : 0 ≤ v * b := mul_nonneg (by omega) hb0
  have h5 : v * b ≤ v * (K - 1) := mul_le_mul_of_nonneg_left (by omega) (by omega)
  have e : v * (K - 1) = K * v - v := by ring
  cases o <;> simp only [sg, Bool.false_eq_true, if_false, if_true] <;> constructor <;> omega

/-- One iteration. -/
theorem DInv.step {K A B : Int} {ah bh : Nat} {a b : Int} (hA : A = K * ah + a) (hB : B = K * bh + b) (ha0 : 0 ≤ a) (ha : a < K)
    (hb0 : 0 ≤ b) (hb : b < K) (hBA : B < A) (hB0 : 0 < B) (hbah : bh ≤ ah) {s : Dpcc} (h : DInv K A B ah bh s)
    (c1 : s.v2 ≤ s.y) (c2 : s.v1 + s.v2 ≤ s.x - s.y) :
    DInv K A B ah bh ⟨s.y, s.x % s.y, s.u1, s.u2, s.u1 + s.x / s.y * s.u2, s.v1, s.v2, s.v1 + s.x / s.y * s.v2, !s.odd⟩ ∧
      s.u1 + s.x / s.y * s.u2 ≤ bh ∧ s.v1 + s.x / s.y * s.v2 ≤ ah := by
  obtain ⟨x, y, u0, u1, u2, v0, v1, v2, o⟩ := s
  obtain ⟨yx, xah, vsum, usum, xeq, yeq, det, v2pos, u2v2, bnd, stage⟩ := h
  simp only at *
  have hy : 1 ≤ y := by omega
  have hdm := Nat.div_add_mod x y
  have hml : x % y < y := Nat.mod_lt _ hy
  have hq : 1 ≤ x / y := Nat.div_pos yx hy
  generalize x / y = q at *
  generalize x % y = r at *
  have vsum' : (v1 + q * v2) * y + v2 * r = ah := by rw [← vsum, ← hdm]; ring
  have usum' : (u1 + q * u2) * y + u2 * r = bh := by rw [← usum, ← hdm]; ring
  have hK : 0 < K := by omega
  -- the true remainders of the current state
  have ri : sg o * (u1 * A - v1 * B) = K * x + sg o * (u1 * a - v1 * b) := by
    rw [hA, hB, xeq]; ring
  have rj : - sg o * (u2 * A - v2 * B) = K * y - sg o * (u2 * a - v2 * b) := by
    rw [hA, hB, yeq]; ring
  have ej := err_bound ha0 ha hb0 hb (u := u2) (v := v2) (by omega) (by exact_mod_cast u2v2) (by exact_mod_cast v2pos) o
  have kc1 : K * (v2 : Int) ≤ K * y := mul_le_mul_of_nonneg_left (by exact_mod_cast c1) (by omega)
  have rjpos : 0 < - sg o * (u2 * A - v2 * B) := by rw [rj]; omega
  have hbnd : u1 + q * u2 ≤ bh ∧ v1 + q * v2 ≤ ah := by
    constructor
    · have : (u1 + q * u2) * 1 ≤ (u1 + q * u2) * y := Nat.mul_le_mul_left _ hy
      omega
    · have : (v1 + q * v2) * 1 ≤ (v1 + q * v2) * y := Nat.mul_le_mul_left _ hy
      omega
  refine ⟨⟨hml.le, le_trans yx xah, vsum', usum', ?_, ?_, ?_, ?_, ?_, ⟨bnd.2.1, bnd.2.2.1, le_trans hbnd.1 (le_trans hbah (le_max_left _ _)), bnd.2.2.2.2.1, bnd.2.2.2.2.2, le_trans hbnd.2 (le_max_left _ _)⟩, Or.inr ⟨u2v2, v2pos, ?_⟩⟩, hbnd⟩
  · show (y : Int) = _
    rw [sg_not, yeq]
  · show (r : Int) = _
    have hr : (r : Int) = x - q * y := by rw [← hdm]; push_cast; ring
    rw [sg_not, hr, xeq, yeq]; push_cast; ring
  · show ((u2 : Int) * ((v1 + q * v2 : Nat) : Int) - ((u1 + q * u2 : Nat) : Int) * v2) = _
    rw [sg_not, ← det]; push_cast; ring
  · show 1 ≤ v1 + q * v2
    have : 1 * v2 ≤ q * v2 := Nat.mul_le_mul_right _ hq
    omega
  · show u1 + q * u2 ≤ v1 + q * v2
    rcases stage with ⟨-, -, hu1, hu2, -, hv1, hv2⟩ | ⟨h1, -, -⟩
    · rw [hu1, hu2, hv1, hv2]; omega
    · have := Nat.mul_le_mul_left q u2v2
      omega
  · have hnn : - -sg o = sg o := by ring
    rcases stage with ⟨ho, hu0, hu1, hu2, hv0, hv1, hv2⟩ | ⟨h1, h2, g⟩
    · subst ho hu0 hu1 hu2 hv0 hv1 hv2
      constructor <;> simp [sg] <;> first | done | omega
    · have ei := err_bound ha0 ha hb0 hb (u := u1) (v := v1) (by omega) (by exact_mod_cast h1) (by exact_mod_cast h2) o
      have kc2 : K * ((v1 : Int) + v2) ≤ K * (x - y) := mul_le_mul_of_nonneg_left (by omega) (by omega)
      have e1 : K * ((v1 : Int) + v2) = K * v1 + K * v2 := by ring
      have e2 : K * ((x : Int) - y) = K * x - K * y := by ring
      have hlt : - sg o * (u2 * A - v2 * B) < sg o * (u1 * A - v1 * B) := by rw [ri, rj]; omega
      have g1 := g.lt
      have g2 := g.le_a
      have g3 := g.le_b
      refine ⟨?_, ?_, ?_, ?_, ?_, ?_⟩
      · rw [sg_not, hnn, ← det]
      · rw [sg_not]; exact rjpos
      · rw [sg_not, hnn]; exact hlt
      · rw [sg_not, hnn]; exact le_trans g1.le g2
      · rw [sg_not]; exact le_trans hlt.le g3
      · intro _; rw [sg_not, hnn]; exact g3

theorem DInv.init {K A B : Int} {ah bh : Nat} (h : bh ≤ ah) : DInv K A B ah bh ⟨ah, bh, 0, 1, 0, 0, 0, 1, true⟩ := by
  constructor <;> simp [sg, h]

theorem addDg_ok (m : Build) {w a b : Nat} (h : a + b < 2 ^ w) : (addDg m w a b : Out ε Nat) = .ok (a + b) := if_pos h
theorem mulDg_ok (m : Build) {w a b : Nat} (h : a * b < 2 ^ w) : (mulDg m w a b : Out ε Nat) = .ok (a * b) := if_pos h

/-- A step of Euclid's algorithm halves the product of the two numbers. -/
theorem euclid_halves {x y k : Nat} (h : y ≤ x) (hy : 1 ≤ y) (hk : x * y < 2 ^ (k + 1)) : y * (x % y) < 2 ^ k := by
  have h1 := Nat.div_add_mod x y
  have h2 := Nat.mod_lt x hy
  have h3 : y * 1 ≤ y * (x / y) := Nat.mul_le_mul_left _ (Nat.div_pos h hy)
  have h4 : y * (2 * (x % y)) ≤ y * x := Nat.mul_le_mul_left _ (by omega)
  rw [Nat.pow_succ, Nat.mul_comm x y] at hk
  rw [Nat.mul_left_comm] at h4
  omega

/-- The loop ends after as many rounds as the product of `x` and `y` has bits, and one more for the last test. -/
theorem dpccLoop_spec (m : Build) {w : Nat} {K A B : Int} {ah bh : Nat} {a b : Int} (hA : A = K * ah + a) (hB : B = K * bh + b)
    (ha0 : 0 ≤ a) (ha : a < K) (hb0 : 0 ≤ b) (hb : b < K) (hBA : B < A) (hB0 : 0 < B) (hbh : bh ≤ ah) (hah : ah < 2 ^ w)
    (fuel : Nat) (s : Dpcc) (h : DInv K A B ah bh s) (hf : s.x * s.y < 2 ^ fuel) :
    ∃ s', (dpccLoop m w (fuel + 1) s : Out ε _) = .ok s' ∧ DInv K A B ah bh s' := by
  induction fuel generalizing s with
  | zero =>
    have hy0 : s.y = 0 := by
      by_contra hc
      have h1 := Nat.mul_le_mul h.yx (Nat.le_refl s.y)
      have h2 : 1 ≤ s.y * s.y := Nat.mul_pos (by omega) (by omega)
      simp only [Nat.pow_zero] at hf
      omega
    have hv2 := h.v2pos
    simp only [dpccLoop]
    rw [if_neg (by omega)]
    exact ⟨s, rfl, h⟩
  | succ fuel ih =>
    generalize hn : fuel + 1 = n at ih ⊢
    simp only [dpccLoop]
    by_cases c1 : s.v2 ≤ s.y
    · rw [if_pos c1, subU_ok m h.yx, Out.bind_ok]
      have hv2 := h.v2pos
      have hs : s.v1 + s.v2 ≤ ah := by
        have h1 := h.vsum
        have h2 : s.v2 * 1 ≤ s.v2 * s.x := Nat.mul_le_mul_left _ (by have := h.yx; omega)
        have h3 : s.v1 * 1 ≤ s.v1 * s.y := Nat.mul_le_mul_left _ (by omega)
        omega
      rw [addDg_ok m (by omega), Out.bind_ok]
      by_cases c2 : s.v1 + s.v2 ≤ s.x - s.y
      · obtain ⟨hstep, b1, b2⟩ := h.step hA hB ha0 ha hb0 hb hBA hB0 hbh c1 c2
        rw [if_pos c2, if_neg (by omega), mulDg_ok m (by omega), Out.bind_ok, addDg_ok m (by omega), Out.bind_ok,
          mulDg_ok m (by omega), Out.bind_ok, addDg_ok m (by omega), Out.bind_ok]
        refine ih _ hstep ?_
        show s.y * (s.x % s.y) < 2 ^ fuel
        exact euclid_halves h.yx (by omega) hf
      · rw [if_neg c2]; exact ⟨s, rfl, h⟩
    · rw [if_neg c1]; exact ⟨s, rfl, h⟩

end LCT.BigInt
