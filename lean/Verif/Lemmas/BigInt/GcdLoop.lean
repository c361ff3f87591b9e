import Verif.Lemmas.BigInt.Gcd
import Mathlib.Algebra.Order.Ring.Abs
import Mathlib.Algebra.Ring.Divisibility.Basic
import Mathlib.Algebra.Order.Ring.Int

namespace LCT.BigInt
open LCT.Spec
variable {ε : Type}

/-! ## The outer loop -/

/-- The cosequence relations between the two current remainders `A > B` and their coefficients. -/
structure Rel (a0 b0 A B UA UB : Int) : Prop where
  lt : B < A
  nonneg : 0 ≤ B
  le : A ≤ a0
  opp : UA * UB ≤ 0
  sum : |UB| * A + |UA| * B = a0
  dvdA : a0 ∣ A - UA * b0
  dvdB : a0 ∣ B - UB * b0
  common : ∀ d : Int, d ∣ A ∧ d ∣ B ↔ d ∣ a0 ∧ d ∣ b0

theorem abs_sub_of_opp {x y : Int} (h : x * y ≤ 0) : |x - y| = |x| + |y| := by
  rcases le_total 0 x with hx | hx <;> rcases le_total 0 y with hy | hy
  · have : x * y = 0 := le_antisymm h (mul_nonneg hx hy)
    rcases mul_eq_zero.mp this with rfl | rfl <;> simp
  · rw [abs_of_nonneg hx, abs_of_nonpos hy, abs_of_nonneg (by omega)]; ring
  · rw [abs_of_nonpos hx, abs_of_nonneg hy, abs_of_nonpos (by omega)]; ring
  · have : x * y = 0 := le_antisymm h (mul_nonneg_of_nonpos_of_nonpos hx hy)
    rcases mul_eq_zero.mp this with rfl | rfl <;> simp

theorem Rel.init {a0 b0 : Int} (h : b0 < a0) (hb : 0 < b0) : Rel a0 b0 a0 b0 0 1 := by
  refine ⟨h, hb.le, le_rfl, by simp, by simp, by simp, by simp, fun d => Iff.rfl⟩

theorem Rel.euclid {a0 b0 A B UA UB : Int} (h : Rel a0 b0 A B UA UB) (hB : B ≠ 0) :
    Rel a0 b0 B (A % B) UB (UA - A / B * UB) ∧ |UA - A / B * UB| = |UA| + A / B * |UB| ∧ |UA| + A / B * |UB| ≤ a0 := by
  have hB0 : 0 < B := lt_of_le_of_ne h.nonneg (Ne.symm hB)
  have hdm := Int.mul_ediv_add_emod A B
  have hm0 := Int.emod_nonneg A hB
  have hml := Int.emod_lt_of_pos A hB0
  have hq0 : 0 ≤ A / B := Int.ediv_nonneg (by have := h.lt; omega) hB0.le
  generalize A / B = q at *
  generalize A % B = r at *
  obtain ⟨lt, -, le, opp, sum, dvdA, dvdB, common⟩ := h
  have habs : |UA - q * UB| = |UA| + q * |UB| := by
    rw [abs_sub_of_opp, abs_mul, abs_of_nonneg hq0]
    have : UA * (q * UB) = q * (UA * UB) := by ring
    rw [this]; exact mul_nonpos_of_nonneg_of_nonpos hq0 opp
  have hsum : |UA - q * UB| * B + |UB| * r = a0 := by rw [habs, ← sum, ← hdm]; ring
  refine ⟨⟨hml, hm0, by omega, ?_, hsum, dvdB, ?_, ?_⟩, habs, ?_⟩
  · have : UB * (UA - q * UB) = UA * UB - q * (UB * UB) := by ring
    rw [this]
    have := mul_nonneg hq0 (mul_self_nonneg UB)
    omega
  · have : r - (UA - q * UB) * b0 = (A - UA * b0) - q * (B - UB * b0) := by rw [← hdm]; ring
    rw [this]; exact dvd_sub dvdA (Dvd.dvd.mul_left dvdB q)
  · intro d
    rw [← common d, ← hdm]
    constructor
    · rintro ⟨h1, h2⟩; exact ⟨dvd_add (Dvd.dvd.mul_right h1 q) h2, h1⟩
    · rintro ⟨h1, h2⟩; exact ⟨h2, (dvd_add_right (Dvd.dvd.mul_right h2 q)).mp h1⟩
  · rw [← habs]
    have h1 : |UA - q * UB| * 1 ≤ |UA - q * UB| * B := mul_le_mul_of_nonneg_left (by omega) (abs_nonneg _)
    have h2 : 0 ≤ |UB| * r := mul_nonneg (abs_nonneg _) hm0
    omega

theorem Rel.lehmer {a0 b0 A B UA UB : Int} (h : Rel a0 b0 A B UA UB) {o : Bool} {u0 u1 v0 v1 : Int} (hu0 : 0 ≤ u0) (hu1 : 0 ≤ u1)
    (hv0 : 0 < v0) (hv1 : 0 ≤ v1) (g : Good A B o u0 u1 v0 v1) :
    Rel a0 b0 (-sg o * (u0 * A - v0 * B)) (sg o * (u1 * A - v1 * B)) (-sg o * (u0 * UA - v0 * UB)) (sg o * (u1 * UA - v1 * UB)) ∧
      u0 * |UA| + v0 * |UB| ≤ a0 ∧ u1 * |UA| + v1 * |UB| ≤ a0 ∧ |-sg o * (u0 * UA - v0 * UB)| = u0 * |UA| + v0 * |UB| ∧
      |sg o * (u1 * UA - v1 * UB)| = u1 * |UA| + v1 * |UB| := by
  obtain ⟨lt, nonneg, le, opp, sum, dvdA, dvdB, common⟩ := h
  obtain ⟨det, pos, glt, gla, glb, glb0⟩ := g
  have hss := sg_mul_self o
  have habs : ∀ u v : Int, 0 ≤ u → 0 ≤ v → |sg o * (u * UA - v * UB)| = u * |UA| + v * |UB| := by
    intro u v hu hv
    have h1 : |sg o| = 1 := by cases o <;> simp [sg]
    rw [abs_mul, h1, one_mul, abs_sub_of_opp, abs_mul, abs_mul, abs_of_nonneg hu, abs_of_nonneg hv]
    have : u * UA * (v * UB) = u * v * (UA * UB) := by ring
    rw [this]; exact mul_nonpos_of_nonneg_of_nonpos (mul_nonneg hu hv) opp
  have habs0 : |-sg o * (u0 * UA - v0 * UB)| = u0 * |UA| + v0 * |UB| := by
    rw [← habs u0 v0 hu0 hv0.le, neg_mul, abs_neg]
  have habs1 := habs u1 v1 hu1 hv1
  have hsum : |sg o * (u1 * UA - v1 * UB)| * (-sg o * (u0 * A - v0 * B)) +
      |-sg o * (u0 * UA - v0 * UB)| * (sg o * (u1 * A - v1 * B)) = a0 := by
    rw [habs0, habs1, ← sum]
    have : (u1 * |UA| + v1 * |UB|) * (-sg o * (u0 * A - v0 * B)) + (u0 * |UA| + v0 * |UB|) * (sg o * (u1 * A - v1 * B))
      = -sg o * (u0 * v1 - u1 * v0) * (|UB| * A + |UA| * B) := by ring
    rw [this, det, neg_mul_neg, hss, one_mul]
  refine ⟨⟨glt, pos.le, le_trans (glb0 hv0.ne') (le_trans lt.le le), ?_, hsum, ?_, ?_, ?_⟩, ?_, ?_, habs0, habs1⟩
  · have : -sg o * (u0 * UA - v0 * UB) * (sg o * (u1 * UA - v1 * UB))
        = - (sg o * sg o) * (u0 * u1 * (UA * UA) + v0 * v1 * (UB * UB) - (u0 * v1 + u1 * v0) * (UA * UB)) := by ring
    rw [this, hss]
    have h1 := mul_nonneg (mul_nonneg hu0 hu1) (mul_self_nonneg UA)
    have h2 := mul_nonneg (mul_nonneg hv0.le hv1) (mul_self_nonneg UB)
    have h3 := mul_nonpos_of_nonneg_of_nonpos (add_nonneg (mul_nonneg hu0 hv1) (mul_nonneg hu1 hv0.le)) opp
    omega
  · have : -sg o * (u0 * A - v0 * B) - -sg o * (u0 * UA - v0 * UB) * b0
        = -sg o * u0 * (A - UA * b0) + sg o * v0 * (B - UB * b0) := by ring
    rw [this]; exact dvd_add (Dvd.dvd.mul_left dvdA _) (Dvd.dvd.mul_left dvdB _)
  · have : sg o * (u1 * A - v1 * B) - sg o * (u1 * UA - v1 * UB) * b0
        = sg o * u1 * (A - UA * b0) - sg o * v1 * (B - UB * b0) := by ring
    rw [this]; exact dvd_sub (Dvd.dvd.mul_left dvdA _) (Dvd.dvd.mul_left dvdB _)
  · intro d
    rw [← common d]
    constructor
    · rintro ⟨h1, h2⟩
      have eA : A = sg o * sg o * A := by rw [hss]; ring
      have eB : B = sg o * sg o * B := by rw [hss]; ring
      have e1 : A = v1 * (-sg o * (u0 * A - v0 * B)) * sg o * sg o + v0 * (sg o * (u1 * A - v1 * B)) * sg o * sg o := by
        have : v1 * (-sg o * (u0 * A - v0 * B)) * sg o * sg o + v0 * (sg o * (u1 * A - v1 * B)) * sg o * sg o
          = (sg o * sg o) * (-sg o * (u0 * v1 - u1 * v0)) * A := by ring
        rw [this, det, neg_mul_neg, hss]; ring
      have e2 : B = u1 * (-sg o * (u0 * A - v0 * B)) * sg o * sg o + u0 * (sg o * (u1 * A - v1 * B)) * sg o * sg o := by
        have : u1 * (-sg o * (u0 * A - v0 * B)) * sg o * sg o + u0 * (sg o * (u1 * A - v1 * B)) * sg o * sg o
          = (sg o * sg o) * (-sg o * (u0 * v1 - u1 * v0)) * B := by ring
        rw [this, det, neg_mul_neg, hss]; ring
      refine ⟨?_, ?_⟩
      · rw [e1]
        exact dvd_add (Dvd.dvd.mul_right (Dvd.dvd.mul_right (Dvd.dvd.mul_left h1 _) _) _)
          (Dvd.dvd.mul_right (Dvd.dvd.mul_right (Dvd.dvd.mul_left h2 _) _) _)
      · rw [e2]
        exact dvd_add (Dvd.dvd.mul_right (Dvd.dvd.mul_right (Dvd.dvd.mul_left h1 _) _) _)
          (Dvd.dvd.mul_right (Dvd.dvd.mul_right (Dvd.dvd.mul_left h2 _) _) _)
    · rintro ⟨h1, h2⟩
      exact ⟨Dvd.dvd.mul_left (dvd_sub (Dvd.dvd.mul_left h1 _) (Dvd.dvd.mul_left h2 _)) _,
        Dvd.dvd.mul_left (dvd_sub (Dvd.dvd.mul_left h1 _) (Dvd.dvd.mul_left h2 _)) _⟩
  · rw [← habs0]
    have h1 : |-sg o * (u0 * UA - v0 * UB)| * 1 ≤ |-sg o * (u0 * UA - v0 * UB)| * (sg o * (u1 * A - v1 * B)) :=
      mul_le_mul_of_nonneg_left pos (abs_nonneg _)
    have h2 : 0 ≤ |sg o * (u1 * UA - v1 * UB)| * (-sg o * (u0 * A - v0 * B)) := mul_nonneg (abs_nonneg _) (by omega)
    omega
  · rw [← habs1]
    have h1 : |sg o * (u1 * UA - v1 * UB)| * 1 ≤ |sg o * (u1 * UA - v1 * UB)| * (-sg o * (u0 * A - v0 * B)) :=
      mul_le_mul_of_nonneg_left (by omega) (abs_nonneg _)
    have h2 : 0 ≤ |-sg o * (u0 * UA - v0 * UB)| * (sg o * (u1 * A - v1 * B)) := mul_nonneg (abs_nonneg _) (by omega)
    omega

end LCT.BigInt
