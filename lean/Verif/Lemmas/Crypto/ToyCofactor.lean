import Verif.Lemmas.Crypto.Toy

/-!
# Two small curves with a cofactor, for examples

`y² = x³ + 3·x + 5` modulo `389` has `3·139` points, `y² = x³ + 2·x + 6` modulo `257` has `2·139` points.
-/

namespace LCT.Curve
open LCT.Spec
variable {p : Nat} [hpr : Fact p.Prime] {a b : ZMod p}

/-- A curve with points of the prime orders `n` and `h ≠ n`, `h·n ≥ p + 1`, has `h·n` points. -/
theorem card_of_orders (hp2 : p ≠ 2) {n h : Nat} (hn : n.Prime) (hh : h.Prime) (hne : h ≠ n) {G T : (curve a b).Point} (hG : n • G = 0) (hG0 : G ≠ 0)
    (hT : h • T = 0) (hT0 : T ≠ 0) (hle : p + 1 ≤ h * n) : Nat.card (curve a b).Point = h * n := by
  have : Fact n.Prime := ⟨hn⟩
  have : Fact h.Prime := ⟨hh⟩
  have hfin : Finite (curve a b).Point := point_finite hp2
  have hmax : Nat.card (curve a b).Point ≤ 2 * p + 1 := card_le hp2
  have hpos : 0 < Nat.card (curve a b).Point := Nat.card_pos
  have h1 : n ∣ Nat.card (curve a b).Point := addOrderOf_eq_prime hG hG0 ▸ addOrderOf_dvd_natCard G
  have h2 : h ∣ Nat.card (curve a b).Point := addOrderOf_eq_prime hT hT0 ▸ addOrderOf_dvd_natCard T
  obtain ⟨k, hk⟩ := ((Nat.coprime_primes hh hn).mpr hne).mul_dvd_of_dvd_of_dvd h2 h1
  have hk0 : k ≠ 0 := by rintro rfl; omega
  have hk2 : k < 2 := by
    by_contra hc
    have : h * n * 2 ≤ h * n * k := Nat.mul_le_mul_left _ (by omega)
    omega
  rw [hk, show k = 1 by omega, Nat.mul_one]

end LCT.Curve

namespace LCT.Crypto.Toy
open LCT.Spec LCT.Curve LCT.BigInt
open WeierstrassCurve.Affine (Point.some Point.zero)

instance : Fact (Nat.Prime 389) := ⟨by norm_num⟩
instance : Fact (Nat.Prime 257) := ⟨by norm_num⟩
instance : Fact (Nat.Prime 139) := ⟨by norm_num⟩

/-- A two-digit non-negative integer, for 8-bit digits. -/
def pair (hi lo : Nat) : BInt := ⟨[lo, hi], 2, .positive⟩

theorem pair_denotes {hi lo : Nat} (h0 : 0 < hi) (h1 : hi < 256) (h2 : lo < 256) : Denotes 8 (pair hi lo) ((256 * hi + lo : Nat) : Int) := by
  refine ⟨⟨?_, Nat.le_succ 1, Nat.le_refl _, Or.inr ?_, fun d hd => by simp [pair] at hd⟩, ?_⟩
  · intro d hd
    simp only [pair, List.mem_cons, List.not_mem_nil, or_false] at hd
    omega
  · simp [pair]; omega
  · simp [pair, toInt, val]; ring

/-! ## Cofactor 3 -/

abbrev E3 := curve (((3 : Int) : ZMod 389)) (((5 : Int) : ZMod 389))

def params3 : Params := ⟨⟨byte 3, byte 5, pair 1 133⟩, ⟨byte 2, byte 145⟩, byte 139, 3⟩

theorem base3_nonsingular : E3.Nonsingular 2 145 := nonsingular_of_equation (by decide) (by decide) (by decide)
theorem third_nonsingular : E3.Nonsingular 32 54 := nonsingular_of_equation (by decide) (by decide) (by decide)

def G3 : E3.Point := Point.some 2 145 base3_nonsingular

theorem G3_order : 139 • G3 = 0 :=
  Certify.order_of (p := 389) (a := 3) rfl (x := 2) (y := 145) (k := 138) (f := 10) ⟨base3_nonsingular, rfl⟩ (by decide) (by decide +kernel)

theorem G3_ne : G3 ≠ 0 := WeierstrassCurve.Affine.Point.some_ne_zero _

theorem domain3 : Domain 8 params3 389 139 3 5 G3 where
  p_ne := by decide
  n_prime := by norm_num
  n_ne := by decide
  curve := ⟨byte_denotes (by decide), byte_denotes (by decide), pair_denotes (by decide) (by decide) (by decide)⟩
  disc := by decide
  b_ne := by decide
  base := ⟨byte_denotes (by decide), byte_denotes (by decide)⟩
  order := byte_denotes (by decide)
  G_ne := G3_ne
  G_order := G3_order
  card := card_of_orders (by decide) (by norm_num) (show Nat.Prime 3 by norm_num) (by decide) G3_order G3_ne (T := Point.some 32 54 third_nonsingular)
    (Certify.order_of (p := 389) (a := 3) rfl (x := 32) (y := 54) (k := 2) (f := 10) ⟨third_nonsingular, rfl⟩ (by decide) (by decide +kernel))
    (WeierstrassCurve.Affine.Point.some_ne_zero _) (by decide)

/-! ## Cofactor 2 -/

abbrev E2 := curve (((2 : Int) : ZMod 257)) (((6 : Int) : ZMod 257))

def params2 : Params := ⟨⟨byte 2, byte 6, pair 1 1⟩, ⟨byte 1, byte 3⟩, byte 139, 2⟩

theorem base2_nonsingular : E2.Nonsingular 1 3 := nonsingular_of_equation (by decide) (by decide) (by decide)
theorem two_nonsingular : E2.Nonsingular 24 0 := nonsingular_of_equation (by decide) (by decide) (by decide)

def G2 : E2.Point := Point.some 1 3 base2_nonsingular

theorem G2_order : 139 • G2 = 0 :=
  Certify.order_of (p := 257) (a := 2) rfl (x := 1) (y := 3) (k := 138) (f := 10) ⟨base2_nonsingular, rfl⟩ (by decide) (by decide +kernel)

theorem G2_ne : G2 ≠ 0 := WeierstrassCurve.Affine.Point.some_ne_zero _

theorem domain2 : Domain 8 params2 257 139 2 6 G2 where
  p_ne := by decide
  n_prime := by norm_num
  n_ne := by decide
  curve := ⟨byte_denotes (by decide), byte_denotes (by decide), pair_denotes (by decide) (by decide) (by decide)⟩
  disc := by decide
  b_ne := by decide
  base := ⟨byte_denotes (by decide), byte_denotes (by decide)⟩
  order := byte_denotes (by decide)
  G_ne := G2_ne
  G_order := G2_order
  card := card_of_orders (by decide) (by norm_num) (show Nat.Prime 2 by norm_num) (by decide) G2_order G2_ne (T := Point.some 24 0 two_nonsingular)
    (by
      change 2 • _ = _
      rw [two_nsmul]
      exact WeierstrassCurve.Affine.Point.add_of_Y_eq rfl (by simp [WeierstrassCurve.Affine.negY]))
    (WeierstrassCurve.Affine.Point.some_ne_zero _) (by decide)

end LCT.Crypto.Toy
