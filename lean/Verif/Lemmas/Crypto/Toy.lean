import Verif.Lemmas.Crypto.Params
import Verif.Lemmas.Math.Certify
import Mathlib.Tactic.NormNum.Prime

/-!
# A small curve that meets the assumptions on domain parameters, for examples

`y² = x³ + 4·x + 3` modulo `251`; it has `233` points.  Like secp256k1 it has fewer points than field elements, so that some abscissas are
not below the order; unlike secp256k1, there are points with abscissa `0` and with abscissa exactly `233`.
-/

namespace LCT.Crypto.Toy
open LCT.Spec LCT.Curve LCT.BigInt
open WeierstrassCurve.Affine (Point.some Point.zero)

instance : Fact (Nat.Prime 251) := ⟨by norm_num⟩
instance : Fact (Nat.Prime 233) := ⟨by norm_num⟩

/-- A one-digit non-negative integer, for 8-bit digits. -/
def byte (b : Nat) : BInt := ⟨[b], 1, .positive⟩

theorem byte_denotes {b : Nat} (h : b < 256) : Denotes 8 (byte b) b := by
  refine ⟨⟨?_, Nat.le_refl 1, Nat.le_refl 1, Or.inl rfl, fun d hd => by simp [byte] at hd⟩, ?_⟩
  · intro d hd
    have : d = b := List.mem_singleton.mp hd
    omega
  · simp [byte, toInt, val]

abbrev E := curve (((4 : Int) : ZMod 251)) (((3 : Int) : ZMod 251))

def params : Params := ⟨⟨byte 4, byte 3, byte 251⟩, ⟨byte 4, byte 121⟩, byte 233, 1⟩

theorem base_nonsingular : E.Nonsingular 4 121 :=
  nonsingular_of_equation (by decide) (by decide) (by decide)

def G : E.Point := Point.some 4 121 base_nonsingular

theorem G_order : 233 • G = 0 :=
  Certify.order_of (p := 251) (a := 4) rfl (x := 4) (y := 121) (k := 232) (f := 10) ⟨base_nonsingular, rfl⟩ (by decide) (by decide +kernel)

theorem G_ne : G ≠ 0 := WeierstrassCurve.Affine.Point.some_ne_zero _

theorem domain : Domain 8 params 251 233 4 3 G where
  p_ne := by decide
  n_prime := by norm_num
  n_ne := by decide
  curve := ⟨byte_denotes (by decide), byte_denotes (by decide), byte_denotes (by decide)⟩
  disc := by decide
  b_ne := by decide
  base := ⟨byte_denotes (by decide), byte_denotes (by decide)⟩
  order := byte_denotes (by decide)
  G_ne := G_ne
  G_order := G_order
  card := by
    rw [show params.cofactor = 1 from rfl, Nat.one_mul]
    refine card_of_order (by decide) (addOrderOf_eq_prime G_order G_ne) (by decide) fun x y h hy => ?_
    have := equation_of_nonsingular h
    rw [hy] at this
    have hno : ∀ x : ZMod 251, (0 : ZMod 251) ^ 2 ≠ x ^ 3 + ((4 : Int) : ZMod 251) * x + ((3 : Int) : ZMod 251) := by decide +kernel
    exact hno x this

end LCT.Crypto.Toy
