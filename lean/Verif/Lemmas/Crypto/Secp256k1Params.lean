import Verif.Lemmas.Crypto.Secp256k1
import Verif.Lemmas.Crypto.Params

/-!
# The built-in parameters are the valid domain parameters of secp256k1
-/

namespace LCT.Crypto
open LCT.Spec LCT.Out LCT.BigInt LCT.Modular LCT.Curve
variable {ε : Type} {w : Nat} [hw : DigitWidth w]

theorem fromHexUnwrap_y {s : String} {z : Nat} (h : ascii s ≠ [] ∧ (ascii s).map digitVal = ((ascii s).filterMap digitVal).map some ∧
    (∀ d ∈ (ascii s).filterMap digitVal, d < 16) ∧ (ascii s).length % 2 = 0 ∧ horner 16 ((ascii s).filterMap digitVal) = z) :
    (fromHexUnwrap w s : Out ε _).Yields (Denotes w · z) := by
  obtain ⟨h1, h2, h3, h4, h5⟩ := h
  obtain ⟨k, hk, rfl⟩ := hw
  obtain ⟨x, e, d⟩ := (fromHex_iff hk (ascii s) z).mpr (Or.inr ⟨[], ascii s, _, 1, rfl, .none, ⟨h1, h2, h3⟩, h4, by rw [h5]; simp⟩)
  refine ⟨x, ?_, d⟩
  unfold fromHexUnwrap
  rw [e]

theorem gx_val : ((Secp256k1.gx : Nat) : ZMod Secp256k1.p).val = Secp256k1.gx := ZMod.val_cast_of_lt (by decide)
theorem gy_val : ((Secp256k1.gy : Nat) : ZMod Secp256k1.p).val = Secp256k1.gy := ZMod.val_cast_of_lt (by decide)

theorem secp256k1_y (w : Nat) [DigitWidth w] :
    (secp256k1 w : Out ε _).Yields fun cp => Domain w cp Secp256k1.p Secp256k1.n 0 7 LCT.Secp256k1.G ∧ cp.cofactor = 1 := by
  unfold secp256k1
  run (ofInt_y w 0 (by norm_num) (by norm_num)) with a ha
  run (ofInt_y w 7 (by norm_num) (by norm_num)) with b hb
  run (fromHexUnwrap_y (z := Secp256k1.p) (by decide +kernel)) with p hp
  run (fromHexUnwrap_y (z := Secp256k1.gx) (by decide +kernel)) with gx hgx
  run (fromHexUnwrap_y (z := Secp256k1.gy) (by decide +kernel)) with gy hgy
  run (fromHexUnwrap_y (z := Secp256k1.n) (by decide +kernel)) with n hn
  refine .pure ⟨?_, rfl⟩
  refine ⟨LCT.Secp256k1.p_ne_two, LCT.Secp256k1.prime_n, by decide, ⟨ha, hb, hp⟩, ?_, LCT.Secp256k1.b_ne_zero, ?_, hn, LCT.Secp256k1.G_ne_zero,
    LCT.Secp256k1.n_mul_G, ?_⟩
  · have := LCT.Secp256k1.cast_ne_zero (k := 27 * 7 ^ 2) (by decide) (by decide)
    push_cast at this ⊢
    intro h
    apply this
    linear_combination h
  · show Denotes w gx _ ∧ Denotes w gy _
    rw [gx_val, gy_val]
    exact ⟨hgx, hgy⟩
  · rw [LCT.Secp256k1.card_points]
    exact (Nat.one_mul _).symm

end LCT.Crypto
