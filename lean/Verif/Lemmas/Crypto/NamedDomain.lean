import Verif.Lemmas.Crypto.NamedCheck
import Verif.Lemmas.Crypto.Secp256k1Params
import Verif.Model.Crypto.TestCurves

/-!
# The parameters of the named curves as the test suite supplies them
-/

namespace LCT.Named
open LCT.Spec LCT.Curve LCT.Crypto LCT.BigInt LCT.Out LCT.Modular
variable {ε : Type}

/-- The numbers of the curve, stored. -/
structure Stored (w : Nat) (cp : Params) (c : NamedCurve) : Prop where
  p : Denotes w cp.curve.p c.p
  a : Denotes w cp.curve.a c.a
  b : Denotes w cp.curve.b c.b
  gx : Denotes w cp.basePoint.x c.gx
  gy : Denotes w cp.basePoint.y c.gy
  n : Denotes w cp.order c.n
  cofactor : cp.cofactor = 1

variable {w : Nat} {cp : Params} {c : NamedCurve}

theorem Stored.domain (h : Stored w cp c) (hc : Checked c) [Fact c.p.Prime] :
    ∃ G, Domain w cp c.p c.n c.a c.b G ∧ xCoord G = c.gx ∧ yCoord G = c.gy := by
  obtain ⟨h1, h2, h3, G, hx, hy, ho, h0, x, y, hxy, rfl⟩ :=
    hc.curve_of (A := ((c.a : Int) : ZMod c.p)) (B := ((c.b : Int) : ZMod c.p)) (Int.cast_natCast _) (Int.cast_natCast _)
  refine ⟨_, ⟨ValidCurve.ne_two_of hc.onCurve dvd_rfl, hc.prime_n, ?_, ⟨h.a, h.b, h.p⟩, h1, h2, ?_, h.n, h0, ?_, ?_⟩, hx, hy⟩
  · intro e
    have := hc.square
    have := hc.two_le
    rw [e] at *
    omega
  · show Denotes w _ (x.val : Int) ∧ Denotes w _ (y.val : Int)
    rw [show x.val = c.gx from hx, show y.val = c.gy from hy]
    exact ⟨h.gx, h.gy⟩
  · rw [← ho]
    exact addOrderOf_nsmul_eq_zero _
  · rw [h3, h.cofactor, Nat.one_mul]

theorem secp224r1_y (w : Nat) [DigitWidth w] : (Crypto.secp224r1 w : Out ε _).Yields fun cp => Stored w cp NamedCurve.secp224r1 := by
  unfold Crypto.secp224r1
  run (fromHexUnwrap_y (z := NamedCurve.secp224r1.a) (by decide +kernel)) with a ha
  run (fromHexUnwrap_y (z := NamedCurve.secp224r1.b) (by decide +kernel)) with b hb
  run (fromHexUnwrap_y (z := NamedCurve.secp224r1.p) (by decide +kernel)) with p hp
  run (fromHexUnwrap_y (z := NamedCurve.secp224r1.gx) (by decide +kernel)) with gx hgx
  run (fromHexUnwrap_y (z := NamedCurve.secp224r1.gy) (by decide +kernel)) with gy hgy
  run (fromHexUnwrap_y (z := NamedCurve.secp224r1.n) (by decide +kernel)) with n hn
  exact .pure ⟨hp, ha, hb, hgx, hgy, hn, rfl⟩

theorem secp384r1_y (w : Nat) [DigitWidth w] : (Crypto.secp384r1 w : Out ε _).Yields fun cp => Stored w cp NamedCurve.secp384r1 := by
  unfold Crypto.secp384r1
  run (fromHexUnwrap_y (z := NamedCurve.secp384r1.a) (by decide +kernel)) with a ha
  run (fromHexUnwrap_y (z := NamedCurve.secp384r1.b) (by decide +kernel)) with b hb
  run (fromHexUnwrap_y (z := NamedCurve.secp384r1.p) (by decide +kernel)) with p hp
  run (fromHexUnwrap_y (z := NamedCurve.secp384r1.gx) (by decide +kernel)) with gx hgx
  run (fromHexUnwrap_y (z := NamedCurve.secp384r1.gy) (by decide +kernel)) with gy hgy
  run (fromHexUnwrap_y (z := NamedCurve.secp384r1.n) (by decide +kernel)) with n hn
  exact .pure ⟨hp, ha, hb, hgx, hgy, hn, rfl⟩

theorem secp521r1_y (w : Nat) [DigitWidth w] : (Crypto.secp521r1 w : Out ε _).Yields fun cp => Stored w cp NamedCurve.secp521r1 := by
  unfold Crypto.secp521r1
  run (fromHexUnwrap_y (z := NamedCurve.secp521r1.a) (by decide +kernel)) with a ha
  run (fromHexUnwrap_y (z := NamedCurve.secp521r1.b) (by decide +kernel)) with b hb
  run (fromHexUnwrap_y (z := NamedCurve.secp521r1.p) (by decide +kernel)) with p hp
  run (fromHexUnwrap_y (z := NamedCurve.secp521r1.gx) (by decide +kernel)) with gx hgx
  run (fromHexUnwrap_y (z := NamedCurve.secp521r1.gy) (by decide +kernel)) with gy hgy
  run (fromHexUnwrap_y (z := NamedCurve.secp521r1.n) (by decide +kernel)) with n hn
  exact .pure ⟨hp, ha, hb, hgx, hgy, hn, rfl⟩

theorem brainpoolP256r1_y (w : Nat) [DigitWidth w] : (Crypto.brainpoolP256r1 w : Out ε _).Yields fun cp => Stored w cp NamedCurve.brainpoolP256r1 := by
  unfold Crypto.brainpoolP256r1
  run (fromHexUnwrap_y (z := NamedCurve.brainpoolP256r1.a) (by decide +kernel)) with a ha
  run (fromHexUnwrap_y (z := NamedCurve.brainpoolP256r1.b) (by decide +kernel)) with b hb
  run (fromHexUnwrap_y (z := NamedCurve.brainpoolP256r1.p) (by decide +kernel)) with p hp
  run (fromHexUnwrap_y (z := NamedCurve.brainpoolP256r1.gx) (by decide +kernel)) with gx hgx
  run (fromHexUnwrap_y (z := NamedCurve.brainpoolP256r1.gy) (by decide +kernel)) with gy hgy
  run (fromHexUnwrap_y (z := NamedCurve.brainpoolP256r1.n) (by decide +kernel)) with n hn
  exact .pure ⟨hp, ha, hb, hgx, hgy, hn, rfl⟩

theorem brainpoolP320r1_y (w : Nat) [DigitWidth w] : (Crypto.brainpoolP320r1 w : Out ε _).Yields fun cp => Stored w cp NamedCurve.brainpoolP320r1 := by
  unfold Crypto.brainpoolP320r1
  run (fromHexUnwrap_y (z := NamedCurve.brainpoolP320r1.a) (by decide +kernel)) with a ha
  run (fromHexUnwrap_y (z := NamedCurve.brainpoolP320r1.b) (by decide +kernel)) with b hb
  run (fromHexUnwrap_y (z := NamedCurve.brainpoolP320r1.p) (by decide +kernel)) with p hp
  run (fromHexUnwrap_y (z := NamedCurve.brainpoolP320r1.gx) (by decide +kernel)) with gx hgx
  run (fromHexUnwrap_y (z := NamedCurve.brainpoolP320r1.gy) (by decide +kernel)) with gy hgy
  run (fromHexUnwrap_y (z := NamedCurve.brainpoolP320r1.n) (by decide +kernel)) with n hn
  exact .pure ⟨hp, ha, hb, hgx, hgy, hn, rfl⟩

theorem brainpoolP384r1_y (w : Nat) [DigitWidth w] : (Crypto.brainpoolP384r1 w : Out ε _).Yields fun cp => Stored w cp NamedCurve.brainpoolP384r1 := by
  unfold Crypto.brainpoolP384r1
  run (fromHexUnwrap_y (z := NamedCurve.brainpoolP384r1.a) (by decide +kernel)) with a ha
  run (fromHexUnwrap_y (z := NamedCurve.brainpoolP384r1.b) (by decide +kernel)) with b hb
  run (fromHexUnwrap_y (z := NamedCurve.brainpoolP384r1.p) (by decide +kernel)) with p hp
  run (fromHexUnwrap_y (z := NamedCurve.brainpoolP384r1.gx) (by decide +kernel)) with gx hgx
  run (fromHexUnwrap_y (z := NamedCurve.brainpoolP384r1.gy) (by decide +kernel)) with gy hgy
  run (fromHexUnwrap_y (z := NamedCurve.brainpoolP384r1.n) (by decide +kernel)) with n hn
  exact .pure ⟨hp, ha, hb, hgx, hgy, hn, rfl⟩

theorem brainpoolP512r1_y (w : Nat) [DigitWidth w] : (Crypto.brainpoolP512r1 w : Out ε _).Yields fun cp => Stored w cp NamedCurve.brainpoolP512r1 := by
  unfold Crypto.brainpoolP512r1
  run (fromHexUnwrap_y (z := NamedCurve.brainpoolP512r1.a) (by decide +kernel)) with a ha
  run (fromHexUnwrap_y (z := NamedCurve.brainpoolP512r1.b) (by decide +kernel)) with b hb
  run (fromHexUnwrap_y (z := NamedCurve.brainpoolP512r1.p) (by decide +kernel)) with p hp
  run (fromHexUnwrap_y (z := NamedCurve.brainpoolP512r1.gx) (by decide +kernel)) with gx hgx
  run (fromHexUnwrap_y (z := NamedCurve.brainpoolP512r1.gy) (by decide +kernel)) with gy hgy
  run (fromHexUnwrap_y (z := NamedCurve.brainpoolP512r1.n) (by decide +kernel)) with n hn
  exact .pure ⟨hp, ha, hb, hgx, hgy, hn, rfl⟩

end LCT.Named
