import Mathlib.Algebra.Field.ZMod
import Mathlib.FieldTheory.Finite.Basic
import Mathlib.Tactic.LinearCombination

/-!
# Checking inside the kernel that a cubic has no root modulo a prime

A root `x` of `X³ - sX - t` is also a root of `X^p - X`, which is computed modulo the cubic; a certificate shows that the two have no common factor.
-/

namespace LCT.Cubic

/-- `u.1 + u.2.1 X + u.2.2 X²`, at `x`. -/
def value {p : Nat} (u : Nat × Nat × Nat) (x : ZMod p) : ZMod p := u.1 + u.2.1 * x + u.2.2 * x ^ 2

/-- The product modulo `X³ - sX - t`. -/
def mul (p s t : Nat) (u v : Nat × Nat × Nat) : Nat × Nat × Nat :=
  let r3 := u.2.1 * v.2.2 + u.2.2 * v.2.1
  let r4 := u.2.2 * v.2.2
  ((u.1 * v.1 + t * r3) % p, (u.1 * v.2.1 + u.2.1 * v.1 + s * r3 + t * r4) % p, (u.1 * v.2.2 + u.2.1 * v.2.1 + u.2.2 * v.1 + s * r4) % p)

theorem mul_value {p s t : Nat} {x : ZMod p} (hx : x ^ 3 = s * x + t) (u v : Nat × Nat × Nat) :
    value (mul p s t u v) x = value u x * value v x := by
  simp only [value, mul, ZMod.natCast_mod]
  push_cast
  linear_combination (-((u.2.1 : ZMod p) * v.2.2 + u.2.2 * v.2.1) - u.2.2 * v.2.2 * x) * hx

/-- `b ^ e` modulo `X³ - sX - t`, with the exponent halved at each step. -/
def pow (p s t : Nat) : Nat → Nat × Nat × Nat → Nat → Nat × Nat × Nat
  | 0, _, _ => (1, 0, 0)
  | f + 1, b, e =>
    bif e == 0 then (1, 0, 0) else
      bif e % 2 == 0 then pow p s t f (mul p s t b b) (e / 2) else mul p s t b (pow p s t f (mul p s t b b) (e / 2))

theorem pow_value {p s t : Nat} {x : ZMod p} (hx : x ^ 3 = s * x + t) :
    ∀ (f : Nat) (b : Nat × Nat × Nat) (e : Nat), e < 2 ^ f → value (pow p s t f b e) x = value b x ^ e := by
  intro f
  induction f with
  | zero =>
    intro b e h
    have : e = 0 := by simpa using h
    subst this
    simp [pow, value]
  | succ f ih =>
    intro b e h
    have h2 : e / 2 < 2 ^ f := by rw [Nat.pow_succ] at h; omega
    have hsq : value (mul p s t b b) x ^ (e / 2) = value b x ^ (2 * (e / 2)) := by
      rw [mul_value hx, ← pow_two, ← pow_mul]
    unfold pow
    simp only [Bool.cond_eq_ite, beq_iff_eq]
    split
    · subst e; simp [value]
    split
    · rw [ih _ _ h2, hsq]; congr 1; omega
    · rw [mul_value hx, ih _ _ h2, hsq, ← pow_succ']; congr 1; omega

/-- The certificate: `(u0 + u1 X) (X³ - sX - t) + (v0 + v1 X + v2 X²) (c0 + (c1 - 1) X + c2 X²) = 1`, where `c = X^p` modulo the cubic. -/
def check (p s t : Nat) (c : Nat × Nat × Nat) (u0 u1 v0 v1 v2 : Nat) : Bool :=
  (pow p s t (p.log2 + 1) (0, 1, 0) p == c) &&
  (v0 * c.1 % p == (1 + u0 * t) % p) &&
  ((v0 * c.2.1 + v1 * c.1) % p == (v0 + u0 * s + u1 * t) % p) &&
  ((v0 * c.2.2 + v1 * c.2.1 + v2 * c.1) % p == (v1 + u1 * s) % p) &&
  ((u0 + v1 * c.2.2 + v2 * c.2.1) % p == v2 % p) &&
  ((u1 + v2 * c.2.2) % p == 0)

theorem no_root {p s t : Nat} [hp : Fact p.Prime] (c : Nat × Nat × Nat) (u0 u1 v0 v1 v2 : Nat) (h : check p s t c u0 u1 v0 v1 v2 = true) (x : ZMod p) :
    x ^ 3 ≠ s * x + t := by
  intro hx
  simp only [check, Bool.and_eq_true, beq_iff_eq] at h
  obtain ⟨⟨⟨⟨⟨h0, h1⟩, h2⟩, h3⟩, h4⟩, h5⟩ := h
  have hv := pow_value hx (p.log2 + 1) (0, 1, 0) p Nat.lt_log2_self
  rw [h0] at hv
  have hone : value (p := p) (0, 1, 0) x = x := by simp [value]
  rw [hone, ZMod.pow_card] at hv
  simp only [value] at hv
  have e1 := (ZMod.natCast_eq_natCast_iff' _ _ _).mpr h1
  have e2 := (ZMod.natCast_eq_natCast_iff' _ _ _).mpr h2
  have e3 := (ZMod.natCast_eq_natCast_iff' _ _ _).mpr h3
  have e4 := (ZMod.natCast_eq_natCast_iff' _ _ _).mpr h4
  have e5 := (ZMod.natCast_eq_natCast_iff' _ _ _).mpr (h5.trans (Nat.zero_mod p).symm)
  push_cast at e1 e2 e3 e4 e5
  have : (1 : ZMod p) = 0 := by
    linear_combination ((u0 : ZMod p) + u1 * x) * hx + (v0 + v1 * x + v2 * x ^ 2 : ZMod p) * hv - e1 - x * e2 - x ^ 2 * e3 - x ^ 3 * e4 - x ^ 4 * e5
  exact one_ne_zero this

end LCT.Cubic
