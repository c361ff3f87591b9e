import Verif.Props.Modular
import Verif.Props.Gcd
import Verif.Lemmas.Crypto.Secp256k1
import Mathlib.NumberTheory.LegendreSymbol.QuadraticReciprocity

/-!
# C80: how long the arithmetic can take

The loops whose length depends on the numbers are those of the extended gcd, of `pow`, and of the search in `sqrt` for a number that is not
a square.  The model gives each of them a limit on the number of its rounds, and a run that would take more ends in `hang`.  So a theorem
that says that a run under the limit `n` returns a result says that the loop takes at most `n` rounds.
-/

namespace LCT.Props
open LCT.Spec LCT.BigInt LCT.Modular
variable {ε α β : Type}

/-- C80: `gcd` takes at most `2 * bits + 1` rounds on numbers of `bits` bits (and at least one digit): a number linear in the length of
its arguments, whatever they are. -/
theorem C80_gcd (m : Build) (k : Nat) (hk : 1 ≤ k) (xa xb : BInt) (a b : Int) (ha : Denotes (8 * k) xa a)
    (hb : Denotes (8 * k) xb b) (hb0 : 0 < b) (hab : b < a) (bits : Nat) (hw : 8 * k ≤ bits) (hbits : a < 2 ^ bits) :
    (BInt.gcd m (8 * k) (2 * bits + 1) xa xb : Out ε _) ≠ .hang := by
  obtain ⟨zx, zy, zv, x, y, e, -⟩ := C11_gcd (ε := ε) m k hk xa xb a b ha hb hb0 hab bits hbits (2 * bits + 1) (by omega)
  rw [e]
  intro h
  cases h

/-- C80: the loop of `pow` takes at most one round more than its exponent has bits, and computes the power. -/
theorem C80_pow (m : Build) (w : Nat) [DigitWidth w] (xb xe xn xr : BInt) (b r n : Int) (e bits : Nat) (hb : Denotes w xb b)
    (he : Denotes w xe e) (hn : Denotes w xn n) (hr : Denotes w xr r) (h1 : 1 < n) (hb0 : 0 ≤ b) (hr0 : 0 ≤ r) (hrn : r < n)
    (hbits : e < 2 ^ bits) : ∃ z, (powLoop m w xn (bits + 1) xe xb xr : Out ε _) = .ok z ∧ Denotes w z (r * b ^ e % n) :=
  powLoop_y m hn h1 bits xe xb xr e b r he hb hr hb0 hr0 hrn hbits

/-- C80: `sqrt` modulo an odd prime tries at most as many numbers as the integer square root of the prime. -/
theorem C80_sqrt (m : Build) (w : Nat) [DigitWidth w] (p : Nat) (hp : p.Prime) (hp2 : p ≠ 2) (a : Int) (h0 : 0 < a) (ha : a < p)
    (xa xp : BInt) (hxa : Denotes w xa a) (hxp : Denotes w xp p) (limit : Nat) (hl : Nat.sqrt p ≤ limit) :
    (sqrtWithin m w limit xa xp : Out ε _) ≠ .hang := by
  have : Fact p.Prime := ⟨hp⟩
  have hr : Res w xa (a : ZMod p) := res_of_int hxa (by omega) ha
  have hne : (a : ZMod p) ≠ 0 := by
    intro h
    have := (ZMod.intCast_zmod_eq_zero_iff_dvd a p).mp h
    exact absurd (Int.le_of_dvd h0 this) (by omega)
  obtain ⟨c, h1, h2, h3⟩ := exists_small_nonresidue hp2
  obtain ⟨o, e, -⟩ := sqrtWithin_y (ε := ε) m hp2 hxp hr hne h1 h2 limit (by omega)
  rw [e]
  intro h
  cases h

/-- Three is not a square modulo the prime of secp256k1. -/
theorem three_nonsquare : ¬ IsSquare ((3 : Nat) : ZMod Secp256k1.p) := by
  have : Fact (Nat.Prime 3) := ⟨Nat.prime_three⟩
  have h := ZMod.exists_sq_eq_prime_iff_of_mod_four_eq_three (p := Secp256k1.p) (q := 3) (by decide +kernel) (by decide)
    (by decide +kernel)
  rw [h, not_not, show ((Secp256k1.p : Nat) : ZMod 3) = 1 by
    have : ((Secp256k1.p : Nat) : ZMod 3) = ((Secp256k1.p % 3 : Nat) : ZMod 3) := (ZMod.natCast_mod _ _).symm
    rw [this, show Secp256k1.p % 3 = 1 by decide +kernel, Nat.cast_one]]
  exact ⟨1, (mul_one 1).symm⟩

/-- C80: modulo the prime of secp256k1, `sqrt` tries at most two numbers, so parsing a compressed key is never slow. -/
theorem C80_sqrt_secp256k1 (m : Build) (w : Nat) [DigitWidth w] (a : Int) (h0 : 0 < a) (ha : a < Secp256k1.p)
    (xa xp : BInt) (hxa : Denotes w xa a) (hxp : Denotes w xp Secp256k1.p) :
    (sqrtWithin m w 2 xa xp : Out ε _) ≠ .hang := by
  have hr : Res w xa (a : ZMod Secp256k1.p) := res_of_int hxa (by omega) ha
  have hne : (a : ZMod Secp256k1.p) ≠ 0 := by
    intro h
    have := (ZMod.intCast_zmod_eq_zero_iff_dvd a Secp256k1.p).mp h
    exact absurd (Int.le_of_dvd h0 this) (by omega)
  have hv : (((3 : Nat) : ZMod Secp256k1.p)).val = 3 := ZMod.val_cast_of_lt (by decide +kernel)
  obtain ⟨o, e, -⟩ := sqrtWithin_y (ε := ε) m (by decide +kernel) hxp hr hne (half_of_nonsquare three_nonsquare) (by omega) 2 (by omega)
  rw [e]
  intro h
  cases h

/-- Either the first run hits its limit, or the second returns the same. -/
def Extends (x y : Out ε α) : Prop := x = .hang ∨ y = x

theorem Extends.refl (x : Out ε α) : Extends x x := Or.inr rfl

theorem Extends.bind {x : Out ε α} {f g : α → Out ε β} (h : ∀ a, Extends (f a) (g a)) : Extends (x >>= f) (x >>= g) := by
  cases x with
  | ok a => exact h a
  | _ => exact Or.inr rfl

theorem Extends.bind_left {x y : Out ε α} {f : α → Out ε β} (h : Extends x y) : Extends (x >>= f) (y >>= f) := by
  rcases h with rfl | rfl
  · exact Or.inl rfl
  · exact Or.inr rfl

theorem nonResidueLoop_extends (m : Build) (w : Nat) (p one t1 t2 : BInt) (l l' : Nat) (h : l ≤ l') (n : BInt) :
    Extends (nonResidueLoop m w p one t1 t2 l n : Out ε _) (nonResidueLoop m w p one t1 t2 l' n) := by
  induction l generalizing l' n with
  | zero => exact Or.inl rfl
  | succ l ih =>
    obtain ⟨k, rfl⟩ : ∃ k, l' = k + 1 := ⟨l' - 1, by omega⟩
    refine .bind fun t => .bind fun b => ?_
    cases b
    · exact .bind fun n => ih k (by omega) n
    · exact .refl _

theorem sqrtWithin_extends (m : Build) (w l l' : Nat) (h : l ≤ l') (a p : BInt) :
    Extends (sqrtWithin m w l a p : Out ε _) (sqrtWithin m w l' a p) := by
  unfold sqrtWithin
  repeat' first
    | with_reducible exact .refl _
    | with_reducible exact .bind_left (nonResidueLoop_extends m w _ _ _ _ l l' h _)
    | with_reducible refine .bind fun _ => ?_
    | split

/-- C80: `sqrt` is the search under a limit it never reaches: what it returns is what it returns within the limit above. -/
theorem C80_sqrt_result (m : Build) (w : Nat) [DigitWidth w] (p : Nat) (hp : p.Prime) (hp2 : p ≠ 2) (a : Int) (h0 : 0 < a) (ha : a < p)
    (xa xp : BInt) (hxa : Denotes w xa a) (hxp : Denotes w xp p) :
    (Modular.sqrt m w xa xp : Out ε _) = sqrtWithin m w (Nat.sqrt p) xa xp := by
  refine (sqrtWithin_extends m w (Nat.sqrt p) _ ?_ xa xp).resolve_left (C80_sqrt m w p hp hp2 a h0 ha xa xp hxa hxp _ le_rfl)
  have hst := natAbs_lt_storage hxp
  have := Nat.sqrt_le_self p
  omega

/-- The hypotheses are met, with one-byte digits: `gcd 1000000 350003` within `41` rounds, `7 ^ 1000 mod 300` within `11`, and the square
root of `2` modulo `17`, which tries `2` (a square) and then `3`. -/
example : (BInt.gcd .debug 8 (2 * 20 + 1) ⟨[0x40, 0x42, 0x0f], 3, .positive⟩ ⟨[0x33, 0x57, 0x05], 3, .positive⟩ : Out Unit _).bind
      (fun r => .ok (toInt 8 r.2.2)) = .ok 1 ∧
    (powLoop .debug 8 ⟨[0x2c, 1], 2, .positive⟩ (10 + 1) ⟨[0xe8, 3], 2, .positive⟩ ⟨[7], 1, .positive⟩ ⟨[1], 1, .positive⟩ : Out Unit _).bind
      (fun r => .ok (toInt 8 r)) = .ok 1 ∧
    (sqrtWithin .debug 8 2 ⟨[2], 1, .positive⟩ ⟨[17], 1, .positive⟩ : Out Unit _).bind
      (fun r => .ok (r.map fun z => (toInt 8 z.1, toInt 8 z.2))) = .ok (some (6, 11)) ∧
    (sqrtWithin .debug 8 1 ⟨[2], 1, .positive⟩ ⟨[17], 1, .positive⟩ : Out Unit _) = .hang := by
  refine ⟨by decide +kernel, by decide +kernel, by decide +kernel, by decide +kernel⟩

end LCT.Props
