import Verif.Lemmas.Math.Modular
import Mathlib.Data.ZMod.Basic
import Mathlib.FieldTheory.Finite.Basic

/-!
# The modular functions as operations of the ring `ZMod p`

`Denotes w x v.val` says that the big integer `x` is the least non-negative representative of the residue class `v`.
-/

namespace LCT.Modular
open LCT.Spec LCT.Out LCT.BigInt
variable {ε : Type} {w : Nat} [hw : DigitWidth w] {p : Nat} [NeZero p] {x y xp : BInt} {a : Int} (m : Build)

/-- `x` represents the residue class `v`. -/
abbrev Res (w : Nat) {p : Nat} (x : BInt) (v : ZMod p) : Prop := Denotes w x (v.val : Int)

theorem val_pos_iff {v : ZMod p} : 0 < (v.val : Int) ↔ v ≠ 0 := by
  constructor
  · rintro h rfl; simp at h
  · intro h
    have : v.val ≠ 0 := fun h0 => h ((ZMod.val_eq_zero v).mp h0)
    omega

theorem val_lt_int (v : ZMod p) : (v.val : Int) < p := by
  have := ZMod.val_lt v
  omega

theorem val_eq_iff {u v : ZMod p} : ((u.val : Int) = v.val) ↔ u = v := by
  constructor
  · intro h; exact ZMod.val_injective p (by omega)
  · rintro rfl; rfl

theorem res_of_int {z : Int} (h : Denotes w x z) (h0 : 0 ≤ z) (h1 : z < p) : Res w x (z : ZMod p) := by
  show Denotes w x _
  rwa [ZMod.val_intCast, Int.emod_eq_of_lt h0 h1]

theorem modulo_z (hx : Denotes w x a) (hp : Denotes w xp (p : Int)) : (modulo m w x xp : Out ε _).Yields (Res w · (a : ZMod p)) := by
  refine (modulo_y m hx hp (by have := NeZero.pos p; omega)).mono fun r hr => ?_
  show Denotes w r _
  rwa [ZMod.val_intCast]

theorem int_val (v : ZMod p) : ((v.val : Int) : ZMod p) = v := by
  rw [Int.cast_natCast, ZMod.natCast_zmod_val]

theorem mulRem_z {u v : ZMod p} (hx : Res w x u) (hy : Res w y v) (hp : Denotes w xp (p : Int)) :
    (mulRem m w x y xp : Out ε _).Yields (Res w · (u * v)) := by
  have := NeZero.pos p
  refine (mulRem_y m hx hy hp (by omega) (by omega) (by omega)).mono fun r hr => ?_
  show Denotes w r _
  have h : ((u * v).val : Int) = ((((u.val : Int) * v.val : Int) : ZMod p).val : Int) := by
    rw [Int.cast_mul, int_val, int_val]
  rw [h, ZMod.val_intCast]
  exact hr

theorem beq_z {u v : ZMod p} (hx : Res w x u) (hy : Res w y v) : (BInt.beq m x y : Out ε _).Yields (· = decide (u = v)) :=
  (beq_y m hx hy).mono (by
    rintro _ rfl
    exact decide_eq_decide.mpr val_eq_iff)

theorem pow_z {xe : BInt} {e : Nat} {v : ZMod p} (hx : Res w x v) (he : Denotes w xe e) (hp : Denotes w xp (p : Int)) (hp1 : 1 < p)
    (hv : v ≠ 0) : (pow m w x xe xp : Out ε _).Yields (Res w · (v ^ e)) := by
  refine (pow_y m hx he hp (by omega) (Or.inr ⟨val_pos_iff.mpr hv, val_lt_int v⟩)).mono fun r hr => ?_
  show Denotes w r _
  have h : ((v ^ e).val : Int) = ((((v.val : Int) ^ e : Int) : ZMod p).val : Int) := by
    rw [Int.cast_pow, int_val]
  rw [h, ZMod.val_intCast]
  exact hr

/-- In a prime field `invert` succeeds on every number that is not zero modulo `p`. -/
theorem invert_z {p : Nat} [hp' : Fact p.Prime] (hx : Denotes w x a) (hp : Denotes w xp (p : Int)) (ha : (a : ZMod p) ≠ 0) :
    (invert m w x xp : Out ε _).Yields (fun o => ∃ r, o = some r ∧ Res w r ((a : ZMod p)⁻¹)) := by
  have hp1 := hp'.out.one_lt
  have ha' : a % p ≠ 0 := by
    intro h
    apply ha
    rw [ZMod.intCast_zmod_eq_zero_iff_dvd]
    exact Int.dvd_of_emod_eq_zero h
  refine (invert_y m hx hp (by omega) ha').mono fun o ho => ?_
  cases o with
  | none =>
    exfalso
    apply ho
    rw [Int.gcd_comm]
    apply (Nat.Prime.coprime_iff_not_dvd hp'.out).mpr
    intro h
    exact ha' (Int.emod_eq_zero_of_dvd (Int.natCast_dvd.mpr h))
  | some r =>
    obtain ⟨z, hz, h0, h1, h2⟩ := ho
    refine ⟨r, rfl, ?_⟩
    have h3 := res_of_int (p := p) hz h0 h1
    have : (z : ZMod p) = (a : ZMod p)⁻¹ := by
      have h4 : ((a * z : Int) : ZMod p) = ((1 : Int) : ZMod p) := by
        rw [ZMod.intCast_eq_intCast_iff]
        show a * z % p = 1 % p
        rw [h2, Int.emod_eq_of_lt (by decide) (by omega)]
      rw [Int.cast_mul, Int.cast_one] at h4
      exact eq_inv_of_mul_eq_one_right h4
    rwa [this] at h3

end LCT.Modular
