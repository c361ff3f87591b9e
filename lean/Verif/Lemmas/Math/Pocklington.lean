import Verif.Lemmas.Math.Pratt
import Mathlib.FieldTheory.Finite.Basic
import Mathlib.GroupTheory.OrderOfElement

/-!
# Checking primality certificates of Pocklington inside the kernel

Like those of Pratt, but it is enough to know prime factors of `n - 1` whose product exceeds the square root of `n`.
-/

namespace LCT.Pocklington
open LCT.Pratt

/-- A prime factor `q` of `n - 1`, its exponent, and a base `a` for it. -/
structure Factor where
  q : Nat
  e : Nat
  a : Nat

/-- The product of the powers, and whether they are pairwise coprime divisors of `n - 1` with suitable bases. -/
def accumulate (n : Nat) : List Factor → Nat × Bool
  | [] => (1, true)
  | x :: rest =>
    let r := accumulate n rest
    (x.q ^ (x.e + 1) * r.1,
      r.2 && (Nat.gcd (x.q ^ (x.e + 1)) r.1 == 1) && ((n - 1) % x.q ^ (x.e + 1) == 0) && (powMod n (n.log2 + 1) x.a (n - 1) == 1) &&
        (Nat.gcd (powMod n (n.log2 + 1) x.a ((n - 1) / x.q) + (n - 1)) n == 1))

/-- The test. -/
def check (n : Nat) (xs : List Factor) : Bool :=
  Nat.ble 2 n && (accumulate n xs).2 && Nat.ble (n + 1) ((accumulate n xs).1 * (accumulate n xs).1)

theorem pow_dvd {n r : Nat} (hn : 2 ≤ n) (hr : r.Prime) (hrn : r ∣ n) {x : Factor} (hq : x.q.Prime)
    (hd : (n - 1) % x.q ^ (x.e + 1) = 0) (h1 : powMod n (n.log2 + 1) x.a (n - 1) = 1)
    (hg : Nat.gcd (powMod n (n.log2 + 1) x.a ((n - 1) / x.q) + (n - 1)) n = 1) : x.q ^ (x.e + 1) ∣ r - 1 := by
  haveI : Fact r.Prime := ⟨hr⟩
  haveI : Fact x.q.Prime := ⟨hq⟩
  have hlt : n - 1 < 2 ^ (n.log2 + 1) := lt_of_le_of_lt (Nat.sub_le ..) Nat.lt_log2_self
  have cast : ∀ k, k < 2 ^ (n.log2 + 1) → ((powMod n (n.log2 + 1) x.a k : Nat) : ZMod r) = (x.a : ZMod r) ^ k := by
    intro k hk
    have h := powMod_cast n (n.log2 + 1) x.a k hk
    have := congrArg (ZMod.castHom hrn (ZMod r)) h
    rwa [map_natCast, map_pow, map_natCast] at this
  obtain ⟨c, hc⟩ := Nat.dvd_of_mod_eq_zero hd
  have hdiv : (n - 1) / x.q = x.q ^ x.e * c := by
    rw [hc, pow_succ', mul_assoc, Nat.mul_div_cancel_left _ hq.pos]
  have hone : (x.a : ZMod r) ^ (n - 1) = 1 := by rw [← cast _ hlt, h1, Nat.cast_one]
  have hne : (x.a : ZMod r) ^ ((n - 1) / x.q) ≠ 1 := by
    intro h
    have h' := cast ((n - 1) / x.q) (lt_of_le_of_lt (Nat.div_le_self ..) hlt)
    rw [h] at h'
    have : r ∣ powMod n (n.log2 + 1) x.a ((n - 1) / x.q) + (n - 1) := by
      rw [← ZMod.natCast_eq_zero_iff, Nat.cast_add, h', ← Nat.cast_one, ← Nat.cast_add, ZMod.natCast_eq_zero_iff]
      rwa [show 1 + (n - 1) = n by omega]
    have := Nat.dvd_gcd this hrn
    rw [hg] at this
    exact hr.one_lt.ne' (Nat.dvd_one.mp this)
  have horder : orderOf ((x.a : ZMod r) ^ c) = x.q ^ (x.e + 1) := by
    apply orderOf_eq_prime_pow
    · rw [← pow_mul, mul_comm, ← hdiv]; exact hne
    · rw [← pow_mul, mul_comm, ← hc]; exact hone
  rw [← horder]
  apply ZMod.orderOf_dvd_card_sub_one
  intro h0
  have ha : (x.a : ZMod r) = 0 := eq_zero_of_pow_eq_zero h0
  rw [ha, zero_pow (by omega)] at hone
  exact zero_ne_one hone

theorem prime_of_check (n : Nat) (xs : List Factor) (hc : check n xs = true) (hq : ∀ x ∈ xs, x.q.Prime) : n.Prime := by
  simp only [check, Bool.and_eq_true, Nat.ble_eq] at hc
  obtain ⟨⟨hn, hacc⟩, hsq⟩ := hc
  have hr : (n.minFac).Prime := Nat.minFac_prime (by omega)
  have hdvd : ∀ xs : List Factor, (∀ x ∈ xs, x.q.Prime) → (accumulate n xs).2 = true → (accumulate n xs).1 ∣ n.minFac - 1 := by
    intro xs
    induction xs with
    | nil => intro _ _; exact one_dvd _
    | cons x rest ih =>
      intro hq h
      simp only [accumulate, Bool.and_eq_true, beq_iff_eq] at h
      obtain ⟨⟨⟨⟨h0, h1⟩, h2⟩, h3⟩, h4⟩ := h
      exact Nat.Coprime.mul_dvd_of_dvd_of_dvd h1 (pow_dvd hn hr (Nat.minFac_dvd n) (hq x (by simp)) h2 h3 h4)
        (ih (fun y hy => hq y (by simp [hy])) h0)
  have hle : (accumulate n xs).1 ≤ n.minFac - 1 := Nat.le_of_dvd (by have := hr.two_le; omega) (hdvd xs hq hacc)
  by_contra hp
  have hm := Nat.minFac_sq_le_self (by omega) hp
  have h2 : (accumulate n xs).1 * (accumulate n xs).1 ≤ n.minFac ^ 2 := by
    rw [pow_two]
    exact Nat.mul_le_mul (by omega) (by omega)
  omega

example : check 1000003 [⟨166667, 0, 2⟩] = true := by decide +kernel

end LCT.Pocklington
