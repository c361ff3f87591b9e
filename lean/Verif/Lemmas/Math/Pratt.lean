import Mathlib.NumberTheory.LucasPrimality

/-!
# Checking primality certificates inside the kernel
-/

namespace LCT.Pratt

/-- `b ^ e % n`, with the exponent halved at each step. -/
def powMod (n : Nat) : Nat → Nat → Nat → Nat
  | 0, _, _ => 1 % n
  | f + 1, b, e =>
    bif e == 0 then 1 % n else
      bif e % 2 == 0 then powMod n f (b * b % n) (e / 2) else b * powMod n f (b * b % n) (e / 2) % n

theorem powMod_cast (n : Nat) : ∀ (f b e : Nat), e < 2 ^ f → ((powMod n f b e : Nat) : ZMod n) = (b : ZMod n) ^ e := by
  intro f
  induction f with
  | zero =>
    intro b e h
    have : e = 0 := by simpa using h
    subst this
    simp [powMod]
  | succ f ih =>
    intro b e h
    have h2 : e / 2 < 2 ^ f := by rw [Nat.pow_succ] at h; omega
    have hsq : ((b * b % n : Nat) : ZMod n) ^ (e / 2) = (b : ZMod n) ^ (2 * (e / 2)) := by
      rw [ZMod.natCast_mod, Nat.cast_mul, ← pow_two, ← pow_mul]
    unfold powMod
    simp only [Bool.cond_eq_ite, beq_iff_eq]
    split
    · subst e; simp
    split
    · rw [ih _ _ h2, hsq]; congr 1; omega
    · rw [ZMod.natCast_mod, Nat.cast_mul, ih _ _ h2, hsq, ← pow_succ']; congr 1; omega

/-- Test that the residues of `a ^ (n - 1)` is one and of `a ^ ((n - 1) / q)` is not, for the primes `q` in `fs`. -/
def check (n a : Nat) (fs : List Nat) : Bool :=
  Nat.ble 2 n && (fs.prod == n - 1) && (powMod n (n.log2 + 1) a (n - 1) == 1) &&
    fs.all fun q => powMod n (n.log2 + 1) a ((n - 1) / q) != 1

theorem prime_of_check (n a : Nat) (fs : List Nat) (hc : check n a fs = true) (hfs : ∀ q ∈ fs, q.Prime) : n.Prime := by
  simp only [check, Bool.and_eq_true, Nat.ble_eq, beq_iff_eq, List.all_eq_true, bne_iff_ne] at hc
  obtain ⟨⟨⟨h2, hprod⟩, h1⟩, hne⟩ := hc
  have hlt : n - 1 < 2 ^ (n.log2 + 1) := lt_of_le_of_lt (Nat.sub_le ..) Nat.lt_log2_self
  have h1n : 1 < n := h2
  refine lucas_primality n (a : ZMod n) ?_ ?_
  · rw [← powMod_cast n _ a (n - 1) hlt, h1, Nat.cast_one]
  · intro q hq hd
    rw [← powMod_cast n _ a _ (lt_of_le_of_lt (Nat.div_le_self ..) hlt)]
    rw [← hprod] at hd
    obtain ⟨r, hr, hqr⟩ := (Prime.dvd_prod_iff hq.prime).mp hd
    have : q = r := (Nat.prime_dvd_prime_iff_eq hq (hfs r hr)).mp hqr
    subst this
    intro h
    apply hne q hr
    have hlt' : powMod n (n.log2 + 1) a ((n - 1) / q) < n := by
      have : ∀ f b e, powMod n f b e < n := by
        intro f
        induction f with
        | zero => intro b e; exact Nat.mod_lt _ (by omega)
        | succ f ih =>
          intro b e
          unfold powMod
          simp only [Bool.cond_eq_ite, beq_iff_eq]
          split
          · exact Nat.mod_lt _ (by omega)
          split
          · exact ih _ _
          · exact Nat.mod_lt _ (by omega)
      exact this ..
    have := (ZMod.natCast_eq_natCast_iff' _ 1 n).mp (by rw [h, Nat.cast_one])
    rwa [Nat.mod_eq_of_lt hlt', Nat.mod_eq_of_lt h1n] at this

end LCT.Pratt
