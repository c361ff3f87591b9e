import Verif.Lemmas.Math.Certify

/-!
# Splitting the computation of a multiple

A multiple of a point is computed in several steps, so that the kernel does not need too much memory at once.
-/

namespace LCT.Certify

/-- Goes on from the point `h` with the last `j` bits of `k`. -/
def climb (p a : Nat) (g h : Nat × Nat) : Nat → Nat → Option (Nat × Nat)
  | 0, _ => some h
  | j + 1, k =>
    match climb p a g h j (k / 2) with
    | none => none
    | some h =>
      match double p a h with
      | none => none
      | some d => bif k % 2 == 0 then some d else add p d g

theorem mul_split {p a : Nat} {g h : Nat × Nat} {f : Nat} : ∀ (j k : Nat) {r : Nat × Nat}, 0 < k / 2 ^ j → mul p a g f (k / 2 ^ j) = some h →
    climb p a g h j k = some r → mul p a g (f + j) k = some r
  | 0, k, r, _, h1, h2 => by
    rw [Nat.pow_zero, Nat.div_one] at h1
    exact h1.trans h2
  | j + 1, k, r, h0, h1, h2 => by
    have e : k / 2 ^ (j + 1) = k / 2 / 2 ^ j := by rw [Nat.pow_succ', Nat.div_div_eq_div_mul]
    rw [e] at h0 h1
    have hk : 0 < k / 2 := by
      rcases Nat.eq_zero_or_pos (k / 2) with h | h
      · rw [h, Nat.zero_div] at h0
        exact absurd h0 (Nat.lt_irrefl 0)
      · exact h
    have hk1 : (k == 1) = false := beq_eq_false_iff_ne.mpr (by omega)
    have hk0 : (k == 0) = false := beq_eq_false_iff_ne.mpr (by omega)
    show (bif k == 1 then some g else bif k == 0 then none else
      match mul p a g (f + j) (k / 2) with
      | none => none
      | some h =>
        match double p a h with
        | none => none
        | some d => bif k % 2 == 0 then some d else add p d g) = some r
    rw [hk1, hk0]
    unfold climb at h2
    split at h2
    · cases h2
    · rename_i h' e'
      rw [mul_split j (k / 2) h0 h1 e']
      exact h2

theorem mul_step {p a : Nat} {g h r : Nat × Nat} {f k' : Nat} (j k : Nat) (hk : k / 2 ^ j = k') (h0 : 0 < k') (h1 : mul p a g f k' = some h)
    (h2 : climb p a g h j k = some r) : mul p a g (f + j) k = some r := by
  subst hk
  exact mul_split j k h0 h1 h2

end LCT.Certify
