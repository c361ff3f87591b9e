import Verif.Lemmas.Math.Field
import Mathlib.NumberTheory.LegendreSymbol.Basic

/-!
# The Tonelli–Shanks square root
-/

namespace LCT.Modular
open LCT.Spec LCT.Out LCT.BigInt
variable {ε : Type} {w : Nat} [hw : DigitWidth w] {p : Nat} [hpr : Fact p.Prime] {x y xp one : BInt} (m : Build)

/-- The search for a non-residue ends, because there is one below `p`. -/
theorem nonResidueLoop_y {xt1 xt2 : BInt} {h : Nat} (hp : Denotes w xp (p : Int)) (h1 : Denotes w one 1)
    (ht1 : Denotes w xt1 (h : Int)) (ht2 : Res w xt2 (-1 : ZMod p)) {c : ZMod p} (hc : c ^ h = -1) :
    ∀ (fuel : Nat) (n : Nat) (xn : BInt), Denotes w xn (n : Int) → 1 ≤ n → n ≤ c.val → c.val < n + fuel →
      (nonResidueLoop m w xp one xt1 xt2 fuel xn : Out ε _).Yields (fun r => ∃ v : ZMod p, Res w r v ∧ v ≠ 0 ∧ v ^ h = -1) := by
  intro fuel
  induction fuel with
  | zero => intro n xn _ _ h2 h3; omega
  | succ fuel ih =>
    intro n xn hn hn1 hnc hf
    have hp1 := hpr.out.one_lt
    have hcp := ZMod.val_lt c
    have hv : ((n : Nat) : ZMod p).val = n := ZMod.val_cast_of_lt (by omega)
    have hr : Res w xn ((n : Nat) : ZMod p) := by show Denotes w xn _; rwa [hv]
    have hn0 : ((n : Nat) : ZMod p) ≠ 0 := by
      intro h0; rw [h0, ZMod.val_zero] at hv; omega
    unfold nonResidueLoop
    run (pow_z m hr ht1 hp hp1 hn0) with t ht
    run (beq_z m ht ht2) with _ rfl
    by_cases hf' : ((n : Nat) : ZMod p) ^ h = -1
    · rw [if_pos (decide_eq_true hf')]
      exact .pure ⟨_, hr, hn0, hf'⟩
    · rw [if_neg (by simpa using hf')]
      run (add_y m hn h1) with xn' hn'
      have hne : n ≠ c.val := by
        rintro rfl
        rw [ZMod.natCast_zmod_val] at hf'
        exact hf' hc
      exact ih (n + 1) xn' (by exact_mod_cast hn') (by omega) (by omega) (by omega)

/-- The inner loop finds the least `i` with `b ^ (2 ^ i) = 1`. -/
theorem leastM_y {b : ZMod p} {r : Nat} (hp : Denotes w xp (p : Int)) (h1 : Denotes w one 1) (hr : 1 ≤ r)
    (hb : b ^ 2 ^ (r - 1) = 1) : ∀ (fuel count : Nat) (t : BInt), Res w t (b ^ 2 ^ count) → (∀ i < count, b ^ 2 ^ i ≠ 1) → count < r →
      r ≤ count + fuel →
      (leastM m w xp one r fuel count t : Out ε _).Yields (fun i => i < r ∧ b ^ 2 ^ i = 1 ∧ ∀ j < i, b ^ 2 ^ j ≠ 1) := by
  intro fuel
  induction fuel with
  | zero => intro count t _ _ h2 h3; omega
  | succ fuel ih =>
    intro count t ht hlt hc hf
    have h1' : Res w one (1 : ZMod p) := by
      show Denotes w one _
      have : Fact (1 < p) := ⟨hpr.out.one_lt⟩
      rw [ZMod.val_one]; exact h1
    unfold leastM
    run (beq_z m ht h1') with _ rfl
    by_cases he : b ^ 2 ^ count = 1
    · rw [if_pos (decide_eq_true he)]
      exact .pure ⟨hc, he, hlt⟩
    · rw [if_neg (by simpa using he)]
      have hne : ¬ count + 1 = r := by
        rintro rfl
        exact he (by simpa using hb)
      rw [if_neg hne]
      run (mulRem_z m ht ht hp) with t' ht'
      refine ih (count + 1) t' ?_ ?_ (by omega) (by omega)
      · rwa [pow_succ 2 count, mul_comm (2 ^ count), two_mul, pow_add]
      · intro i hi
        rcases Nat.lt_succ_iff_lt_or_eq.mp hi with h | rfl
        · exact hlt i h
        · exact he

omit hpr in
theorem subUsize_y {a b : Nat} (h : b ≤ a) : (subUsize a b : Out ε _).Yields (· = a - b) := ⟨_, if_pos h, rfl⟩

/-- The main loop, with its invariant. -/
theorem sqrtLoop_y {a : ZMod p} (hp : Denotes w xp (p : Int)) (h1 : Denotes w one 1) : ∀ (fuel r : Nat) (xx xb xg : BInt)
    (x b g : ZMod p), Res w xx x → Res w xb b → Res w xg g → g ≠ 0 → 1 ≤ r → r < fuel + 1 → x ^ 2 = a * b → g ^ 2 ^ (r - 1) = -1 →
      b ^ 2 ^ (r - 1) = 1 →
      (sqrtLoop m w xp one (fuel + 1) xx xb xg r : Out ε _).Yields
        (fun z => ∃ s : ZMod p, s ^ 2 = a ∧ Res w z.1 s ∧ Res w z.2 (-s)) := by
  intro fuel
  induction fuel with
  | zero => intro r _ _ _ _ _ _ _ _ _ _ h2 h3; omega
  | succ fuel ih =>
    intro r xx xb xg x b g hx hb hg hg0 hr hf hxx hgr hbr
    unfold sqrtLoop
    refine Yields.bind (leastM_y m hp h1 hr hbr (r + 1) 0 xb (by simpa using hb) (by simp) (by omega) (by omega)) ?_
    rintro mm ⟨hm1, hm2, hm3⟩
    by_cases h0 : mm = 0
    · subst h0
      rw [if_pos rfl]
      run (modulo_z m (neg_d hx) hp) with z hz
      refine .pure ⟨x, ?_, hx, ?_⟩
      · rw [hxx]; simp only [pow_zero, pow_one] at hm2; rw [hm2, mul_one]
      · show Denotes w z _
        have : (((-(x.val : Int)) : Int) : ZMod p) = -x := by rw [Int.cast_neg, int_val]
        rwa [this] at hz
    · rw [if_neg h0]
      have hp1 := hpr.out.one_lt
      run (subUsize_y (show mm ≤ r by omega)) with _ rfl
      run (subUsize_y (show 1 ≤ r - mm by omega)) with _ rfl
      run (oneShl_y w _) with e1 he1
      run (pow_z m hg (e := 2 ^ (r - mm - 1)) (by push_cast; exact he1) hp hp1 hg0) with g1 hg1
      run (mulRem_z m hx hg1 hp) with xx' hx'
      run (oneShl_y w _) with e2 he2
      run (pow_z m hg (e := 2 ^ (r - mm)) (by push_cast; exact he2) hp hp1 hg0) with g2 hg2
      run (mulRem_z m hb hg2 hp) with xb' hb'
      run (oneShl_y w _) with e3 he3
      run (pow_z m hg (e := 2 ^ (r - mm)) (by push_cast; exact he3) hp hp1 hg0) with xg' hg'
      have hgm : (g ^ 2 ^ (r - mm)) ^ 2 ^ (mm - 1) = -1 := by
        rw [← pow_mul, ← pow_add, show r - mm + (mm - 1) = r - 1 by omega, hgr]
      refine ih mm xx' xb' xg' _ _ _ hx' hb' hg' (pow_ne_zero _ hg0) (by omega) (by omega) ?_ hgm ?_
      · rw [mul_pow, hxx, ← pow_mul, ← pow_succ, show r - mm - 1 + 1 = r - mm by omega, mul_assoc]
      · rw [mul_pow, hgm]
        have hsq : (b ^ 2 ^ (mm - 1)) ^ 2 = 1 := by
          rw [← pow_mul, ← pow_succ, show mm - 1 + 1 = mm by omega, hm2]
        rcases mul_self_eq_one_iff.mp ((pow_two _).symm.trans hsq) with h | h
        · exact absurd h (hm3 (mm - 1) (by omega))
        · rw [h]; simp

/-- `sqrt` for an odd prime, with a limit that reaches a non-residue. -/
theorem sqrtWithin_y {xa : BInt} {a c : ZMod p} (hp2 : p ≠ 2) (hp : Denotes w xp (p : Int)) (hx : Res w xa a) (ha : a ≠ 0)
    (hc2 : c ^ (p / 2) = -1) (hcv : 2 ≤ c.val) (limit : Nat) (hlim : c.val < 2 + limit) :
    (sqrtWithin m w limit xa xp : Out ε _).Yields (fun o => match o with
      | none => ¬ IsSquare a
      | some z => ∃ s : ZMod p, s ^ 2 = a ∧ Res w z.1 s ∧ Res w z.2 (-s)) := by
  have hp1 := hpr.out.one_lt
  have hodd : p % 2 = 1 := by
    rcases hpr.out.eq_two_or_odd with h | h
    · exact absurd h hp2
    · exact h
  have hp3 : 3 ≤ p := by omega
  have : Fact (1 < p) := ⟨hp1⟩
  unfold sqrtWithin
  run (zero_y w) with xzero hzero
  run (one_y w) with xone hone
  run (ofInt_y w 2 (by norm_num) (by norm_num)) with xtwo htwo
  run (isOdd_y hp) with _ rfl
  run (Yields.rassert (by simp; omega)) with - -
  run (gt_y m hp htwo) with _ rfl
  run (Yields.rassert (by simp; omega)) with - -
  run (gt_y m hx hzero) with _ rfl
  run (Yields.rassert (decide_eq_true (val_pos_iff.mpr ha))) with - -
  run (lt_y m hx hp) with _ rfl
  run (Yields.rassert (decide_eq_true (val_lt_int a))) with - -
  run (sub_y m hp hone) with xp1 hp1'
  have hhalf : ((p : Int) - 1).tdiv 2 = ((p / 2 : Nat) : Int) := by
    rw [Int.tdiv_eq_ediv_of_nonneg (by omega)]; omega
  run (div_y m hp1' htwo (by decide)) with xh hh
  rw [hhalf] at hh
  run (pow_z m hx hh hp hp1 ha) with t ht
  have hone' : Res w xone (1 : ZMod p) := by
    show Denotes w xone _
    rw [ZMod.val_one]; exact hone
  run (beq_z m ht hone') with _ rfl
  by_cases hsq : a ^ (p / 2) = 1
  swap
  · simp only [hsq, decide_false, Bool.not_false, if_true]
    exact .pure (fun h => hsq ((ZMod.euler_criterion p ha).mp h))
  simp only [hsq, decide_true, Bool.not_true, Bool.false_eq_true, if_false]
  run (trailingZeros_y m hp1' (by omega)) with e ⟨o, ho⟩
  have hpe : p - 1 = 2 ^ e * (2 * o + 1) := by rw [← ho]; omega
  have he1 : 1 ≤ e := by
    rcases Nat.eq_zero_or_pos e with h | h
    · subst h; simp at hpe; omega
    · exact h
  have hhalf2 : p / 2 = (2 * o + 1) * 2 ^ (e - 1) := by
    have h2 : 2 ^ e = 2 * 2 ^ (e - 1) := by
      rw [← pow_succ']; congr 1; omega
    have h3 : p - 1 = 2 * ((2 * o + 1) * 2 ^ (e - 1)) := by rw [hpe, h2]; ring
    omega
  run (shr_y m hp1' e) with xs hs
  have hsv : ((p : Int) - 1).tdiv (2 ^ e) = ((2 * o + 1 : Nat) : Int) := by
    have h3 : ((p : Int) - 1) = 2 ^ e * ((2 * o + 1 : Nat) : Int) := by
      have : ((p - 1 : Nat) : Int) = (p : Int) - 1 := by omega
      rw [← this, hpe]; push_cast; ring
    rw [h3, Int.mul_tdiv_cancel_left _ (by positivity)]
  rw [hsv] at hs
  run (ofInt_y w 2 (by norm_num) (by norm_num)) with xn0 hn0
  run (div_y m hp1' htwo (by decide)) with xt1 ht1
  rw [hhalf] at ht1
  run (ofInt_y w (-1) (by norm_num) (by norm_num)) with xm hm
  run (modulo_z m hm hp) with xt2 ht2
  rw [Int.cast_neg, Int.cast_one] at ht2
  refine Yields.bind (nonResidueLoop_y m hp hone ht1 ht2 hc2 _ 2 xn0 hn0 (by decide) hcv hlim) ?_
  rintro xn ⟨v, hv, hv0, hvh⟩
  run (add_y m hs hone) with xs1 hs1
  run (div_y m hs1 htwo (by decide)) with xs2 hs2
  have hs2v : (((2 * o + 1 : Nat) : Int) + 1).tdiv 2 = ((o + 1 : Nat) : Int) := by
    rw [Int.tdiv_eq_ediv_of_nonneg (by omega)]; omega
  rw [hs2v] at hs2
  run (pow_z m hx hs2 hp hp1 ha) with xx hxx
  run (pow_z m hx hs hp hp1 ha) with xb hb
  run (pow_z m hv hs hp hp1 hv0) with xg hg
  refine Yields.bind (sqrtLoop_y (a := a) m hp hone e e xx xb xg _ _ _ hxx hb hg (pow_ne_zero _ hv0) he1 (by omega) ?_ ?_ ?_) ?_
  · rw [← pow_mul, ← pow_succ']; congr 1; omega
  · rw [← pow_mul, ← hhalf2, hvh]
  · rw [← pow_mul, ← hhalf2, hsq]
  · intro z hz
    exact .pure hz

omit hw in
theorem half_of_nonsquare {c : ZMod p} (hc : ¬ IsSquare c) : c ^ (p / 2) = -1 := by
  have hc0 : c ≠ 0 := by rintro rfl; exact hc ⟨0, by simp⟩
  rcases ZMod.pow_div_two_eq_neg_one_or_one p hc0 with h | h
  · exact absurd ((ZMod.euler_criterion p hc0).mpr h) hc
  · exact h

omit hw in
/-- The least non-residue is at most one more than the square root of the modulus. -/
theorem exists_small_nonresidue (hp2 : p ≠ 2) : ∃ c : ZMod p, c ^ (p / 2) = -1 ∧ 2 ≤ c.val ∧ c.val < 2 + Nat.sqrt p := by
  have hp1 := hpr.out.one_lt
  have hodd : p % 2 = 1 := by
    rcases hpr.out.eq_two_or_odd with h | h
    · exact absurd h hp2
    · exact h
  have hneg : (1 : ZMod p) ≠ -1 := by
    have : Fact (2 < p) := ⟨by omega⟩
    exact (ZMod.neg_one_ne_one).symm
  have hex : ∃ n : Nat, ((n : ZMod p)) ^ (p / 2) = -1 := by
    obtain ⟨c, hc⟩ := FiniteField.exists_nonsquare (F := ZMod p) (by rwa [ZMod.ringChar_zmod_n])
    exact ⟨c.val, by rw [ZMod.natCast_zmod_val]; exact half_of_nonsquare hc⟩
  classical
  have hmin : ∀ {k}, k < Nat.find hex → ¬ ((k : ZMod p)) ^ (p / 2) = -1 := fun h => Nat.find_min hex h
  have hspec := Nat.find_spec hex
  generalize Nat.find hex = n at hmin hspec
  have hhalf : 0 < p / 2 := by omega
  have hn0 : n ≠ 0 := by
    rintro rfl
    rw [Nat.cast_zero, zero_pow (by omega)] at hspec
    exact one_ne_zero (neg_eq_zero.mp hspec.symm)
  have hn1 : n ≠ 1 := by
    rintro rfl
    rw [Nat.cast_one, one_pow] at hspec
    exact hneg hspec
  have hnp : n < p := by
    by_contra hc
    have h1 := hmin (k := n % p) (lt_of_lt_of_le (Nat.mod_lt _ (by omega)) (by omega))
    rw [ZMod.natCast_mod] at h1
    exact h1 hspec
  have hval : ((n : ZMod p)).val = n := ZMod.val_cast_of_lt hnp
  refine ⟨n, hspec, by omega, ?_⟩
  rw [hval]
  have hdm := Nat.div_add_mod p n
  have hr : 0 < p % n := by
    rcases Nat.eq_zero_or_pos (p % n) with h | h
    · rcases (Nat.dvd_prime hpr.out).mp (Nat.dvd_of_mod_eq_zero h) with h | h <;> omega
    · exact h
  have hrn := Nat.mod_lt p (show n > 0 by omega)
  have hprod : ((p / n + 1 : Nat) : ZMod p) * n = ((n - p % n : Nat) : ZMod p) := by
    have h1 : (p / n + 1) * n = p + (n - p % n) := by
      have : (p / n + 1) * n = n * (p / n) + n := by ring
      omega
    rw [← Nat.cast_mul, h1, Nat.cast_add, ZMod.natCast_self, zero_add]
  have hd0 : ((n - p % n : Nat) : ZMod p) ≠ 0 := by
    intro h0
    have := ZMod.val_cast_of_lt (show n - p % n < p by omega)
    rw [h0, ZMod.val_zero] at this
    omega
  have hd : ((n - p % n : Nat) : ZMod p) ^ (p / 2) = 1 := by
    rcases ZMod.pow_div_two_eq_neg_one_or_one p hd0 with h | h
    · exact h
    · exact absurd h (hmin (by omega))
  rw [← hprod, mul_pow, hspec, mul_neg, mul_one] at hd
  have hge : ¬ p / n + 1 < n := fun h => hmin h (by rw [← hd, neg_neg])
  have h2 : n * (n - 1) ≤ n * (p / n) := Nat.mul_le_mul_left _ (by omega)
  have h3 : (n - 1) * (n - 1) ≤ n * (n - 1) := Nat.mul_le_mul_right _ (by omega)
  have := Nat.le_sqrt.mpr (show (n - 1) * (n - 1) ≤ p by omega)
  omega

/-- `sqrt` for an odd prime. -/
theorem sqrt_y {xa : BInt} {a : ZMod p} (hp2 : p ≠ 2) (hp : Denotes w xp (p : Int)) (hx : Res w xa a) (ha : a ≠ 0) :
    (sqrt m w xa xp : Out ε _).Yields (fun o => match o with
      | none => ¬ IsSquare a
      | some z => ∃ s : ZMod p, s ^ 2 = a ∧ Res w z.1 s ∧ Res w z.2 (-s)) := by
  obtain ⟨c, h1, h2, -⟩ := exists_small_nonresidue hp2
  have hst := natAbs_lt_storage hp
  have hcl := ZMod.val_lt c
  exact sqrtWithin_y m hp2 hp hx ha h1 h2 _ (by omega)

end LCT.Modular
