import Verif.Lemmas.BigInt.Yields
import Mathlib.Data.Int.GCD
import Mathlib.Data.Int.ModEq

/-!
# Lemmas on the modular arithmetic functions
-/

namespace LCT.Modular
open LCT.Spec LCT.Out LCT.BigInt
variable {ε : Type} {w : Nat} [hw : DigitWidth w] {x y : BInt} {a b n : Int} (m : Build)

omit hw in
theorem dassertM_y {c : Out ε Bool} (h : c.Yields (· = true)) : (dassertM m c).Yields (fun _ => True) := by
  obtain ⟨b, e, rfl⟩ := h
  cases m
  · exact ⟨(), by simp [dassertM, e], trivial⟩
  · exact ⟨(), rfl, trivial⟩

theorem gtZero_y (hx : Denotes w x a) (h : 0 < a) : (do let z ← BInt.zero w; BInt.gt m x z : Out ε Bool).Yields (· = true) := by
  run (zero_y w) with z hz
  exact (gt_y m hx hz).mono (by rintro _ rfl; simpa using h)

theorem geZero_y (hx : Denotes w x a) (h : 0 ≤ a) : (do let z ← BInt.zero w; BInt.ge m x z : Out ε Bool).Yields (· = true) := by
  run (zero_y w) with z hz
  exact (ge_y m hx hz).mono (by rintro _ rfl; simpa using h)

theorem modulo_y (hx : Denotes w x a) (hy : Denotes w y n) (hn : 0 < n) : (modulo m w x y : Out ε _).Yields (Denotes w · (a % n)) := by
  unfold modulo
  run (dassertM_y m (gtZero_y m hy hn)) with - -
  run (rem_y m hx hy (by omega)) with r hr
  run (zero_y w) with z hz
  run (lt_y m hr hz) with _ rfl
  by_cases h : a.tmod n < 0
  · rw [if_pos (decide_eq_true h)]
    refine (add_y m hr hy).mono fun z hz => ?_
    have : a.tmod n + n = a % n := by
      have h1 := Int.tmod_eq_emod (a := a) (b := n)
      have h2 := Int.emod_nonneg a (show n ≠ 0 by omega)
      have h3 := Int.emod_lt_of_pos a hn
      split at h1 <;> omega
    rwa [← this]
  · rw [if_neg (by simpa using h)]
    refine .pure ?_
    have : a.tmod n = a % n := by
      have h1 := Int.tmod_eq_emod (a := a) (b := n)
      have h2 := Int.emod_nonneg a (show n ≠ 0 by omega)
      have h3 := Int.emod_lt_of_pos a hn
      split at h1 <;> omega
    rwa [← this]

theorem mulRem_y {z : BInt} (hx : Denotes w x a) (hy : Denotes w y b) (hz : Denotes w z n) (ha : 0 ≤ a) (hb : 0 ≤ b) (hn : n ≠ 0) :
    (mulRem m w x y z : Out ε _).Yields (Denotes w · (a * b % n)) := by
  unfold mulRem
  run (mul_y m hx hy) with t ht
  refine (rem_y m ht hz hn).mono fun r hr => ?_
  rwa [Int.tmod_eq_emod_of_nonneg (Int.mul_nonneg ha hb)] at hr

/-- What `invert` answers. -/
def InverseOf (w : Nat) (a n : Int) : Option BInt → Prop
  | some r => ∃ x, Denotes w r x ∧ 0 ≤ x ∧ x < n ∧ a * x % n = 1
  | none => Int.gcd a n ≠ 1

theorem invert_y (hx : Denotes w x a) (hy : Denotes w y n) (hn : 1 < n) (ha : a % n ≠ 0) :
    (invert m w x y : Out ε _).Yields (InverseOf w a n) := by
  unfold invert
  have ha0 : a ≠ 0 := by rintro rfl; simp at ha
  have h2 := Int.emod_nonneg a (show n ≠ 0 by omega)
  have h3 := Int.emod_lt_of_pos a (show 0 < n by omega)
  run (dassertM_y m (by
    run (one_y w) with o ho
    exact (gt_y m hy ho).mono (by rintro _ rfl; simpa using hn))) with - -
  run (dassertM_y m (by
    run (isZero_y m hx) with _ rfl
    exact .pure (by simpa using ha0))) with - -
  run (modulo_y m hx hy (by omega)) with r hr
  obtain ⟨zx, zy, zv, cx, cy, e, hzx, hzy, hzv, hb⟩ := (by
    obtain ⟨k, hk, rfl⟩ := hw
    have hs := natAbs_lt_storage hy
    have hs' : (n * (a % n)).natAbs < 2 ^ (2 * BInt.storageBits (8 * k) y) := by
      rw [Int.natAbs_mul, Nat.two_mul, pow_add]
      have h1 := Int.emod_lt_of_pos a (show 0 < n by omega)
      have h2 := Int.emod_nonneg a (show n ≠ 0 by omega)
      exact Nat.mul_lt_mul'' hs (by omega)
    have := gcd_spec (ε := ε) m hk hy.1 hr.1 (by rw [hr.2]; omega) (by rw [hr.2, hy.2]; omega)
      (2 * (8 * k + BInt.storageBits (8 * k) y) + 1) (by omega)
      (by rw [hy.2, hr.2]; exact lt_of_lt_of_le hs' (Nat.pow_le_pow_right (by omega) (by omega)))
    rwa [hr.2, hy.2] at this : ∃ zx zy zv cx cy,
      (BInt.gcd m w (2 * (w + BInt.storageBits w y) + 1) y r : Out ε _) = .ok (zx, zy, zv) ∧
        Denotes w zx cx ∧ Denotes w zy cy ∧ Denotes w zv (Int.gcd n (a % n)) ∧ cx * n + cy * (a % n) = Int.gcd n (a % n))
  have hg : Int.gcd n (a % n) = Int.gcd a n := by
    rw [Int.gcd_comm n]; exact Int.gcd_emod a n
  rw [hg] at hzv hb
  rw [e, Out.bind_ok]
  show Yields (BInt.one w >>= _) _
  run (one_y w) with o ho
  run (beq_y m hzv ho) with _ rfl
  by_cases h1 : Int.gcd a n = 1
  · rw [h1] at hb
    simp only [h1, Nat.cast_one, decide_true, Bool.not_true, Bool.false_eq_true, if_false]
    run (modulo_y m hzy hy (by omega)) with i hi
    refine .pure ⟨_, hi, Int.emod_nonneg _ (by omega), Int.emod_lt_of_pos _ (by omega), ?_⟩
    rw [Int.mul_emod, Int.emod_emod_of_dvd _ (dvd_refl n), Int.mul_comm]
    have h4 : cy % n * (a % n) % n = (cx * n + cy * (a % n)) % n := by
      rw [Int.add_comm (cx * n), Int.add_mul_emod_self_right, Int.mul_emod, Int.emod_emod_of_dvd _ (dvd_refl n),
        Int.mul_emod cy, Int.emod_emod_of_dvd _ (dvd_refl n)]
    rw [h4, hb]
    exact Int.emod_eq_of_lt (by decide) (by simpa using hn)
  · have h1' : ((Int.gcd a n : Int) = 1) = False := by
      simpa using h1
    simp only [h1', decide_false, Bool.not_false, if_true]
    exact .pure h1

/-- The iterations of `pow`: `result * base ^ exp` is invariant modulo `n`. -/
theorem powLoop_y {nb : BInt} (hn : Denotes w nb n) (hn1 : 1 < n) (fuel : Nat) : ∀ (xe xb xr : BInt) (e : Nat) (b r : Int),
    Denotes w xe e → Denotes w xb b → Denotes w xr r → 0 ≤ b → 0 ≤ r → r < n → e < 2 ^ fuel →
    (powLoop m w nb (fuel + 1) xe xb xr : Out ε _).Yields (Denotes w · (r * b ^ e % n)) := by
  induction fuel with
  | zero =>
    intro xe xb xr e b r he hb hr hb0 hr0 hrn hf
    have : e = 0 := by omega
    subst this
    unfold powLoop
    run (zero_y w) with z hz
    run (gt_y m he hz) with _ rfl
    simp only [Nat.cast_zero, gt_iff_lt, Int.lt_irrefl, decide_false, Bool.not_false, if_true]
    refine .pure ?_
    rwa [pow_zero, Int.mul_one, Int.emod_eq_of_lt hr0 hrn]
  | succ fuel ih =>
    intro xe xb xr e b r he hb hr hb0 hr0 hrn hf
    unfold powLoop
    run (zero_y w) with z hz
    run (gt_y m he hz) with _ rfl
    by_cases h0 : e = 0
    · subst h0
      simp only [Nat.cast_zero, gt_iff_lt, Int.lt_irrefl, decide_false, Bool.not_false, if_true]
      refine .pure ?_
      rwa [pow_zero, Int.mul_one, Int.emod_eq_of_lt hr0 hrn]
    · have hpos : (decide ((e : Int) > 0)) = true := decide_eq_true (by omega)
      rw [hpos]
      simp only [Bool.not_true, Bool.false_eq_true, if_false]
      run (isOdd_y he) with _ rfl
      refine Yields.bind (P := (Denotes w · (r * b ^ (e % 2) % n))) ?_ ?_
      · by_cases ho : (2 : Int) ∣ e
        · have : e % 2 = 0 := by omega
          simp only [ho, not_true, decide_false, Bool.false_eq_true, if_false, this, pow_zero, Int.mul_one]
          rw [Int.emod_eq_of_lt hr0 hrn]
          exact .pure hr
        · have : e % 2 = 1 := by omega
          simp only [ho, not_false_eq_true, decide_true, if_true, this, pow_one]
          exact mulRem_y m hr hb hn hr0 hb0 (by omega)
      · intro xr' hr'
        run (shr_y m he 1) with xe' he'
        run (mulRem_y m hb hb hn hb0 hb0 (by omega)) with xb' hb'
        have he2 : ((e : Int).tdiv (2 ^ 1)) = ((e / 2 : Nat) : Int) := by
          rw [Int.tdiv_eq_ediv_of_nonneg (by omega)]; simp
        rw [he2] at he'
        refine (ih xe' xb' xr' (e / 2) _ _ he' hb' hr' (Int.emod_nonneg _ (by omega)) (Int.emod_nonneg _ (by omega))
          (Int.emod_lt_of_pos _ (by omega)) (by omega)).mono fun z hz => ?_
        have : r * b ^ (e % 2) % n * (b * b % n) ^ (e / 2) % n = r * b ^ e % n := by
          have h1 : (b * b % n) ^ (e / 2) ≡ (b * b) ^ (e / 2) [ZMOD n] := (Int.mod_modEq _ _).pow _
          have h2 : r * b ^ (e % 2) % n ≡ r * b ^ (e % 2) [ZMOD n] := Int.mod_modEq _ _
          have h3 := h2.mul h1
          have h4 : r * b ^ (e % 2) * (b * b) ^ (e / 2) = r * b ^ e := by
            have : e = 2 * (e / 2) + e % 2 := by omega
            conv_rhs => rw [this, pow_add, pow_mul, pow_two]
            ring
          rw [h4] at h3
          exact h3
        rwa [this] at hz

/-- In release builds, and in both builds for a base between `0` and `n`. -/
theorem pow_y {xa xe xn : BInt} {e : Nat} (ha : Denotes w xa a) (he : Denotes w xe e) (hn : Denotes w xn n) (hn1 : 1 < n)
    (hr : m = .release ∧ 0 ≤ a ∨ 0 < a ∧ a < n) : (pow m w xa xe xn : Out ε _).Yields (Denotes w · (a ^ e % n)) := by
  have loop : (do let one ← BInt.one w; powLoop m w xn (BInt.storageBits w xe + 1) xe xa one : Out ε _).Yields
      (Denotes w · (a ^ e % n)) := by
    run (one_y w) with o ho
    refine (powLoop_y m hn hn1 _ xe xa o e a 1 he ha ho (by omega) (by decide) hn1 ?_).mono fun z hz => by rwa [Int.one_mul] at hz
    simpa using natAbs_lt_storage he
  unfold pow
  rcases hr with ⟨rfl, h⟩ | ⟨h1, h2⟩
  · exact loop
  · run (dassertM_y m (gtZero_y m ha h1)) with - -
    run (dassertM_y m ((lt_y m ha hn).mono (by rintro _ rfl; simpa using h2))) with - -
    run (dassertM_y m (geZero_y m he (by omega))) with - -
    run (dassertM_y m (gtZero_y m hn (by omega))) with - -
    exact loop

end LCT.Modular
