import Verif.Model.BigInt.DivRem
import Verif.Lemmas.BigInt.Ops

namespace LCT.BigInt
open LCT.Spec
variable {ε : Type}

/-! ## The quotient digit estimate -/

theorem shlDD_eq {w x : Nat} (h : x < 2 ^ w) : shlDD w x = x * 2 ^ w := by
  rw [shlDD, Nat.shiftLeft_eq, Nat.mod_eq_of_lt]
  rw [two_pow_two_mul]
  exact Nat.mul_lt_mul_of_pos_right h (Nat.two_pow_pos w)

theorem shlDD_or {w x y : Nat} (hx : x < 2 ^ w) (hy : y < 2 ^ w) : (shlDD w x ||| y) = x * 2 ^ w + y := by
  rw [shlDD_eq hx, Nat.or_comm, or_eq_add hy (Nat.dvd_mul_left _ _), Nat.add_comm]

theorem subU_ok (m : Build) {q a b : Nat} (h : b ≤ a) : (subU m q a b : Out ε Nat) = .ok (a - b) := if_pos h

/-- What the estimate has to satisfy. -/
def Near (W D q : Nat) : Prop := W < (q + 1) * D ∧ q * D ≤ W + D

theorem dec_ok {W D N V P q : Nat} (hN : W < (N + 1) * P) (hV : V * P ≤ D) (h : N < q * V) : W < q * D := by
  have h1 : (N + 1) * P ≤ q * V * P := Nat.mul_le_mul_right _ h
  have h2 : q * V * P ≤ q * D := by rw [Nat.mul_assoc]; exact Nat.mul_le_mul_left _ hV
  omega

theorem stay_ok {W D N V P q B : Nat} (hN : N * P ≤ W) (hV : V * P ≤ D) (hV2 : D < (V + 1) * P) (hB : B ≤ V) (hq : q < B)
    (h : q * V ≤ N) : q * D ≤ W + D := by
  have h1 : q * D ≤ q * ((V + 1) * P) := Nat.mul_le_mul_left _ (by omega)
  have h2 : q * V * P ≤ N * P := Nat.mul_le_mul_right _ h
  have h3 : q * P ≤ V * P := Nat.mul_le_mul_right _ (by omega)
  have h4 : q * ((V + 1) * P) = q * V * P + q * P := by ring
  omega

theorem init_ok {W D B P q d0 d1 n0 n1 n2 : Nat} (hN : ((n0 * B + n1) * B + n2) * P ≤ W) (hV : (d0 * B + d1) * P ≤ D)
    (hV2 : D < (d0 * B + d1 + 1) * P) (hd1 : d1 < B) (hB : B ≤ 2 * d0) (hq : q < B) (h : q * d0 ≤ n0 * B + n1) :
    q * D ≤ W + 2 * D := by
  have h1 : q * D ≤ q * ((d0 * B + d1 + 1) * P) := Nat.mul_le_mul_left _ (by omega)
  have h2 : q * (d0 * B + d1 + 1) ≤ q * (d0 * B + B) := Nat.mul_le_mul_left _ (by omega)
  have h3 : q * d0 * B ≤ (n0 * B + n1) * B := Nat.mul_le_mul_right _ h
  have h4 : q * B ≤ B * B := Nat.mul_le_mul_right _ (by omega)
  have h5 : B * B ≤ 2 * d0 * B := Nat.mul_le_mul_right _ hB
  have h6 : q * (d0 * B + d1 + 1) ≤ (n0 * B + n1) * B + n2 + 2 * (d0 * B + d1) := by
    have : q * (d0 * B + B) = q * d0 * B + q * B := by ring
    have : 2 * d0 * B = 2 * (d0 * B) := by ring
    omega
  have h7 : q * (d0 * B + d1 + 1) * P ≤ ((n0 * B + n1) * B + n2 + 2 * (d0 * B + d1)) * P := Nat.mul_le_mul_right _ h6
  have h8 : ((n0 * B + n1) * B + n2 + 2 * (d0 * B + d1)) * P
      = ((n0 * B + n1) * B + n2) * P + 2 * ((d0 * B + d1) * P) := by ring
  have h9 : q * ((d0 * B + d1 + 1) * P) = q * (d0 * B + d1 + 1) * P := by ring
  omega

/-- The two tests of the estimate. -/
theorem qTest_spec (m : Build) {w W D P q r d0 d1 n0 n1 n2 : Nat}
    (hn2 : n2 < 2 ^ w) (hd0 : d0 < 2 ^ w) (hd1 : d1 < 2 ^ w)
    (hN : ((n0 * 2 ^ w + n1) * 2 ^ w + n2) * P ≤ W) (hN2 : W < ((n0 * 2 ^ w + n1) * 2 ^ w + n2 + 1) * P)
    (hV : (d0 * 2 ^ w + d1) * P ≤ D) (hV2 : D < (d0 * 2 ^ w + d1 + 1) * P)
    (hB : 2 ^ w ≤ 2 * d0) (hq : q < 2 ^ w) (hr : r < 2 ^ w) (hqr : q * d0 + r = n0 * 2 ^ w + n1) (hlow : W < (q + 1) * D) :
    ∃ q', ((do
      let lhs ← mulDD m w q d1
      dassert m (decide (r ≤ 2 ^ w - 1))
      let rhs ← addDD m w (shlDD w r) n2
      if rhs < lhs then do
        let q ← subU m (2 ^ (2 * w)) q 1
        let s ← addDD m w r d0
        if s ≤ 2 ^ w - 1 then do
          let lhs ← subU m (2 ^ (2 * w)) lhs d1
          let rhs ← addDD m w rhs (shlDD w d0)
          if rhs < lhs then do
            let q ← subU m (2 ^ (2 * w)) q 1
            return q % 2 ^ w
          else return q % 2 ^ w
        else return q % 2 ^ w
      else return q % 2 ^ w) : Out ε Nat) = .ok q' ∧ q' < 2 ^ w ∧ Near W D q' := by
  rw [shlDD_eq hr, shlDD_eq hd0]
  have hB0 : 0 < 2 ^ w := Nat.two_pow_pos w
  have key : q * (d0 * 2 ^ w + d1) = q * d0 * 2 ^ w + q * d1 := by ring
  have key2 : (n0 * 2 ^ w + n1) * 2 ^ w + n2 = q * d0 * 2 ^ w + r * 2 ^ w + n2 := by rw [← hqr]; ring
  have l1 : q * d1 < 2 ^ w * 2 ^ w := Nat.mul_lt_mul'' hq hd1
  have l2 : r * 2 ^ w + n2 < 2 ^ w * 2 ^ w := by
    have : (r + 1) * 2 ^ w ≤ 2 ^ w * 2 ^ w := Nat.mul_le_mul_right _ hr
    rw [Nat.add_mul, Nat.one_mul] at this; omega
  have l3 : r + d0 < 2 ^ w * 2 ^ w := by
    by_cases h1 : 2 ≤ 2 ^ w
    · have : 2 * 2 ^ w ≤ 2 ^ w * 2 ^ w := Nat.mul_le_mul_right _ h1
      omega
    · have : 2 ^ w * 2 ^ w = 2 ^ w := by
        have : 2 ^ w = 1 := by omega
        rw [this]
      omega
  have hBV : 2 ^ w ≤ d0 * 2 ^ w + d1 := by
    have : 1 * 2 ^ w ≤ d0 * 2 ^ w := Nat.mul_le_mul_right _ (by omega)
    omega
  have hstay := fun q => stay_ok (q := q) hN hV hV2 hBV
  have hdec := fun q => dec_ok (q := q) hN2 hV
  have hinit := init_ok hN hV hV2 hd1 hB hq (by omega)
  rw [mulDD_ok m l1, addDD_ok m l2]
  simp only [Out.bind_ok, decide_eq_true (show r ≤ 2 ^ w - 1 by omega), dassert_true]
  by_cases t1 : r * 2 ^ w + n2 < q * d1
  · rw [if_pos t1]
    have hq1 : 1 ≤ q := by
      rcases Nat.eq_zero_or_pos q with h | h
      · rw [h, Nat.zero_mul] at t1; omega
      · exact h
    have hW1 : W < q * D := hdec q (by omega)
    obtain ⟨p, rfl⟩ : ∃ p, q = p + 1 := ⟨q - 1, by omega⟩
    rw [subU_ok m hq1, Out.bind_ok, addDD_ok m l3, Out.bind_ok, Nat.add_sub_cancel]
    have keyp : p * (d0 * 2 ^ w + d1) = p * d0 * 2 ^ w + p * d1 := by ring
    have e1 : (p + 1) * d0 * 2 ^ w = p * d0 * 2 ^ w + d0 * 2 ^ w := by ring
    have e2 : (p + 1) * d1 = p * d1 + d1 := by ring
    have hpm : p % 2 ^ w = p := Nat.mod_eq_of_lt (by omega)
    have l4 : p * d1 < 2 ^ w * 2 ^ w := by omega
    have e3 : (r + d0) * 2 ^ w = r * 2 ^ w + d0 * 2 ^ w := by ring
    by_cases t2 : r + d0 ≤ 2 ^ w - 1
    · rw [if_pos t2, subU_ok m (by omega), Out.bind_ok]
      have l5 : r * 2 ^ w + n2 + d0 * 2 ^ w < 2 ^ w * 2 ^ w := by
        have : (r + d0 + 1) * 2 ^ w ≤ 2 ^ w * 2 ^ w := Nat.mul_le_mul_right _ (by omega)
        rw [Nat.add_mul, Nat.one_mul] at this; omega
      rw [addDD_ok m l5, Out.bind_ok]
      by_cases t3 : r * 2 ^ w + n2 + d0 * 2 ^ w < (p + 1) * d1 - d1
      · rw [if_pos t3]
        have hp1 : 1 ≤ p := by
          rcases Nat.eq_zero_or_pos p with h | h
          · rw [h] at t3; omega
          · exact h
        have hW2 : W < p * D := hdec p (by omega)
        obtain ⟨s, rfl⟩ : ∃ s, p = s + 1 := ⟨p - 1, by omega⟩
        rw [subU_ok m hp1, Out.bind_ok, Nat.add_sub_cancel]
        refine ⟨s, by rw [Nat.mod_eq_of_lt (by omega)]; rfl, by omega, hW2, ?_⟩
        have : (s + 1 + 1) * D = s * D + 2 * D := by ring
        omega
      · rw [if_neg t3]
        exact ⟨p, by rw [hpm]; rfl, by omega, hW1, hstay _ (by omega) (by omega)⟩
    · rw [if_neg t2]
      refine ⟨p, by rw [hpm]; rfl, by omega, hW1, hstay _ (by omega) ?_⟩
      have : 2 ^ w * 2 ^ w ≤ (r + d0) * 2 ^ w := Nat.mul_le_mul_right _ (by omega)
      omega
  · rw [if_neg t1]
    exact ⟨q, by rw [Nat.mod_eq_of_lt hq]; rfl, hq, hlow, hstay _ hq (by omega)⟩

theorem qHat_spec (m : Build) {w W D P d0 d1 n0 n1 n2 : Nat}
    (hn0 : n0 < 2 ^ w) (hn1 : n1 < 2 ^ w) (hn2 : n2 < 2 ^ w) (hd0 : d0 < 2 ^ w) (hd1 : d1 < 2 ^ w)
    (hN : ((n0 * 2 ^ w + n1) * 2 ^ w + n2) * P ≤ W) (hN2 : W < ((n0 * 2 ^ w + n1) * 2 ^ w + n2 + 1) * P)
    (hV : (d0 * 2 ^ w + d1) * P ≤ D) (hV2 : D < (d0 * 2 ^ w + d1 + 1) * P)
    (hB : 2 ^ w ≤ 2 * d0) (hW : W < 2 ^ w * D) :
    ∃ q, (qHat m w n0 n1 n2 d0 d1 : Out ε Nat) = .ok q ∧ q < 2 ^ w ∧ Near W D q := by
  have hB0 : 0 < 2 ^ w := Nat.two_pow_pos w
  have hle : n0 ≤ d0 := by
    apply Classical.byContradiction
    intro hc
    have h1 : (d0 + 1) * 2 ^ w * 2 ^ w ≤ n0 * 2 ^ w * 2 ^ w :=
      Nat.mul_le_mul_right _ (Nat.mul_le_mul_right _ (by omega))
    have h2 : (d0 * 2 ^ w + d1 + 1) ≤ (d0 + 1) * 2 ^ w := by rw [Nat.add_mul, Nat.one_mul]; omega
    have h3 : 2 ^ w * D ≤ 2 ^ w * ((d0 * 2 ^ w + d1 + 1) * P) := Nat.mul_le_mul_left _ (by omega)
    have h4 : 2 ^ w * ((d0 * 2 ^ w + d1 + 1) * P) ≤ 2 ^ w * ((d0 + 1) * 2 ^ w * P) :=
      Nat.mul_le_mul_left _ (Nat.mul_le_mul_right _ h2)
    have h5 : (d0 + 1) * 2 ^ w * 2 ^ w * P ≤ ((n0 * 2 ^ w + n1) * 2 ^ w + n2) * P := by
      apply Nat.mul_le_mul_right
      have : (n0 * 2 ^ w + n1) * 2 ^ w = n0 * 2 ^ w * 2 ^ w + n1 * 2 ^ w := by ring
      omega
    have h6 : 2 ^ w * ((d0 + 1) * 2 ^ w * P) = (d0 + 1) * 2 ^ w * 2 ^ w * P := by ring
    omega
  simp only [qHat]
  by_cases h : n0 = d0
  · subst h
    have l3 : n1 + n0 < 2 ^ w * 2 ^ w := by
      have h1 : 2 ≤ 2 ^ w := by
        apply Classical.byContradiction; intro hc
        have : 2 ^ w = 1 := by omega
        omega
      have : 2 * 2 ^ w ≤ 2 ^ w * 2 ^ w := Nat.mul_le_mul_right _ h1
      omega
    rw [if_pos rfl, addDD_ok m l3, Out.bind_ok]
    have hlow : W < (2 ^ w - 1 + 1) * D := by rwa [Nat.sub_add_cancel hB0]
    have e0 : (2 ^ w - 1) * n0 + n0 = n0 * 2 ^ w := by
      obtain ⟨k, hk⟩ : ∃ k, 2 ^ w = k + 1 := ⟨2 ^ w - 1, by omega⟩
      rw [hk, Nat.add_sub_cancel]; ring
    by_cases hr : n1 + n0 ≤ 2 ^ w - 1
    · rw [if_pos hr]
      exact qTest_spec (q := 2 ^ w - 1) (r := n1 + n0) m hn2 hd0 hd1 hN hN2 hV hV2 hB (by omega) (by omega) (by omega) hlow
    · rw [if_neg hr]
      refine ⟨2 ^ w - 1, by simp [Nat.mod_eq_of_lt (show 2 ^ w - 1 < 2 ^ w by omega)], by omega, hlow, ?_⟩
      have hBV : 2 ^ w ≤ n0 * 2 ^ w + d1 := by
        have : 1 * 2 ^ w ≤ n0 * 2 ^ w := Nat.mul_le_mul_right _ (by omega)
        omega
      refine stay_ok hN hV hV2 hBV (by omega) ?_
      have e1 : (2 ^ w - 1) * (n0 * 2 ^ w + d1) = (2 ^ w - 1) * n0 * 2 ^ w + (2 ^ w - 1) * d1 := by ring
      have e2 : (2 ^ w - 1) * d1 ≤ 2 ^ w * 2 ^ w := Nat.mul_le_mul (by omega) (by omega)
      have e3 : (n0 * 2 ^ w + n1) * 2 ^ w = (2 ^ w - 1) * n0 * 2 ^ w + (n1 + n0) * 2 ^ w := by
        rw [← e0]; ring
      have e4 : 2 ^ w * 2 ^ w ≤ (n1 + n0) * 2 ^ w := Nat.mul_le_mul_right _ (by omega)
      omega
  · rw [if_neg h, shlDD_or hn0 hn1, if_neg (by omega)]
    have hdiv : (n0 * 2 ^ w + n1) / d0 < 2 ^ w := by
      rw [Nat.div_lt_iff_lt_mul (by omega)]
      have : (n0 + 1) * 2 ^ w ≤ d0 * 2 ^ w := Nat.mul_le_mul_right _ (by omega)
      rw [Nat.add_mul, Nat.one_mul] at this
      rw [Nat.mul_comm (2 ^ w)]; omega
    have hmod : (n0 * 2 ^ w + n1) % d0 < d0 := Nat.mod_lt _ (by omega)
    have hdm := Nat.div_add_mod (n0 * 2 ^ w + n1) d0
    refine qTest_spec (q := (n0 * 2 ^ w + n1) / d0) (r := (n0 * 2 ^ w + n1) % d0) m hn2 hd0 hd1 hN hN2 hV hV2 hB hdiv (by omega) (by rw [Nat.mul_comm]; exact hdm) ?_
    -- the lower bound
    have h1 : (n0 * 2 ^ w + n1) + 1 ≤ ((n0 * 2 ^ w + n1) / d0 + 1) * d0 := by
      rw [Nat.add_mul, Nat.one_mul, Nat.mul_comm ((n0 * 2 ^ w + n1) / d0)]; omega
    generalize (n0 * 2 ^ w + n1) / d0 = q at *
    refine dec_ok hN2 hV ?_
    have h2 : ((n0 * 2 ^ w + n1) + 1) * 2 ^ w ≤ (q + 1) * d0 * 2 ^ w := Nat.mul_le_mul_right _ h1
    have h3 : (q + 1) * (d0 * 2 ^ w + d1) = (q + 1) * d0 * 2 ^ w + (q + 1) * d1 := by ring
    rw [Nat.add_mul, Nat.one_mul] at h2
    omega

/-! ## Normalisation -/

theorem normDigit_eq {w d hi lo : Nat} (hd : d ≤ w) (hhi : hi < 2 ^ w) (hlo : lo < 2 ^ w) :
    normDigit w d hi lo = hi % 2 ^ (w - d) * 2 ^ d + lo / 2 ^ (w - d) := by
  rw [normDigit]
  split
  · rename_i h
    subst h
    simp [Nat.mod_eq_of_lt hhi, Nat.div_eq_of_lt hlo]
  · rw [shlDigit_eq hd, Nat.shiftRight_eq_div_pow, Nat.or_comm, or_eq_add ?_ (Nat.dvd_mul_left _ _), Nat.add_comm]
    rw [Nat.div_lt_iff_lt_mul (Nat.two_pow_pos _), ← Nat.pow_add]
    rwa [Nat.add_sub_cancel' hd]

theorem normDigit_lt {w d hi lo : Nat} (hd : d ≤ w) (hhi : hi < 2 ^ w) (hlo : lo < 2 ^ w) : normDigit w d hi lo < 2 ^ w := by
  rw [normDigit_eq hd hhi hlo]
  have e : 2 ^ w = 2 ^ (w - d) * 2 ^ d := by rw [← Nat.pow_add]; congr 1; omega
  have h1 : hi % 2 ^ (w - d) < 2 ^ (w - d) := Nat.mod_lt _ (Nat.two_pow_pos _)
  have h2 : lo / 2 ^ (w - d) < 2 ^ d := by
    rw [Nat.div_lt_iff_lt_mul (Nat.two_pow_pos _), Nat.mul_comm, ← e]; exact hlo
  have h3 : (hi % 2 ^ (w - d) + 1) * 2 ^ d ≤ 2 ^ (w - d) * 2 ^ d := Nat.mul_le_mul_right _ h1
  rw [Nat.add_mul, Nat.one_mul] at h3
  omega

/-- The scaled low part of a number: the bits of its leading digit that move up, and a fraction. -/
theorem topFrac {w d : Nat} (hd : d ≤ w) (rest : List Nat) (hr : DigitsOk w rest) :
    2 ^ (w * rest.length) * (rest.getD 0 0 / 2 ^ (w - d)) ≤ val w rest.reverse * 2 ^ d ∧
    val w rest.reverse * 2 ^ d < 2 ^ (w * rest.length) * (rest.getD 0 0 / 2 ^ (w - d) + 1) := by
  cases rest with
  | nil => simp
  | cons x rest =>
    rw [digitsOk_cons] at hr
    have hl := val_lt (w := w) (ds := rest.reverse) (by simpa using hr.2)
    have e : 2 ^ w = 2 ^ (w - d) * 2 ^ d := by rw [← Nat.pow_add]; congr 1; omega
    simp only [List.reverse_cons, val_append, val_cons, val_nil, Nat.mul_zero, Nat.add_zero, List.length_reverse,
      List.length_cons, List.getD_cons_zero, Nat.mul_succ, Nat.pow_add] at hl ⊢
    rw [e]
    generalize 2 ^ (w * rest.length) = P at *
    have hdm := Nat.div_add_mod x (2 ^ (w - d))
    have hm : x % 2 ^ (w - d) < 2 ^ (w - d) := Nat.mod_lt _ (Nat.two_pow_pos _)
    generalize x / 2 ^ (w - d) = k at *
    generalize x % 2 ^ (w - d) = j at *
    generalize 2 ^ (w - d) = t at *
    have hs : 0 < 2 ^ d := Nat.two_pow_pos d
    generalize 2 ^ d = s at *
    generalize val w rest.reverse = L at *
    subst hdm
    have e1 : (L + P * (t * k + j)) * s = P * (t * s) * k + (L + P * j) * s := by ring
    have e2 : (L + P * j) + 1 ≤ P * t := by
      have : P * (j + 1) ≤ P * t := Nat.mul_le_mul_left _ hm
      rw [Nat.mul_add, Nat.mul_one] at this; omega
    have e3 : ((L + P * j) + 1) * s ≤ P * t * s := Nat.mul_le_mul_right _ e2
    have e4 : P * t * s = P * (t * s) := by ring
    rw [Nat.add_mul _ 1, Nat.one_mul] at e3
    rw [e1]
    constructor
    · omega
    · omega

/-! ## Multiply and subtract, add back -/

theorem subMulLoop_spec (m : Build) {w c : Nat} (hc : c < 2 ^ w) (a b : List Nat) (carry : Nat) (borrow : Bool)
    (ha : DigitsOk w a) (hb : DigitsOk w b) (hl : a.length = b.length + 2) (hcar : carry < 2 ^ w) :
    ∃ out k, (subMulLoop m w c a b carry borrow : Out ε _) = .ok out ∧ out.length = a.length ∧ DigitsOk w out ∧
      val w out + (val w b * c + carry + borrow.toNat) = val w a + 2 ^ (w * a.length) * k := by
  induction b generalizing a carry borrow with
  | nil =>
    match a, hl with
    | [x, y], _ =>
      simp only [digitsOk_cons, digitsOk_nil, and_true] at ha
      have h1 := borrowingSub_spec ha.1 (show carry % 2 ^ w < 2 ^ w from Nat.mod_lt _ (Nat.two_pow_pos w)) borrow
      have h2 := borrowingSub_spec ha.2 (Nat.two_pow_pos w) (borrowingSub w x (carry % 2 ^ w) borrow).2
      rw [Nat.mod_eq_of_lt hcar] at h1 h2
      refine ⟨[(borrowingSub w x (carry % 2 ^ w) borrow).1,
        (borrowingSub w y 0 (borrowingSub w x (carry % 2 ^ w) borrow).2).1],
        (borrowingSub w y 0 (borrowingSub w x (carry % 2 ^ w) borrow).2).2.toNat, rfl, rfl, ?_, ?_⟩
      · simp only [digitsOk_cons, digitsOk_nil, and_true]
        rw [Nat.mod_eq_of_lt hcar]
        exact ⟨h1.1, h2.1⟩
      · rw [Nat.mod_eq_of_lt hcar]
        generalize borrowingSub w x carry borrow = p1 at *
        generalize borrowingSub w y 0 p1.2 = p2 at *
        simp only [val_cons, val_nil, Nat.mul_zero, Nat.add_zero, Nat.zero_mul, Nat.zero_add, List.length_cons,
          List.length_nil] at h1 h2 ⊢
        have e : 2 ^ (w * 2) = 2 ^ w * 2 ^ w := by rw [Nat.mul_comm, two_pow_two_mul]
        rw [e]
        have h3 : 2 ^ w * (p2.1 + p1.2.toNat) = 2 ^ w * (y + 2 ^ w * p2.2.toNat) := by rw [h2.2]
        rw [Nat.mul_add, Nat.mul_add, ← Nat.mul_assoc] at h3
        have h4 := h1.2
        omega
  | cons y ys ih =>
    match a, hl with
    | x :: xs, hl =>
      simp only [List.length_cons, Nat.add_right_cancel_iff, Nat.add_right_comm _ 1 2] at hl
      rw [digitsOk_cons] at ha hb
      have hyc : y * c + carry < 2 ^ w * 2 ^ w := by
        obtain ⟨B, hB⟩ : ∃ B, 2 ^ w = B + 1 := ⟨2 ^ w - 1, by have := Nat.two_pow_pos w; omega⟩
        rw [hB] at hb hc hcar ⊢
        have : y * c ≤ B * B := Nat.mul_le_mul (by omega) (by omega)
        have e : (B + 1) * (B + 1) = B * B + 2 * B + 1 := by ring
        omega
      simp only [subMulLoop]
      rw [mulDD_ok m (by omega), Out.bind_ok, addDD_ok m hyc, Out.bind_ok]
      have hq : (y * c + carry) / 2 ^ w < 2 ^ w := by
        rw [Nat.div_lt_iff_lt_mul (Nat.two_pow_pos w)]; exact hyc
      have hr : (y * c + carry) % 2 ^ w < 2 ^ w := Nat.mod_lt _ (Nat.two_pow_pos w)
      have hdm := Nat.div_add_mod (y * c + carry) (2 ^ w)
      generalize (y * c + carry) / 2 ^ w = tq at *
      generalize (y * c + carry) % 2 ^ w = tr at *
      have h1 := borrowingSub_spec ha.1 hr borrow
      obtain ⟨out, k, e, ho, hd, hv⟩ := ih xs tq (borrowingSub w x tr borrow).2 ha.2 hb.2 hl hq
      simp only [e, Out.bind_ok, Out.pure_def]
      refine ⟨_, k, rfl, by simp [ho], by simp [h1.1, hd], ?_⟩
      simp only [val_cons, List.length_cons, Nat.mul_succ, Nat.pow_add]
      have h2 := h1.2
      have h3 : 2 ^ w * (val w out + (val w ys * c + tq + (borrowingSub w x tr borrow).2.toNat))
        = 2 ^ w * (val w xs + 2 ^ (w * xs.length) * k) := by rw [hv]
      have e1 : 2 ^ w * (val w out + (val w ys * c + tq + (borrowingSub w x tr borrow).2.toNat))
        = 2 ^ w * val w out + 2 ^ w * val w ys * c + 2 ^ w * tq + 2 ^ w * (borrowingSub w x tr borrow).2.toNat := by ring
      have e2 : 2 ^ w * (val w xs + 2 ^ (w * xs.length) * k) = 2 ^ w * val w xs + 2 ^ (w * xs.length) * 2 ^ w * k := by ring
      have e3 : (y + 2 ^ w * val w ys) * c = y * c + 2 ^ w * val w ys * c := by ring
      rw [e3]
      omega

theorem subMulDigits_spec (m : Build) {w c : Nat} (hc : c < 2 ^ w) (a b : List Nat) (ha : DigitsOk w a) (hb : DigitsOk w b)
    (hl : a.length = b.length + 2) (hle : val w b * c ≤ val w a) :
    ∃ out, (subMulDigits m w a b c : Out ε _) = .ok out ∧ out.length = a.length ∧ DigitsOk w out ∧
      val w out = val w a - val w b * c := by
  obtain ⟨out, k, e, h1, h2, h3⟩ := subMulLoop_spec (ε := ε) m hc a b 0 false ha hb hl (Nat.two_pow_pos w)
  refine ⟨out, ?_, h1, h2, ?_⟩
  · simp only [subMulDigits, hl, beq_self_eq_true, dassert_true, Out.bind_ok, e]
  · have hlt := val_lt h2
    rw [h1] at hlt
    have hva := val_lt ha
    simp only [Nat.add_zero, Bool.toNat_false] at h3
    cases k with
    | zero => omega
    | succ k =>
      exfalso
      have : 2 ^ (w * a.length) ≤ 2 ^ (w * a.length) * (k + 1) := Nat.le_mul_of_pos_right _ (by omega)
      omega

theorem assignAddLoop_spec {w : Nat} (a b : List Nat) (carry : Bool)
    (ha : DigitsOk w a) (hb : DigitsOk w b) (hl : a.length = b.length + 2) :
    ∃ out k, (assignAddLoop w a b carry : Out ε _) = .ok out ∧ out.length = a.length ∧ DigitsOk w out ∧
      val w out + 2 ^ (w * a.length) * k = val w a + val w b + carry.toNat := by
  induction b generalizing a carry with
  | nil =>
    match a, hl with
    | [x, y], _ =>
      simp only [digitsOk_cons, digitsOk_nil, and_true] at ha
      have h1 := carryingAdd_spec ha.1 (Nat.two_pow_pos w) carry
      have h2 := carryingAdd_spec ha.2 (Nat.two_pow_pos w) (carryingAdd w x 0 carry).2
      refine ⟨[(carryingAdd w x 0 carry).1, (carryingAdd w y 0 (carryingAdd w x 0 carry).2).1],
        (carryingAdd w y 0 (carryingAdd w x 0 carry).2).2.toNat, rfl, rfl, ?_, ?_⟩
      · simp only [digitsOk_cons, digitsOk_nil, and_true]
        exact ⟨h1.1, h2.1⟩
      · generalize carryingAdd w x 0 carry = p1 at *
        generalize carryingAdd w y 0 p1.2 = p2 at *
        simp only [val_cons, val_nil, Nat.mul_zero, Nat.add_zero, Nat.zero_mul, Nat.zero_add, List.length_cons,
          List.length_nil] at h1 h2 ⊢
        have e : 2 ^ (w * 2) = 2 ^ w * 2 ^ w := by rw [Nat.mul_comm, two_pow_two_mul]
        rw [e]
        have h3 : 2 ^ w * (p2.1 + 2 ^ w * p2.2.toNat) = 2 ^ w * (y + p1.2.toNat) := by rw [h2.2]
        rw [Nat.mul_add, Nat.mul_add, ← Nat.mul_assoc] at h3
        have h4 := h1.2
        omega
  | cons y ys ih =>
    match a, hl with
    | x :: xs, hl =>
      simp only [List.length_cons, Nat.add_right_cancel_iff, Nat.add_right_comm _ 1 2] at hl
      rw [digitsOk_cons] at ha hb
      simp only [assignAddLoop]
      have h1 := carryingAdd_spec ha.1 hb.1 carry
      obtain ⟨out, k, e, ho, hd, hv⟩ := ih xs (carryingAdd w x y carry).2 ha.2 hb.2 hl
      simp only [e, Out.bind_ok, Out.pure_def]
      refine ⟨_, k, rfl, by simp [ho], by simp [h1.1, hd], ?_⟩
      simp only [val_cons, List.length_cons, Nat.mul_succ, Nat.pow_add]
      have h2 := h1.2
      have h3 : 2 ^ w * (val w out + 2 ^ (w * xs.length) * k)
        = 2 ^ w * (val w xs + val w ys + (carryingAdd w x y carry).2.toNat) := by rw [hv]
      have e1 : 2 ^ w * (val w out + 2 ^ (w * xs.length) * k) = 2 ^ w * val w out + 2 ^ (w * xs.length) * 2 ^ w * k := by ring
      have e2 : 2 ^ w * (val w xs + val w ys + (carryingAdd w x y carry).2.toNat)
        = 2 ^ w * val w xs + 2 ^ w * val w ys + 2 ^ w * (carryingAdd w x y carry).2.toNat := by ring
      omega

theorem assignAddDigits_spec (m : Build) {w : Nat} (a b : List Nat) (ha : DigitsOk w a) (hb : DigitsOk w b)
    (hl : a.length = b.length + 2) (hlt : val w a + val w b < 2 ^ (w * a.length)) :
    ∃ out, (assignAddDigits m w a b : Out ε _) = .ok out ∧ out.length = a.length ∧ DigitsOk w out ∧
      val w out = val w a + val w b := by
  obtain ⟨out, k, e, h1, h2, h3⟩ := assignAddLoop_spec (ε := ε) a b false ha hb hl
  refine ⟨out, ?_, h1, h2, ?_⟩
  · simp only [assignAddDigits, hl, beq_self_eq_true, dassert_true, Out.bind_ok, e]
  · simp only [Nat.add_zero, Bool.toNat_false] at h3
    cases k with
    | zero => omega
    | succ k =>
      exfalso
      have : 2 ^ (w * a.length) ≤ 2 ^ (w * a.length) * (k + 1) := Nat.le_mul_of_pos_right _ (by omega)
      omega

theorem setLast_concat (ds : List Nat) (x y : Nat) : (setLast (ds ++ [x]) y : Out ε _) = .ok (ds ++ [y]) := by
  simp [setLast]

end LCT.BigInt
