import Verif.Lemmas.BigInt.DivRem

namespace LCT.BigInt
open LCT.Spec
variable {ε : Type}

/-- The normalised divisor: its two leading digits and the shift. -/
structure Norm (w : Nat) (divisor : List Nat) (d d0 d1 : Nat) : Prop where
  len : 2 ≤ divisor.length
  digits : DigitsOk w divisor
  d_le : d ≤ w
  d0_lt : d0 < 2 ^ w
  d1_lt : d1 < 2 ^ w
  half : 2 ^ w ≤ 2 * d0
  small : val w divisor < 2 ^ (w * (divisor.length - 1)) * 2 ^ (w - d)
  low : (d0 * 2 ^ w + d1) * 2 ^ (w * (divisor.length - 2)) ≤ val w divisor * 2 ^ d
  high : val w divisor * 2 ^ d < (d0 * 2 ^ w + d1 + 1) * 2 ^ (w * (divisor.length - 2))

theorem norm_of_valid {w : Nat} {rest : List Nat} {y0 y1 : Nat} (hv : Valid w (rest.reverse ++ [y1, y0])) (hw : 1 ≤ w) :
    Norm w (rest.reverse ++ [y1, y0]) (leadingZeros w y0) (normDigit w (leadingZeros w y0) y0 y1)
      (normDigit w (leadingZeros w y0) y1 (rest.getD 0 0)) := by
  have hdig := hv.digits
  have hv' : Valid w ((rest.reverse ++ [y1]) ++ [y0]) := by simpa using hv
  obtain ⟨-, hy0, hne⟩ := valid_concat_iff.mp hv'
  have hy0n : y0 ≠ 0 := hne.resolve_left (by simp)
  simp only [digitsOk_append, digitsOk_cons, digitsOk_nil, and_true, digitsOk_reverse] at hdig
  obtain ⟨hrest, hy1, -⟩ := hdig
  have hy2 : rest.getD 0 0 < 2 ^ w := by
    cases rest with
    | nil => simpa using Nat.two_pow_pos w
    | cons a as => simpa using (digitsOk_cons _ _ _ |>.mp hrest).1
  have hbits : digitBits y0 ≤ w := (digitBits_le_iff _ _).mpr hy0
  have hbits1 : 1 ≤ digitBits y0 := by
    apply Classical.byContradiction
    intro hc
    have := (digitBits_le_iff y0 0).mp (by omega)
    simp at this; omega
  have hd : leadingZeros w y0 ≤ w := Nat.sub_le _ _
  have hwd : w - leadingZeros w y0 = digitBits y0 := by unfold leadingZeros; omega
  have hdd : leadingZeros w y0 = w - digitBits y0 := rfl
  generalize hdef : leadingZeros w y0 = d at *
  have hy0t : y0 < 2 ^ (w - d) := by rw [hwd]; exact (digitBits_le_iff _ _).mp (Nat.le_refl _)
  have hy0h : 2 ^ (w - d) ≤ 2 * y0 := by
    apply Classical.byContradiction
    intro hc
    have h1 : y0 < 2 ^ (digitBits y0 - 1) := by
      have : 2 ^ (w - d) = 2 * 2 ^ (digitBits y0 - 1) := by
        rw [hwd]; conv_lhs => rw [show digitBits y0 = digitBits y0 - 1 + 1 by omega, Nat.pow_succ, Nat.mul_comm]
      omega
    have := (digitBits_le_iff _ _).mpr h1
    omega
  have hB : 2 ^ w = 2 ^ (w - d) * 2 ^ d := by rw [← Nat.pow_add]; congr 1; omega
  have hlen : (rest.reverse ++ [y1, y0]).length = rest.length + 2 := by simp
  have hval : val w (rest.reverse ++ [y1, y0]) = val w rest.reverse + 2 ^ (w * rest.length) * (y1 + 2 ^ w * y0) := by
    rw [val_append]; simp
  have hfrac := topFrac hd rest hrest
  have hL := val_lt (w := w) (ds := rest.reverse) (by simpa using hrest)
  rw [List.length_reverse] at hL
  have hV : normDigit w d y0 y1 * 2 ^ w + normDigit w d y1 (rest.getD 0 0)
      = 2 ^ d * (y0 * 2 ^ w + y1) + rest.getD 0 0 / 2 ^ (w - d) := by
    rw [normDigit_eq hd hy0 hy1, normDigit_eq hd hy1 hy2, Nat.mod_eq_of_lt hy0t]
    have := Nat.div_add_mod y1 (2 ^ (w - d))
    generalize y1 / 2 ^ (w - d) = k at *
    generalize y1 % 2 ^ (w - d) = j at *
    rw [← this, hB]; ring
  refine ⟨by rw [hlen]; omega, hv.digits, hd, normDigit_lt hd hy0 hy1, normDigit_lt hd hy1 hy2, ?_, ?_, ?_, ?_⟩
  · rw [normDigit_eq hd hy0 hy1, Nat.mod_eq_of_lt hy0t]
    have : 2 ^ (w - d) * 2 ^ d ≤ 2 * y0 * 2 ^ d := Nat.mul_le_mul_right _ hy0h
    have e : 2 * y0 * 2 ^ d = 2 * (y0 * 2 ^ d) := by ring
    generalize y1 / 2 ^ (w - d) = k at *
    omega
  · rw [hlen, hval]
    have e : 2 ^ (w * (rest.length + 2 - 1)) = 2 ^ (w * rest.length) * 2 ^ w := by
      rw [← Nat.pow_add]; congr 1
    rw [e]
    have h1 : y1 + 2 ^ w * y0 + 1 ≤ 2 ^ w * 2 ^ (w - d) := by
      have : 2 ^ w * (y0 + 1) ≤ 2 ^ w * 2 ^ (w - d) := Nat.mul_le_mul_left _ hy0t
      rw [Nat.mul_add, Nat.mul_one] at this; omega
    have h2 := Nat.mul_le_mul_left (2 ^ (w * rest.length)) h1
    rw [Nat.mul_add, Nat.mul_one, ← Nat.mul_assoc] at h2
    omega
  · rw [hV, hlen, hval, Nat.add_sub_cancel]
    have e : (val w rest.reverse + 2 ^ (w * rest.length) * (y1 + 2 ^ w * y0)) * 2 ^ d
      = val w rest.reverse * 2 ^ d + 2 ^ d * (y0 * 2 ^ w + y1) * 2 ^ (w * rest.length) := by ring
    rw [e, Nat.add_mul, Nat.mul_comm (rest.getD 0 0 / 2 ^ (w - d))]
    omega
  · rw [hV, hlen, hval, Nat.add_sub_cancel]
    have e : (val w rest.reverse + 2 ^ (w * rest.length) * (y1 + 2 ^ w * y0)) * 2 ^ d
      = val w rest.reverse * 2 ^ d + 2 ^ d * (y0 * 2 ^ w + y1) * 2 ^ (w * rest.length) := by ring
    rw [e, Nat.add_assoc _ _ 1, Nat.add_mul, Nat.mul_comm (rest.getD 0 0 / 2 ^ (w - d) + 1)]
    omega

/-- Clearing a leading digit that is known to be 1. -/
theorem setLast_one {w k : Nat} {ds : List Nat} (hl : ds.length = k + 1) (hd : DigitsOk w ds)
    (h1 : 2 ^ (w * k) ≤ val w ds) (h2 : val w ds < 2 * 2 ^ (w * k)) :
    ds.getLast? ≠ some 0 ∧ ∃ out, (setLast ds 0 : Out ε _) = .ok out ∧ out.length = k + 1 ∧ DigitsOk w out ∧
      val w out = val w ds - 2 ^ (w * k) := by
  have hne : ds ≠ [] := by rintro rfl; simp at hl
  obtain ⟨i, e, rfl⟩ := exists_concat hne
  simp only [List.length_append, List.length_singleton, Nat.add_right_cancel_iff] at hl
  simp only [digitsOk_append, digitsOk_cons, digitsOk_nil, and_true] at hd
  rw [val_append, hl] at h1 h2
  simp only [val_cons, val_nil, Nat.mul_zero, Nat.add_zero] at h1 h2
  have hi := val_lt hd.1
  rw [hl] at hi
  have he : e = 1 := by
    match e with
    | 0 => simp at h1; omega
    | 1 => rfl
    | e + 2 =>
      exfalso
      have : 2 ^ (w * k) * 2 ≤ 2 ^ (w * k) * (e + 2) := Nat.mul_le_mul_left _ (by omega)
      omega
  subst he
  refine ⟨by simp, i ++ [0], setLast_concat _ _ _, by simp [hl], by simp [hd.1, Nat.two_pow_pos], ?_⟩
  rw [val_append, val_append, hl]; simp

theorem getLast_zero {w k : Nat} {ds : List Nat} (hl : ds.length = k + 1) (hd : DigitsOk w ds) (h1 : val w ds < 2 ^ (w * k)) :
    ds.getLast? = some 0 := by
  have hne : ds ≠ [] := by rintro rfl; simp at hl
  obtain ⟨i, e, rfl⟩ := exists_concat hne
  simp only [List.length_append, List.length_singleton, Nat.add_right_cancel_iff] at hl
  rw [val_append, hl] at h1
  simp only [val_cons, val_nil, Nat.mul_zero, Nat.add_zero] at h1
  match e with
  | 0 => simp
  | e + 1 =>
    exfalso
    have : 2 ^ (w * k) * 1 ≤ 2 ^ (w * k) * (e + 1) := Nat.mul_le_mul_left _ (by omega)
    omega

theorem divStep_spec (m : Build) {w : Nat} (hw : 1 ≤ w) {divisor : List Nat} {d d0 d1 : Nat} (hn : Norm w divisor d d0 d1)
    {win : List Nat} (hl : win.length = divisor.length + 2) (hd : DigitsOk w win) (hlt : val w win < 2 ^ w * val w divisor) :
    ∃ out q, (divStep m w divisor d d0 d1 win : Out ε _) = .ok (out, q) ∧ out.length = divisor.length + 2 ∧ DigitsOk w out ∧
      q < 2 ^ w ∧ val w win = q * val w divisor + val w out ∧ val w out < val w divisor := by
  have hlen := hn.len
  -- the shape of the window
  obtain ⟨p, x0, x1, x2, rest, hrev⟩ : ∃ p x0 x1 x2 rest, win.reverse = p :: x0 :: x1 :: x2 :: rest := by
    match hr : win.reverse with
    | p :: x0 :: x1 :: x2 :: rest => exact ⟨p, x0, x1, x2, rest, rfl⟩
    | [] | [_] | [_, _] | [_, _, _] =>
      have := congrArg List.length hr
      simp only [List.length_reverse, List.length_cons, List.length_nil] at this
      omega
  have hwin : win = rest.reverse ++ [x2, x1, x0] ++ [p] := by
    have := congrArg List.reverse hrev
    simpa using this
  have hrl : rest.length = divisor.length - 2 := by
    have := congrArg List.length hwin
    simp at this; omega
  have hd' := hd
  rw [hwin] at hd'
  simp only [digitsOk_append, digitsOk_cons, digitsOk_nil, and_true, digitsOk_reverse] at hd'
  obtain ⟨⟨hrest, hx2, hx1, hx0⟩, hp⟩ := hd'
  have hvlt := val_lt hn.digits
  have hB0 := Nat.two_pow_pos w
  have hpow : 2 ^ w * 2 ^ (w * divisor.length) = 2 ^ (w * (divisor.length + 1)) := by
    rw [← Nat.pow_add]; congr 1; rw [Nat.mul_add]; omega
  have hltp : val w win < 2 ^ (w * (divisor.length + 1)) := by
    rw [← hpow]
    have := Nat.mul_le_mul_left (2 ^ w) (Nat.le_of_lt hvlt)
    omega
  -- the padding digit is zero
  have hp0 : p = 0 := by
    have := getLast_zero (k := divisor.length + 1) hl hd hltp
    rw [hwin] at this
    simpa using this
  subst hp0
  have hvw : val w win = val w rest.reverse + 2 ^ (w * rest.length) * (x2 + 2 ^ w * (x1 + 2 ^ w * x0)) := by
    rw [hwin, val_append, val_append]; simp
  have hx3 : rest.getD 0 0 < 2 ^ w := by
    cases rest with
    | nil => simpa using hB0
    | cons a as => simpa using (digitsOk_cons _ _ _ |>.mp hrest).1
  have hdw := hn.d_le
  have hBt : 2 ^ w = 2 ^ (w - d) * 2 ^ d := by rw [← Nat.pow_add]; congr 1; omega
  have hp2 : 2 ^ (w * (divisor.length - 1)) = 2 ^ (w * rest.length) * 2 ^ w := by
    rw [hrl, ← Nat.pow_add]; congr 1
    rw [show divisor.length - 1 = divisor.length - 2 + 1 by omega, Nat.mul_add]; omega
  have hx0t : x0 < 2 ^ (w - d) := by
    apply Classical.byContradiction
    intro hc
    have hs := hn.small
    rw [hp2] at hs
    have h1 : 2 ^ (w * rest.length) * (2 ^ w * (2 ^ w * 2 ^ (w - d))) ≤ val w win := by
      rw [hvw]
      have : 2 ^ w * (2 ^ w * 2 ^ (w - d)) ≤ x2 + 2 ^ w * (x1 + 2 ^ w * x0) := by
        have h2 : 2 ^ w * 2 ^ (w - d) ≤ x1 + 2 ^ w * x0 := by
          have := Nat.mul_le_mul_left (2 ^ w) (Nat.le_of_not_lt hc); omega
        have := Nat.mul_le_mul_left (2 ^ w) h2
        omega
      have := Nat.mul_le_mul_left (2 ^ (w * rest.length)) this
      omega
    have h3 : 2 ^ w * val w divisor < 2 ^ w * (2 ^ (w * rest.length) * 2 ^ w * 2 ^ (w - d)) :=
      Nat.mul_lt_mul_of_pos_left hs hB0
    have e : 2 ^ w * (2 ^ (w * rest.length) * 2 ^ w * 2 ^ (w - d))
      = 2 ^ (w * rest.length) * (2 ^ w * (2 ^ w * 2 ^ (w - d))) := by ring
    omega
  have hfrac := topFrac hdw rest hrest
  have hN : (normDigit w d x0 x1 * 2 ^ w + normDigit w d x1 x2) * 2 ^ w + normDigit w d x2 (rest.getD 0 0)
      = 2 ^ d * ((x0 * 2 ^ w + x1) * 2 ^ w + x2) + rest.getD 0 0 / 2 ^ (w - d) := by
    rw [normDigit_eq hdw hx0 hx1, normDigit_eq hdw hx1 hx2, normDigit_eq hdw hx2 hx3, Nat.mod_eq_of_lt hx0t]
    have h1 := Nat.div_add_mod x1 (2 ^ (w - d))
    generalize x1 / 2 ^ (w - d) = k1 at *
    generalize x1 % 2 ^ (w - d) = j1 at *
    have h2 := Nat.div_add_mod x2 (2 ^ (w - d))
    generalize x2 / 2 ^ (w - d) = k2 at *
    generalize x2 % 2 ^ (w - d) = j2 at *
    rw [← h1, ← h2, hBt]; ring
  have evw : val w win * 2 ^ d = val w rest.reverse * 2 ^ d + 2 ^ d * ((x0 * 2 ^ w + x1) * 2 ^ w + x2) * 2 ^ (w * rest.length) := by
    rw [hvw]; ring
  -- the estimate
  obtain ⟨q, eq, hq, hnear⟩ := qHat_spec (ε := ε) (W := val w win * 2 ^ d) (D := val w divisor * 2 ^ d)
    (P := 2 ^ (w * (divisor.length - 2))) m
    (normDigit_lt hdw hx0 hx1) (normDigit_lt hdw hx1 hx2) (normDigit_lt hdw hx2 hx3) hn.d0_lt hn.d1_lt
    (by
      rw [hN, ← hrl, evw, Nat.add_mul, Nat.mul_comm (rest.getD 0 0 / 2 ^ (w - d))]; omega)
    (by
      have e : (2 ^ d * ((x0 * 2 ^ w + x1) * 2 ^ w + x2) + rest.getD 0 0 / 2 ^ (w - d) + 1) * 2 ^ (w * rest.length)
        = 2 ^ d * ((x0 * 2 ^ w + x1) * 2 ^ w + x2) * 2 ^ (w * rest.length)
          + 2 ^ (w * rest.length) * (rest.getD 0 0 / 2 ^ (w - d) + 1) := by ring
      rw [hN, ← hrl, evw, e]; omega)
    hn.low hn.high hn.half
    (by rw [← Nat.mul_assoc]; exact Nat.mul_lt_mul_of_pos_right hlt (Nat.two_pow_pos d))
  obtain ⟨hlo, hhi⟩ := hnear
  have hlo' : val w win < (q + 1) * val w divisor := by
    rw [← Nat.mul_assoc] at hlo; exact Nat.lt_of_mul_lt_mul_right hlo
  have hhi' : q * val w divisor ≤ val w win + val w divisor := by
    rw [← Nat.mul_assoc, ← Nat.add_mul] at hhi; exact Nat.le_of_mul_le_mul_right hhi (Nat.two_pow_pos d)
  -- the padded window
  have hset : (setLast win 1 : Out ε _) = .ok (rest.reverse ++ [x2, x1, x0] ++ [1]) := by
    rw [hwin]; exact setLast_concat _ _ _
  have h1lt : 1 < 2 ^ w := Nat.one_lt_two_pow (by omega)
  have hd1 : DigitsOk w (rest.reverse ++ [x2, x1, x0] ++ [1]) := by simp [hrest, hx0, hx1, hx2, h1lt]
  have hl1 : (rest.reverse ++ [x2, x1, x0] ++ [1]).length = divisor.length + 2 := by simp; omega
  have hv1 : val w (rest.reverse ++ [x2, x1, x0] ++ [1]) = val w win + 2 ^ (w * (divisor.length + 1)) := by
    rw [hwin, val_append _ _ [1], val_append _ _ [0]]
    have : (rest.reverse ++ [x2, x1, x0]).length = divisor.length + 1 := by simp; omega
    rw [this]; simp
  have hvp : val w divisor < 2 ^ (w * (divisor.length + 1)) := by
    refine Nat.lt_of_lt_of_le hvlt (Nat.pow_le_pow_right (by decide) (Nat.mul_le_mul_left _ (by omega)))
  have hcomm : val w divisor * q = q * val w divisor := Nat.mul_comm _ _
  obtain ⟨o1, e1, l1, dg1, v1⟩ := subMulDigits_spec (ε := ε) m hq _ _ hd1 hn.digits hl1 (by rw [hv1]; omega)
  rw [hv1] at v1
  rw [hl1] at l1
  simp only [divStep, hrev, List.drop_succ_cons, List.drop_zero, List.getElem?_cons_zero, List.getElem?_cons_succ, unwrap_some,
    Out.bind_ok]
  have hgd : (x0 :: x1 :: x2 :: rest).getD 3 0 = rest.getD 0 0 := by simp [List.getD]
  rw [hgd, eq, Out.bind_ok, hset, Out.bind_ok, e1, Out.bind_ok]
  rw [Nat.add_mul, Nat.one_mul] at hlo'
  by_cases hc : val w win < q * val w divisor
  · have hz := getLast_zero (k := divisor.length + 1) l1 dg1 (by omega)
    rw [if_pos hz]
    have hq1 : 1 ≤ q := by
      rcases Nat.eq_zero_or_pos q with h | h
      · rw [h, Nat.zero_mul] at hc; omega
      · exact h
    obtain ⟨s, rfl⟩ : ∃ s, q = s + 1 := ⟨q - 1, by omega⟩
    have es : (s + 1) * val w divisor = s * val w divisor + val w divisor := by ring
    have hp3 : 2 * 2 ^ (w * (divisor.length + 1)) ≤ 2 ^ (w * (divisor.length + 2)) := by
      have : 2 ^ (w * (divisor.length + 2)) = 2 ^ w * 2 ^ (w * (divisor.length + 1)) := by
        rw [← Nat.pow_add]; congr 1; rw [Nat.mul_add, Nat.mul_add]; omega
      rw [this]; exact Nat.mul_le_mul_right _ h1lt
    obtain ⟨o2, e2, l2, dg2, v2⟩ := assignAddDigits_spec (ε := ε) m o1 divisor dg1 hn.digits l1 (by rw [l1]; omega)
    rw [subU_ok m hq1, Out.bind_ok, e2, Out.bind_ok, Nat.add_sub_cancel]
    rw [l1] at l2
    obtain ⟨-, o3, e3, l3, dg3, v3⟩ := setLast_one (ε := ε) (k := divisor.length + 1) l2 dg2 (by omega) (by omega)
    rw [e3, Out.bind_ok]
    exact ⟨o3, s, rfl, l3, dg3, by omega, by omega, by omega⟩
  · obtain ⟨hz, o3, e3, l3, dg3, v3⟩ := setLast_one (ε := ε) (k := divisor.length + 1) l1 dg1 (by omega) (by omega)
    rw [if_neg hz, e3, Out.bind_ok]
    exact ⟨o3, q, rfl, l3, dg3, hq, by omega, by omega⟩

theorem divAt_spec (m : Build) {w : Nat} (hw : 1 ≤ w) {divisor : List Nat} {d d0 d1 : Nat} (hn : Norm w divisor d d0 d1)
    {j : Nat} {st : List Nat} (hl : j + (divisor.length + 2) ≤ st.length) (hd : DigitsOk w st)
    (hlt : val w st < 2 ^ (w * (j + 1)) * val w divisor) :
    ∃ st' q, (divAt m w divisor d d0 d1 j st : Out ε _) = .ok (st', q) ∧ st'.length = st.length ∧ DigitsOk w st' ∧
      q < 2 ^ w ∧ val w st = 2 ^ (w * j) * q * val w divisor + val w st' ∧ val w st' < 2 ^ (w * j) * val w divisor := by
  have e1 := val_take_drop w j st (by omega)
  have e2 := val_take_drop w (divisor.length + 2) (st.drop j) (by simp; omega)
  rw [List.drop_drop] at e2
  have hlo := val_lt (hd.take j)
  rw [List.length_take, Nat.min_eq_left (by omega)] at hlo
  have hwl : ((st.drop j).take (divisor.length + 2)).length = divisor.length + 2 := by simp; omega
  have hwd : DigitsOk w ((st.drop j).take (divisor.length + 2)) := (hd.drop j).take _
  have hvlt := val_lt hn.digits
  have hpj : 2 ^ (w * (j + 1)) = 2 ^ (w * j) * 2 ^ w := by rw [← Nat.pow_add]; congr 1
  have hdl : val w (st.drop j) < 2 ^ w * val w divisor := by
    rw [hpj, Nat.mul_assoc] at hlt
    have : 2 ^ (w * j) * val w (st.drop j) < 2 ^ (w * j) * (2 ^ w * val w divisor) := by omega
    exact Nat.lt_of_mul_lt_mul_left this
  have hrest0 : val w (st.drop (j + (divisor.length + 2))) = 0 := by
    apply Classical.byContradiction
    intro hc
    have h1 : 2 ^ (w * (divisor.length + 2)) * 1 ≤ 2 ^ (w * (divisor.length + 2)) * val w (st.drop (j + (divisor.length + 2))) :=
      Nat.mul_le_mul_left _ (by omega)
    have h2 : 2 ^ w * val w divisor ≤ 2 ^ w * 2 ^ (w * divisor.length) := Nat.mul_le_mul_left _ (by omega)
    have h3 : 2 ^ w * 2 ^ (w * divisor.length) ≤ 2 ^ (w * (divisor.length + 2)) := by
      rw [← Nat.pow_add]; apply Nat.pow_le_pow_right (by decide); rw [Nat.mul_add]; omega
    omega
  rw [hrest0, Nat.mul_zero, Nat.add_zero] at e2
  obtain ⟨out, q, eq, ho, hod, hq, hv, hr⟩ := divStep_spec (ε := ε) m hw hn hwl hwd (by omega)
  simp only [divAt, eq, Out.bind_ok, Out.pure_def]
  have hvs : val w (st.take j ++ out ++ st.drop (j + (divisor.length + 2))) = val w (st.take j) + 2 ^ (w * j) * val w out := by
    rw [val_append, hrest0, val_append, List.length_take, Nat.min_eq_left (by omega)]; simp
  refine ⟨_, q, rfl, ?_, ?_, hq, ?_, ?_⟩
  · simp only [List.length_append, List.length_take, List.length_drop, ho]; omega
  · simp only [digitsOk_append]
    exact ⟨⟨hd.take j, hod⟩, hd.drop _⟩
  · rw [hvs, e1, e2, hv]; ring
  · rw [hvs]
    have : 2 ^ (w * j) * (val w out + 1) ≤ 2 ^ (w * j) * val w divisor := Nat.mul_le_mul_left _ hr
    rw [Nat.mul_add, Nat.mul_one] at this
    omega

theorem divLoop_spec (m : Build) {w : Nat} (hw : 1 ≤ w) {divisor : List Nat} {d d0 d1 : Nat} (hn : Norm w divisor d d0 d1)
    (j : Nat) (st qs : List Nat) (hl : j + (divisor.length + 2) ≤ st.length) (hd : DigitsOk w st)
    (hlt : val w st < 2 ^ (w * (j + 1)) * val w divisor) :
    ∃ st' new, (divLoop m w divisor d d0 d1 j st qs : Out ε _) = .ok (st', new ++ qs) ∧ st'.length = st.length ∧
      DigitsOk w st' ∧ new.length = j + 1 ∧ DigitsOk w new ∧
      val w st = val w new * val w divisor + val w st' ∧ val w st' < val w divisor := by
  induction j generalizing st qs with
  | zero =>
    obtain ⟨st', q, e, h1, h2, h3, h4, h5⟩ := divAt_spec (ε := ε) m hw hn (j := 0) hl hd hlt
    refine ⟨st', [q], by simp [divLoop, e], h1, h2, rfl, by simp [h3], ?_, by simpa using h5⟩
    simpa using h4
  | succ j ih =>
    obtain ⟨st', q, e, h1, h2, h3, h4, h5⟩ := divAt_spec (ε := ε) m hw hn (j := j + 1) hl hd hlt
    obtain ⟨st'', new, e2, g1, g2, g3, g4, g5, g6⟩ := ih st' (q :: qs) (by omega) h2 h5
    refine ⟨st'', new ++ [q], by simp [divLoop, e, e2], by omega, g2, by simp [g3], by simp [g4, h3], ?_, g6⟩
    rw [h4, g5, val_append, g3]
    simp only [val_cons, val_nil, Nat.mul_zero, Nat.add_zero]
    ring

/-! ## Division by one digit -/

theorem divSmall_spec {w d : Nat} (hd0 : 0 < d) (hd : d < 2 ^ w) (xs : List Nat) (r : Nat) (hx : DigitsOk w xs) (hr : r < d) :
    (divSmall w d xs r).1.length = xs.length ∧ DigitsOk w (divSmall w d xs r).1 ∧ (divSmall w d xs r).2 < d ∧
    r * 2 ^ (w * xs.length) + val w xs.reverse
      = val w (divSmall w d xs r).1.reverse * d + (divSmall w d xs r).2 := by
  induction xs generalizing r with
  | nil => simp [divSmall, hr]
  | cons x xs ih =>
    rw [digitsOk_cons] at hx
    have ht : (shlDD w r ||| x) = r * 2 ^ w + x := shlDD_or (by omega) hx.1
    have hm : (r * 2 ^ w + x) % d < d := Nat.mod_lt _ hd0
    obtain ⟨h1, h2, h3, h4⟩ := ih ((r * 2 ^ w + x) % d) hx.2 hm
    have hq : (r * 2 ^ w + x) / d < 2 ^ w := by
      rw [Nat.div_lt_iff_lt_mul hd0]
      have : (r + 1) * 2 ^ w ≤ d * 2 ^ w := Nat.mul_le_mul_right _ hr
      rw [Nat.add_mul, Nat.one_mul] at this
      rw [Nat.mul_comm (2 ^ w)]
      omega
    simp only [divSmall, ht]
    refine ⟨by simp [h1], by simp [h2, Nat.mod_lt _ (Nat.two_pow_pos w)], h3, ?_⟩
    rw [Nat.mod_eq_of_lt hq]
    simp only [List.reverse_cons, val_append, List.length_reverse, h1, val_cons, val_nil, Nat.mul_zero, Nat.add_zero,
      List.length_cons, Nat.mul_succ, Nat.pow_add]
    have hdm := Nat.div_add_mod (r * 2 ^ w + x) d
    generalize (r * 2 ^ w + x) / d = k at *
    generalize (r * 2 ^ w + x) % d = j at *
    generalize divSmall w d xs j = p at *
    generalize 2 ^ (w * xs.length) = Q at *
    have e1 : r * (Q * 2 ^ w) + (val w xs.reverse + Q * x) = Q * (r * 2 ^ w + x) + val w xs.reverse := by ring
    rw [e1, ← hdm]
    have e2 : Q * (d * k + j) + val w xs.reverse = Q * (d * k) + (j * Q + val w xs.reverse) := by ring
    rw [e2, h4]; ring

/-! ## The division -/

theorem filled_one (w n : Nat) (hw : 1 ≤ w) (hn : 1 ≤ n) :
    (writeBuf n [1] : Out ε _) = .ok ([1] ++ List.replicate (n - 1) 0) ∧ Filled w n 1 ([1] ++ List.replicate (n - 1) 0) 1 := by
  have h1lt : 1 < 2 ^ w := Nat.one_lt_two_pow (by omega)
  exact ⟨writeBuf_eq (by simpa using hn), filled_write (out := [1]) (by simpa using hn) (by simp [h1lt]) (by simp) (by simp) (by simp)⟩

theorem filled_of {w n v : Nat} {buf : List Nat} (hl : buf.length = n) (hd : DigitsOk w buf) (hv : val w buf = v) :
    Filled w n v buf (lenDigits buf) := ⟨hl, hd, hv, rfl⟩

theorem divKnuth_spec (m : Build) {w : Nat} (hw : 1 ≤ w) {a b : List Nat} (ha : Valid w a) (hb : Valid w b)
    (hb2 : 2 ≤ b.length) (hlt : val w b < val w a) {nq nr : Nat} (hnq : a.length ≤ nq) (hnr : b.length ≤ nr)
    (hnr2 : nr ≤ a.length + 2) :
    ∃ q ql r rl, (divKnuth m w a b nq nr : Out ε _) = .ok ((q, ql), (r, rl)) ∧
      Filled w nq (val w a / val w b) q ql ∧ Filled w nr (val w a % val w b) r rl := by
  obtain ⟨y0, y1, rest, hrev⟩ : ∃ y0 y1 rest, b.reverse = y0 :: y1 :: rest := by
    match hr : b.reverse with
    | y0 :: y1 :: rest => exact ⟨y0, y1, rest, rfl⟩
    | [] | [_] =>
      have := congrArg List.length hr
      simp only [List.length_reverse, List.length_cons, List.length_nil] at this
      omega
  have hbe : b = rest.reverse ++ [y1, y0] := by
    have := congrArg List.reverse hrev
    simpa using this
  have hn : Norm w b (leadingZeros w y0) (normDigit w (leadingZeros w y0) y0 y1)
      (normDigit w (leadingZeros w y0) y1 (rest.getD 0 0)) := by
    have := norm_of_valid (rest := rest) (hbe ▸ hb) hw
    rwa [← hbe] at this
  have hlen : b.length ≤ a.length := hb.length_le_of_val_le ha (by omega)
  have hgd : (y0 :: y1 :: rest).getD 2 0 = rest.getD 0 0 := by simp [List.getD]
  simp only [divKnuth, hrev, List.getElem?_cons_zero, List.getElem?_cons_succ, unwrap_some, Out.bind_ok, hgd]
  have hd : DigitsOk w (a ++ [0, 0]) := by simp [ha.digits, Nat.two_pow_pos]
  have hv0 : val w (a ++ [0, 0]) = val w a := by rw [val_append]; simp
  have hvb : 2 ^ (w * (b.length - 1)) ≤ val w b := hb.le_val hb2
  have hbound : val w (a ++ [0, 0]) < 2 ^ (w * (a.length - b.length + 1)) * val w b := by
    rw [hv0]
    have h1 := ha.val_lt
    have h2 : 2 ^ (w * (a.length - b.length + 1)) * 2 ^ (w * (b.length - 1)) ≤ 2 ^ (w * (a.length - b.length + 1)) * val w b :=
      Nat.mul_le_mul_left _ hvb
    have h3 : 2 ^ (w * (a.length - b.length + 1)) * 2 ^ (w * (b.length - 1)) = 2 ^ (w * a.length) := by
      rw [← Nat.pow_add, ← Nat.mul_add]; congr 2; omega
    omega
  obtain ⟨st, qs, e, h1, h2, h3, h4, h5, h6⟩ :=
    divLoop_spec (ε := ε) m hw hn (a.length - b.length) (a ++ [0, 0]) [] (by simp; omega) hd hbound
  rw [List.append_nil] at e
  rw [hv0] at h5
  have hr1 : decide (b.length ≤ a.length) = true := by simpa using hlen
  have hr2 : decide (b.length + 2 ≤ (a ++ [0, 0]).length) = true := by simp; omega
  have hsl : st.length = a.length + 2 := by rw [h1]; simp
  have hr3 : decide (nr ≤ st.length) = true := by simp; omega
  have hbl := hb.length_pos
  rw [hr1, hr2]
  simp only [rassert_true, Out.bind_ok, e, writeBuf_eq (show qs.length ≤ nq by omega), hr3]
  have hqne : qs ++ List.replicate (nq - qs.length) 0 ≠ [] := by
    intro hc; have := congrArg List.length hc
    simp only [List.length_append, List.length_replicate, List.length_take, List.length_nil, List.length_reverse] at this
    omega
  have hrne : st.take nr ≠ [] := by
    intro hc; have := congrArg List.length hc
    simp only [List.length_append, List.length_replicate, List.length_take, List.length_nil, List.length_reverse] at this
    omega
  rw [lenDigitsM_eq hqne, Out.bind_ok, lenDigitsM_eq hrne, Out.bind_ok]
  refine ⟨_, _, _, _, rfl, filled_of ?_ ?_ ?_, filled_of ?_ (h2.take nr) ?_⟩
  · simp; omega
  · simp [h4, digitsOk_replicate]
  · rw [val_pad, h5, Nat.mul_comm, Nat.mul_add_div (by omega), Nat.div_eq_of_lt h6, Nat.add_zero]
  · simp; omega
  · have hsm : val w a % val w b = val w st := by
      rw [h5, Nat.mul_comm, Nat.mul_add_mod, Nat.mod_eq_of_lt h6]
    rw [hsm]
    have e1 := val_take_drop w nr st (by omega)
    have h8 : val w (st.drop nr) = 0 := by
      apply Classical.byContradiction
      intro hc
      have g1 : 2 ^ (w * nr) * 1 ≤ 2 ^ (w * nr) * val w (st.drop nr) := Nat.mul_le_mul_left _ (by omega)
      have g2 : 2 ^ (w * b.length) ≤ 2 ^ (w * nr) := Nat.pow_le_pow_right (by decide) (Nat.mul_le_mul_left _ hnr)
      have g3 := hb.val_lt
      omega
    rw [e1, h8]; simp

theorem divRemDigits_spec (m : Build) {w : Nat} (hw : 1 ≤ w) {a b : List Nat} (ha : Valid w a) (hb : Valid w b)
    (hb0 : val w b ≠ 0) {nq nr : Nat} (hnq : a.length ≤ nq) (hnr : b.length ≤ nr) (hnr2 : nr ≤ max b.length (a.length + 2)) :
    ∃ q ql r rl, (divRemDigits m w a b nq nr : Out ε _) = .ok ((q, ql), (r, rl)) ∧
      Filled w nq (val w a / val w b) q ql ∧ Filled w nr (val w a % val w b) r rl := by
  have hal := ha.length_pos
  have hbl := hb.length_pos
  simp only [divRemDigits, ha.valid, hb.valid, hnq, hnr, decide_true, dassert_true, Out.bind_ok, isZeroDigits_eq m hb,
    isZeroDigits_eq m ha, hb0, decide_false, Bool.not_false, rassert_true]
  by_cases ha0 : val w a = 0
  · simp only [ha0, decide_true, if_true]
    refine ⟨_, _, _, _, rfl, ?_, ?_⟩
    · rw [Nat.zero_div]; exact filled_replicate w nq
    · rw [Nat.zero_mod]; exact filled_replicate w nr
  · simp only [ha0, decide_false, Bool.false_eq_true, if_false]
    rw [cmpDigits_eq m ha hb, Out.bind_ok]
    rcases Nat.lt_trichotomy (val w a) (val w b) with h | h | h
    · rw [Nat.compare_eq_lt.mpr h]
      have hle := ha.length_le_of_val_le hb (by omega)
      simp only [writeBuf_eq (show a.length ≤ nr by omega), Out.bind_ok]
      refine ⟨_, _, _, _, rfl, ?_, ?_⟩
      · rw [Nat.div_eq_of_lt h]; exact filled_replicate w nq
      · rw [Nat.mod_eq_of_lt h]
        exact filled_write (by omega) ha.digits rfl hal (ha.size_cond _ (Nat.le_refl _))
    · rw [Nat.compare_eq_eq.mpr h]
      obtain ⟨e1, f1⟩ := filled_one (ε := ε) w nq hw (by omega)
      simp only [e1, Out.bind_ok]
      refine ⟨_, _, _, _, rfl, ?_, ?_⟩
      · rw [h, Nat.div_self (by omega)]; exact f1
      · rw [h, Nat.mod_self]; exact filled_replicate w nr
    · rw [Nat.compare_eq_gt.mpr h]
      have hle := hb.length_le_of_val_le ha (by omega)
      match b, hb, hb0, hnr, hnr2, hbl, h, hle with
      | [], hb, _, _, _, _, _, _ => exact absurd rfl hb.ne_nil
      | [d], hb, hb0, hnr, hnr2, hbl, h, hle =>
        have hdd : d < 2 ^ w := by have := hb.digits; simpa using this
        simp only [val_cons, val_nil, Nat.mul_zero, Nat.add_zero] at hb0 h ⊢
        obtain ⟨h1, h2, h3, h4⟩ := divSmall_spec (w := w) (d := d) (by omega) hdd a.reverse 0 (by simpa using ha.digits) (by omega)
        rw [List.length_reverse] at h1
        rw [Nat.zero_mul, Nat.zero_add, List.reverse_reverse] at h4
        generalize divSmall w d a.reverse 0 = p at *
        have hr : p.2 % 2 ^ w = p.2 := Nat.mod_eq_of_lt (by omega)
        simp only [hr]
        rw [writeBuf_eq (show p.1.reverse.length ≤ nq by simp; omega), Out.bind_ok,
          writeBuf_eq (show [p.2].length ≤ nr by simpa using hnr), Out.bind_ok]
        have hqne : p.1.reverse ++ List.replicate (nq - p.1.reverse.length) 0 ≠ [] := by
          intro hc; have := congrArg List.length hc
          simp only [List.length_append, List.length_replicate, List.length_take, List.length_nil, List.length_reverse] at this
          omega
        rw [lenDigitsM_eq hqne, Out.bind_ok]
        refine ⟨_, _, _, _, rfl, filled_of ?_ ?_ ?_, ?_⟩
        · simp; omega
        · simp [h2, digitsOk_replicate]
        · rw [val_pad, h4, Nat.mul_comm, Nat.mul_add_div (by omega), Nat.div_eq_of_lt h3, Nat.add_zero]
        · have : val w a % d = p.2 := by rw [h4, Nat.mul_comm, Nat.mul_add_mod, Nat.mod_eq_of_lt h3]
          rw [this]
          exact filled_write (out := [p.2]) (by simpa using hnr) (by simpa using Nat.lt_trans h3 hdd) (by simp) (by simp) (by simp)
      | d :: d' :: ds, hb, hb0, hnr, hnr2, hbl, h, hle =>
        exact divKnuth_spec m hw ha hb (by simp) h hnq hnr (by omega)

/-- A zero divisor panics. -/
theorem divRemDigits_zero (m : Build) {w : Nat} {a b : List Nat} (ha : Valid w a) (hb : Valid w b)
    (hb0 : val w b = 0) {nq nr : Nat} (hnq : a.length ≤ nq) (hnr : b.length ≤ nr) :
    (divRemDigits m w a b nq nr : Out ε _) = .panic := by
  simp only [divRemDigits, ha.valid, hb.valid, hnq, hnr, decide_true, dassert_true, Out.bind_ok, isZeroDigits_eq m hb,
    hb0, Bool.not_true, rassert_false, Out.bind_panic]

theorem divRem_spec (m : Build) {w : Nat} (hw : 1 ≤ w) {x y : BInt} (hx : WF w x) (hy : WF w y) (hy0 : toInt w y ≠ 0) :
    ∃ q r, (BInt.divRem m w x y : Out ε _) = .ok (q, r) ∧ Denotes w q ((toInt w x).tdiv (toInt w y)) ∧
      Denotes w r ((toInt w x).tmod (toInt w y)) := by
  have va := wf_valid hx
  have vb := wf_valid hy
  have hmy : mag w y ≠ 0 := by
    intro hc; apply hy0; rw [toInt_eq, hc]; cases y.sign <;> simp
  simp only [BInt.divRem, asDigits_eq m hx, asDigits_eq m hy, Out.bind_ok]
  rw [toInt_eq _ x, toInt_eq _ y]
  simp only [mag] at hmy ⊢
  generalize x.storage.take x.len = a at *
  generalize y.storage.take y.len = b at *
  have hal := va.length_pos
  have hbl := vb.length_pos
  obtain ⟨q, ql, r, rl, e, hfq, hfr⟩ := divRemDigits_spec (ε := ε) m hw va vb hmy (nq := a.length) (nr := b.length)
    (Nat.le_refl _) (Nat.le_refl _) (Nat.le_max_left _ _)
  obtain ⟨hwq, hmq⟩ := hfq.wf (by omega) (if x.sign = y.sign then .positive else .negative)
  obtain ⟨hwr, hmr⟩ := hfr.wf (by omega) x.sign
  rw [e]
  refine ⟨_, _, rfl, ⟨hwq, ?_⟩, hwr, ?_⟩
  · rw [toInt_eq, hmq]
    cases x.sign <;> cases y.sign <;> simp [Int.neg_tdiv, Int.tdiv_neg, Int.ofNat_tdiv]
  · rw [toInt_eq, hmr]
    have hc : ((val w a % val w b : Nat) : Int) = (val w a : Int).tmod (val w b) := Int.ofNat_tmod _ _
    cases x.sign <;> cases y.sign <;> simp only [Int.neg_tmod, Int.tmod_neg, hc]

theorem divRem_zero (m : Build) {w : Nat} {x y : BInt} (hx : WF w x) (hy : WF w y) (hy0 : toInt w y = 0) :
    (BInt.divRem m w x y : Out ε _) = .panic := by
  have hmy : val w (y.storage.take y.len) = 0 := by
    have := natAbs_toInt w y
    rw [hy0] at this; simpa [mag] using this.symm
  simp only [BInt.divRem, asDigits_eq m hx, asDigits_eq m hy, Out.bind_ok,
    divRemDigits_zero m (wf_valid hx) (wf_valid hy) hmy (Nat.le_refl _) (Nat.le_refl _), Out.bind_panic]

end LCT.BigInt
