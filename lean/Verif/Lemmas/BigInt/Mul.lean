import Verif.Lemmas.BigInt.AddSub

namespace LCT.BigInt
open LCT.Spec
variable {ε : Type}

theorem two_pow_two_mul (w : Nat) : 2 ^ (2 * w) = 2 ^ w * 2 ^ w := by rw [← Nat.pow_add]; congr 1; omega

theorem addDD_ok (m : Build) {w a b : Nat} (h : a + b < 2 ^ w * 2 ^ w) : (addDD m w a b : Out ε Nat) = .ok (a + b) := by
  simp only [addDD]; rw [if_pos (by rw [two_pow_two_mul]; exact h)]

theorem mulDD_ok (m : Build) {w a b : Nat} (h : a * b < 2 ^ w * 2 ^ w) : (mulDD m w a b : Out ε Nat) = .ok (a * b) := by
  simp only [mulDD]; rw [if_pos (by rw [two_pow_two_mul]; exact h)]

theorem eq_replicate_of_val_eq_zero {w : Nat} (ds : List Nat) (h : val w ds = 0) : ds = List.replicate ds.length 0 := by
  induction ds with
  | nil => rfl
  | cons d ds ih =>
    simp only [val_cons] at h
    have h2 : 2 ^ w * val w ds = 0 := by omega
    have h3 : val w ds = 0 := by
      rcases Nat.mul_eq_zero.mp h2 with h | h
      · exact absurd h (Nat.two_pow_pos w).ne'
      · exact h
    rw [List.length_cons, List.replicate_succ, ← ih h3]
    congr 1; omega

theorem mulRow_spec (m : Build) {w s : Nat} (hs : s < 2 ^ w) (gs rs : List Nat) (carry : Nat) (hg : DigitsOk w gs)
    (hr : DigitsOk w rs) (hl : gs.length ≤ rs.length) (hc : carry < 2 ^ w) :
    ∃ out c, (mulRow m w s gs rs carry : Out ε _) = .ok (out ++ rs.drop gs.length, c) ∧ out.length = gs.length ∧
      DigitsOk w out ∧ c < 2 ^ w ∧
      val w out + 2 ^ (w * gs.length) * c = s * val w gs + val w (rs.take gs.length) + carry := by
  induction gs generalizing rs carry with
  | nil => exact ⟨[], carry, by simp [mulRow], rfl, by simp, hc, by simp⟩
  | cons g gs ih =>
    cases rs with
    | nil => simp at hl
    | cons r rs =>
      rw [digitsOk_cons] at hg hr
      have hb : s * g + r + carry < 2 ^ w * 2 ^ w := by
        generalize 2 ^ w = B at *
        obtain ⟨b, rfl⟩ : ∃ b, B = b + 1 := ⟨B - 1, by omega⟩
        have : s * g ≤ b * b := Nat.mul_le_mul (by omega) (by omega)
        nlinarith
      have hdiv : (s * g + r + carry) / 2 ^ w < 2 ^ w := by
        rw [Nat.div_lt_iff_lt_mul (Nat.two_pow_pos w)]; exact hb
      obtain ⟨out, c, h1, h2, h3, h4, h5⟩ := ih rs ((s * g + r + carry) / 2 ^ w) hg.2 hr.2 (by simpa using hl) hdiv
      refine ⟨(s * g + r + carry) % 2 ^ w :: out, c, ?_, by simp [h2], ?_, h4, ?_⟩
      · simp only [mulRow]
        rw [mulDD_ok m (by omega)]
        simp only [Out.bind_ok]
        rw [addDD_ok m (by omega)]
        simp only [Out.bind_ok]
        rw [addDD_ok m hb]
        simp only [Out.bind_ok, h1]
        rfl
      · rw [digitsOk_cons]; exact ⟨Nat.mod_lt _ (Nat.two_pow_pos w), h3⟩
      · simp only [val_cons, List.length_cons, List.take_succ_cons, Nat.mul_succ, Nat.pow_add]
        have hdm := Nat.mod_add_div (s * g + r + carry) (2 ^ w)
        generalize (s * g + r + carry) % 2 ^ w = t at *
        generalize (s * g + r + carry) / 2 ^ w = q at *
        have e : 2 ^ w * (val w out + 2 ^ (w * gs.length) * c) = 2 ^ w * (s * val w gs + val w (rs.take gs.length) + q) := by
          rw [h5]
        have e2 : 2 ^ (w * gs.length) * 2 ^ w * c = 2 ^ w * (2 ^ (w * gs.length) * c) := by ring
        rw [e2]
        generalize 2 ^ (w * gs.length) * c = X at *
        nlinarith

theorem mulRows_spec (m : Build) {w : Nat} {g : List Nat} (hg : DigitsOk w g) (ss res : List Nat)
    (hs : DigitsOk w ss) (hr : DigitsOk w res) (hl : ss ≠ [] → g.length + ss.length ≤ res.length)
    (hv : val w res < 2 ^ (w * g.length)) :
    ∃ out, (mulRows m w g ss res : Out ε _) = .ok out ∧ out.length = res.length ∧ DigitsOk w out ∧
      val w out = val w res + val w ss * val w g := by
  induction ss generalizing res with
  | nil => exact ⟨res, rfl, rfl, hr, by simp⟩
  | cons s ss ih =>
    have hl' := hl (by simp)
    simp only [List.length_cons] at hl'
    rw [digitsOk_cons] at hs
    -- the part of the buffer above the first `g.length` digits is zero
    have hsplit := val_take_drop w g.length res (by omega)
    have hhi : val w (res.drop g.length) = 0 := by
      apply Classical.byContradiction
      intro hc
      have : 2 ^ (w * g.length) * 1 ≤ 2 ^ (w * g.length) * val w (res.drop g.length) := Nat.mul_le_mul_left _ (by omega)
      omega
    have hz := eq_replicate_of_val_eq_zero _ hhi
    rw [List.length_drop] at hz
    have hw1 : (res.take (g.length + 1)).drop g.length = [0] := by
      rw [List.drop_take, hz]
      have : g.length + 1 - g.length = 1 := by omega
      rw [this]
      obtain ⟨k, hk⟩ : ∃ k, res.length - g.length = k + 1 := ⟨res.length - g.length - 1, by omega⟩
      rw [hk]; rfl
    have hw2 : (res.take (g.length + 1)).take g.length = res.take g.length := by
      rw [List.take_take]; congr 1; omega
    obtain ⟨out, c, h1, h2, h3, h4, h5⟩ := mulRow_spec (ε := ε) m hs.1 g (res.take (g.length + 1)) 0 hg (hr.take _)
      (by rw [List.length_take]; omega) (Nat.two_pow_pos w)
    rw [hw1] at h1
    rw [hw2] at h5
    have hrest : res.drop (g.length + 1) = List.replicate (res.length - g.length - 1) 0 := by
      have : res.drop (g.length + 1) = (res.drop g.length).drop 1 := by rw [List.drop_drop]
      rw [this, hz, List.drop_replicate]
    simp only [mulRows]
    rw [show decide (g.length + 1 ≤ res.length) = true by simp; omega]
    simp only [rassert_true, Out.bind_ok, h1]
    have hwin : (if c > 0 then (out ++ [0]).dropLast ++ [c % 2 ^ w] else out ++ [0]) = out ++ [c] := by
      split
      · simp [Nat.mod_eq_of_lt h4]
      · have : c = 0 := by omega
        rw [this]
    rw [hwin]
    generalize hres' : out ++ [c] ++ res.drop (g.length + 1) = res'
    have hd' : DigitsOk w res' := by
      rw [← hres']; simp [h3, h4, hr.drop]
    have hv' : val w res' = val w res + s * val w g := by
      rw [← hres', val_append, hrest, val_replicate_zero, val_append, h2]
      simp only [val_cons, val_nil, Nat.mul_zero, Nat.add_zero]
      rw [h5, hsplit, hhi]; ring
    have hlen' : res'.length = res.length := by
      rw [← hres']; simp [h2]; omega
    cases res' with
    | nil => simp at hlen'; omega
    | cons r rest =>
      rw [digitsOk_cons] at hd'
      simp only [List.length_cons] at hlen'
      simp only [val_cons] at hv'
      have hvrest : val w rest < 2 ^ (w * g.length) := by
        have hg' := val_lt hg
        have hsB := hs.1
        generalize 2 ^ (w * g.length) = P at *
        apply Classical.byContradiction
        intro hc
        have h1 : 2 ^ w * P ≤ 2 ^ w * val w rest := Nat.mul_le_mul_left _ (by omega)
        have h2 : s * val w g ≤ (2 ^ w - 1) * (P - 1) := Nat.mul_le_mul (by omega) (by omega)
        generalize 2 ^ w = B at *
        obtain ⟨b, rfl⟩ : ∃ b, B = b + 1 := ⟨B - 1, by omega⟩
        obtain ⟨p, rfl⟩ : ∃ p, P = p + 1 := ⟨P - 1, by omega⟩
        simp only [Nat.add_sub_cancel] at h2
        nlinarith
      obtain ⟨fin, f1, f2, f3, f4⟩ := ih rest hs.2 hd'.2 (fun _ => by omega) hvrest
      simp only [f1, Out.bind_ok]
      refine ⟨r :: fin, rfl, by simp [f2, hlen'], by simp [hd'.1, f3], ?_⟩
      simp only [val_cons, f4]
      nlinarith

theorem mulDigits_spec (m : Build) {w : Nat} {a b : List Nat} (ha : Valid w a) (hb : Valid w b) {n : Nat}
    (hn : a.length + b.length ≤ n) :
    ∃ buf len, (mulDigits m w a b n : Out ε _) = .ok (buf, len) ∧ Filled w n (val w a * val w b) buf len := by
  simp only [mulDigits, ha.valid, hb.valid, dassert_true, Out.bind_ok, isZeroDigits_eq m ha, hn, decide_true]
  have hal := ha.length_pos
  have hbl := hb.length_pos
  by_cases hza : val w a = 0
  · simp only [hza, decide_true, if_true, Out.pure_def, Out.bind_ok, Bool.true_or]
    exact ⟨_, _, rfl, by rw [Nat.zero_mul]; exact filled_replicate w n⟩
  · simp only [hza, decide_false, Bool.false_eq_true, if_false, Bool.false_or, isZeroDigits_eq m hb, Out.bind_ok]
    by_cases hzb : val w b = 0
    · simp only [hzb, decide_true, if_true, Out.pure_def]
      exact ⟨_, _, rfl, by rw [Nat.mul_zero]; exact filled_replicate w n⟩
    · simp only [hzb, decide_false, Bool.false_eq_true, if_false, cmpDigits_eq m ha hb, Out.bind_ok]
      have core : ∀ g s : List Nat, Valid w g → Valid w s → g.length + s.length ≤ n →
          ∃ buf len, (((mulRows m w g s (List.replicate n 0)) >>= fun buf => lenDigitsM buf >>= fun len => pure (buf, len))
            : Out ε _) = .ok (buf, len) ∧ Filled w n (val w s * val w g) buf len := by
        intro g s hg hs hgs
        obtain ⟨out, h1, h2, h3, h4⟩ := mulRows_spec (ε := ε) m hg.digits s (List.replicate n 0) hs.digits
          (digitsOk_replicate w n) (fun _ => by simpa using hgs)
          (by rw [val_replicate_zero]; exact Nat.two_pow_pos _)
        rw [val_replicate_zero, Nat.zero_add] at h4
        simp only [List.length_replicate] at h2
        have hne : out ≠ [] := by rintro rfl; simp at h2; omega
        simp only [h1, Out.bind_ok, lenDigitsM_eq hne]
        exact ⟨out, _, rfl, h2, h3, h4, rfl⟩
      by_cases hlt : val w a < val w b
      · rw [Nat.compare_eq_lt.mpr hlt]
        exact core b a hb ha (by omega)
      · rw [show (compare (val w a) (val w b) == Ordering.lt) = false by
          rw [beq_eq_false_iff_ne, ne_eq, Nat.compare_eq_lt]; exact hlt]
        obtain ⟨buf, len, h1, h2⟩ := core a b ha hb (by omega)
        exact ⟨buf, len, h1, by rw [Nat.mul_comm]; exact h2⟩

end LCT.BigInt
