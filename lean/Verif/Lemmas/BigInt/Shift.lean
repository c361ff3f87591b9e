import Verif.Lemmas.BigInt.Mul

namespace LCT.BigInt
open LCT.Spec
variable {ε : Type}

/-! ## Bit length -/

theorem digitBits_le_iff (n k : Nat) : digitBits n ≤ k ↔ n < 2 ^ k := by
  unfold digitBits
  split
  · rename_i h; subst h; simp
  · rename_i h
    rw [← Nat.log2_lt h]; omega

theorem digitBits_eq_of (n k : Nat) (h : ∀ j, n < 2 ^ j ↔ k ≤ j) : digitBits n = k := by
  have h1 : digitBits n ≤ k := (digitBits_le_iff n k).mpr ((h k).mpr (Nat.le_refl _))
  have h2 : k ≤ digitBits n := (h _).mp ((digitBits_le_iff n _).mp (Nat.le_refl _))
  omega

theorem digitBits_append (w : Nat) (i : List Nat) (d : Nat) (hi : DigitsOk w i) (hd : d ≠ 0) :
    digitBits (val w (i ++ [d])) = w * i.length + digitBits d := by
  apply digitBits_eq_of
  intro j
  rw [val_append]
  simp only [val_cons, val_nil, Nat.mul_zero, Nat.add_zero]
  have hlt := val_lt hi
  constructor
  · intro h
    apply Classical.byContradiction
    intro hc
    have hdb : ¬ d < 2 ^ (digitBits d - 1) := by
      rw [← digitBits_le_iff]
      have : digitBits d ≠ 0 := by unfold digitBits; rw [if_neg hd]; omega
      omega
    have hdb1 : 1 ≤ digitBits d := by unfold digitBits; rw [if_neg hd]; omega
    have : 2 ^ j ≤ 2 ^ (w * i.length + (digitBits d - 1)) := Nat.pow_le_pow_right (by decide) (by omega)
    rw [Nat.pow_add] at this
    have h2 : 2 ^ (w * i.length) * 2 ^ (digitBits d - 1) ≤ 2 ^ (w * i.length) * d := Nat.mul_le_mul_left _ (by omega)
    omega
  · intro h
    have h1 : d < 2 ^ (digitBits d) := (digitBits_le_iff d _).mp (Nat.le_refl _)
    have h2 : 2 ^ (w * i.length + digitBits d) ≤ 2 ^ j := Nat.pow_le_pow_right (by decide) h
    rw [Nat.pow_add] at h2
    have h3 : 2 ^ (w * i.length) * (d + 1) ≤ 2 ^ (w * i.length) * 2 ^ (digitBits d) := Nat.mul_le_mul_left _ h1
    nlinarith

theorem bitLenDigits_eq (m : Build) {w : Nat} {a : List Nat} (ha : Valid w a) :
    (bitLenDigits m w a : Out ε Nat) = .ok (digitBits (val w a)) := by
  simp only [bitLenDigits, ha.valid, dassert_true, Out.bind_ok, isZeroDigits_eq m ha]
  by_cases hz : val w a = 0
  · simp [hz, digitBits]
  · simp only [hz, decide_false, Bool.false_eq_true, if_false, Out.pure_def]
    obtain ⟨i, d, rfl⟩ := exists_concat ha.ne_nil
    obtain ⟨h1, h2, h3⟩ := valid_concat_iff.mp ha
    have hd : d ≠ 0 := by
      rintro rfl
      rcases h3 with rfl | h3
      · simp at hz
      · exact h3 rfl
    rw [digitBits_append w i d h1 hd]
    have hle : digitBits d ≤ w := (digitBits_le_iff d w).mpr h2
    congr 1
    rw [List.getLastD_concat]
    simp only [leadingZeros, List.length_append, List.length_singleton, Nat.add_mul, Nat.one_mul]
    rw [Nat.mul_comm i.length w]; omega

/-! ## Right shift -/

theorem or_eq_add {x y k : Nat} (hx : x < 2 ^ k) (hy : 2 ^ k ∣ y) : x ||| y = x + y := by
  obtain ⟨z, rfl⟩ := hy
  have := Nat.shiftLeft_add_eq_or_of_lt hx z
  rw [Nat.shiftLeft_eq] at this
  rw [Nat.or_comm, Nat.mul_comm, ← this, Nat.add_comm]

theorem shlDigit_eq {w d s : Nat} (hs : s ≤ w) : shlDigit w d s = d % 2 ^ (w - s) * 2 ^ s := by
  rw [shlDigit, Nat.shiftLeft_eq]
  have : 2 ^ w = 2 ^ (w - s) * 2 ^ s := by rw [← Nat.pow_add]; congr 1; omega
  rw [this, Nat.mul_mod_mul_right]

theorem shrBits_spec {w s : Nat} (h0 : 0 < s) (hsw : s < w) (ds : List Nat) (cl : Nat) (hd : DigitsOk w ds) (hc : cl < 2 ^ s) :
    (shrBits w s ds (cl * 2 ^ (w - s))).length = ds.length ∧ DigitsOk w (shrBits w s ds (cl * 2 ^ (w - s))) ∧
    val w (shrBits w s ds (cl * 2 ^ (w - s))).reverse = (val w ds.reverse + 2 ^ (w * ds.length) * cl) / 2 ^ s := by
  have hBs : 2 ^ w = 2 ^ s * 2 ^ (w - s) := by rw [← Nat.pow_add]; congr 1; omega
  induction ds generalizing cl with
  | nil =>
    refine ⟨rfl, by simp [shrBits], ?_⟩
    simp only [shrBits, List.reverse_nil, val_nil, List.length_nil, Nat.mul_zero, Nat.pow_zero, Nat.one_mul, Nat.zero_add]
    exact (Nat.div_eq_of_lt hc).symm
  | cons d ds ih =>
    rw [digitsOk_cons] at hd
    have hcar : shlDigit w d (w - s) = (d % 2 ^ s) * 2 ^ (w - s) := by
      rw [shlDigit_eq (by omega), show w - (w - s) = s by omega]
    have hd2 : d / 2 ^ s < 2 ^ (w - s) := by
      rw [Nat.div_lt_iff_lt_mul (Nat.two_pow_pos s), Nat.mul_comm, ← hBs]; exact hd.1
    have hhead : (d >>> s) ||| (cl * 2 ^ (w - s)) = d / 2 ^ s + cl * 2 ^ (w - s) := by
      rw [Nat.shiftRight_eq_div_pow]
      exact or_eq_add hd2 (Dvd.intro_left _ rfl)
    obtain ⟨i1, i2, i3⟩ := ih (d % 2 ^ s) hd.2 (Nat.mod_lt _ (Nat.two_pow_pos s))
    simp only [shrBits, hcar, hhead, List.length_cons, digitsOk_cons, List.reverse_cons, val_append, List.length_reverse,
      val_cons, val_nil, Nat.mul_zero, Nat.add_zero]
    refine ⟨by rw [i1], ⟨?_, i2⟩, ?_⟩
    · rw [hBs]
      have : (cl + 1) * 2 ^ (w - s) ≤ 2 ^ s * 2 ^ (w - s) := Nat.mul_le_mul_right _ hc
      rw [Nat.add_mul, Nat.one_mul] at this
      omega
    · rw [i1, i3]
      have hdm := Nat.mod_add_div d (2 ^ s)
      rw [Nat.mul_succ, Nat.pow_add, hBs]
      have : val w ds.reverse + 2 ^ (w * ds.length) * d + 2 ^ (w * ds.length) * (2 ^ s * 2 ^ (w - s)) * cl =
        (val w ds.reverse + 2 ^ (w * ds.length) * (d % 2 ^ s)) +
          2 ^ s * (2 ^ (w * ds.length) * (d / 2 ^ s + cl * 2 ^ (w - s))) := by
        conv_lhs => rw [← hdm]
        ring
      rw [this, Nat.add_mul_div_left _ _ (Nat.two_pow_pos s)]

theorem val_drop_eq_div {w : Nat} {ds : List Nat} (hd : DigitsOk w ds) (k : Nat) (hk : k ≤ ds.length) :
    val w (ds.drop k) = val w ds / 2 ^ (w * k) := by
  rw [val_take_drop w k ds hk, Nat.add_mul_div_left _ _ (Nat.two_pow_pos _)]
  have := val_lt (hd.take k)
  rw [List.length_take, Nat.min_eq_left hk] at this
  rw [Nat.div_eq_of_lt this, Nat.zero_add]

theorem Valid.drop {w : Nat} {ds : List Nat} (h : Valid w ds) {k : Nat} (hk : k < ds.length) : Valid w (ds.drop k) := by
  obtain ⟨i, d, rfl⟩ := exists_concat h.ne_nil
  obtain ⟨h1, h2, h3⟩ := valid_concat_iff.mp h
  simp only [List.length_append, List.length_singleton] at hk
  rw [List.drop_append_of_le_length (by omega)]
  refine valid_concat_iff.mpr ⟨h1.drop k, h2, ?_⟩
  rcases h3 with rfl | h3
  · left; simp
  · right; exact h3

theorem shiftRightDigits_spec (m : Build) {w : Nat} (hw : 1 ≤ w) {a : List Nat} (ha : Valid w a) (n : Nat) :
    ∃ buf len, (shiftRightDigits m w a n : Out ε _) = .ok (buf, len) ∧ Filled w a.length (val w a / 2 ^ n) buf len := by
  simp only [shiftRightDigits, bitLenDigits_eq m ha, Out.bind_ok]
  have hal := ha.length_pos
  by_cases hb : digitBits (val w a) ≤ n
  · rw [if_pos hb]
    refine ⟨_, _, rfl, ?_⟩
    rw [Nat.div_eq_of_lt ((digitBits_le_iff _ _).mp hb)]
    exact filled_replicate w a.length
  · rw [if_neg hb]
    have hnv : 2 ^ n ≤ val w a := by rw [digitBits_le_iff] at hb; omega
    have hk : n / w < a.length := by
      rw [Nat.div_lt_iff_lt_mul hw]
      have h1 := ha.val_lt
      apply Classical.byContradiction
      intro hc
      have : 2 ^ (w * a.length) ≤ 2 ^ n := Nat.pow_le_pow_right (by decide) (by rw [Nat.mul_comm]; omega)
      omega
    have hn : n = w * (n / w) + n % w := (Nat.div_add_mod n w).symm
    generalize n / w = k at *
    generalize hs' : n % w = s at *
    have hs : s < w := by rw [← hs']; exact Nat.mod_lt _ hw
    have hdl : (a.drop k).length = a.length - k := by simp
    have hlen : (a.drop k ++ List.replicate k 0).length = a.length := by simp; omega
    have htake : (a.drop k ++ List.replicate k 0).take (a.length - k) = a.drop k := by
      rw [← hdl, List.take_left]
    have hdrop : (a.drop k ++ List.replicate k 0).drop (a.length - k) = List.replicate k 0 := by
      rw [← hdl, List.drop_left]
    have hvd := val_drop_eq_div ha.digits k (by omega)
    by_cases h0 : 0 < s
    · rw [if_pos h0]
      simp only [hlen, htake, hdrop]
      obtain ⟨i1, i2, i3⟩ := shrBits_spec h0 hs (a.drop k).reverse 0 (by simpa using ha.digits.drop k) (Nat.two_pow_pos s)
      simp only [Nat.zero_mul, Nat.mul_zero, Nat.add_zero, List.reverse_reverse, List.length_reverse] at i1 i2 i3
      generalize shrBits w s (a.drop k).reverse 0 = out at *
      have hne : out.reverse ++ List.replicate k 0 ≠ [] := by
        intro he; have := congrArg List.length he
        simp only [List.length_append, List.length_reverse, i1, hdl, List.length_replicate, List.length_nil] at this; omega
      rw [lenDigitsM_eq hne]
      refine ⟨_, _, rfl, ?_, by simp [i2, digitsOk_replicate], ?_, rfl⟩
      · simp [i1]; omega
      · rw [val_pad, i3, hvd, Nat.div_div_eq_div_mul, ← Nat.pow_add, ← hn]
    · rw [if_neg h0]
      have hs0 : s = 0 := by omega
      refine ⟨_, _, rfl, hlen, by simp [ha.digits.drop, digitsOk_replicate], ?_, ?_⟩
      · rw [val_pad, hvd, hn, hs0, Nat.add_zero]
      · rw [hlen, lenDigits_append_replicate, (ha.drop hk).len, hdl]

/-! ## Left shift -/

theorem shlBits_spec {w s : Nat} (h0 : 0 < s) (hsw : s < w) (ds : List Nat) (c : Nat) (hd : DigitsOk w ds) (hc : c < 2 ^ s) :
    (shlBits w s ds c).length = ds.length ∧ DigitsOk w (shlBits w s ds c) ∧
    ∃ cout, cout < 2 ^ s ∧ val w (shlBits w s ds c) + 2 ^ (w * ds.length) * cout = 2 ^ s * val w ds + c := by
  have hBs : 2 ^ w = 2 ^ (w - s) * 2 ^ s := by rw [← Nat.pow_add]; congr 1; omega
  induction ds generalizing c with
  | nil => exact ⟨rfl, by simp [shlBits], c, hc, by simp [shlBits]⟩
  | cons d ds ih =>
    rw [digitsOk_cons] at hd
    have hd2 : d / 2 ^ (w - s) < 2 ^ s := by
      rw [Nat.div_lt_iff_lt_mul (Nat.two_pow_pos _), Nat.mul_comm, ← hBs]; exact hd.1
    have hhead : (shlDigit w d s) ||| c = c + d % 2 ^ (w - s) * 2 ^ s := by
      rw [shlDigit_eq (by omega), Nat.or_comm]
      exact or_eq_add hc (Dvd.intro_left _ rfl)
    have hcar : d >>> (w - s) = d / 2 ^ (w - s) := Nat.shiftRight_eq_div_pow _ _
    obtain ⟨i1, i2, cout, i3, i4⟩ := ih (d / 2 ^ (w - s)) hd.2 hd2
    simp only [shlBits, hcar, hhead, List.length_cons, digitsOk_cons, val_cons]
    refine ⟨by rw [i1], ⟨?_, i2⟩, cout, i3, ?_⟩
    · rw [hBs]
      have := Nat.mod_lt d (Nat.two_pow_pos (w - s))
      have : (d % 2 ^ (w - s) + 1) * 2 ^ s ≤ 2 ^ (w - s) * 2 ^ s := Nat.mul_le_mul_right _ this
      rw [Nat.add_mul, Nat.one_mul] at this
      omega
    · have hdm := Nat.mod_add_div d (2 ^ (w - s))
      rw [Nat.mul_succ, Nat.pow_add]
      have e : 2 ^ w * (val w (shlBits w s ds (d / 2 ^ (w - s))) + 2 ^ (w * ds.length) * cout) =
        2 ^ w * (2 ^ s * val w ds + d / 2 ^ (w - s)) := by rw [i4]
      generalize val w (shlBits w s ds (d / 2 ^ (w - s))) = V at *
      have e3 : 2 ^ s * d = 2 ^ s * (d % 2 ^ (w - s)) + 2 ^ w * (d / 2 ^ (w - s)) := by
        conv_lhs => rw [← hdm]
        rw [hBs]; ring
      nlinarith

theorem storage_split {storage : List Nat} (hne : storage ≠ []) :
    storage = storage.take (lenDigits storage) ++ List.replicate (storage.length - lenDigits storage) 0 := by
  conv_lhs => rw [← List.take_append_drop (lenDigits storage) storage, drop_lenDigits]

/-- The state after the whole-digit part of the left shift. -/
theorem shl_digit_part {w : Nat} {storage : List Nat} (hne : storage ≠ []) (hd : DigitsOk w storage) (k : Nat) :
    ∃ z : Nat,
      (let len := lenDigits storage
       if 0 < k then
         let st := storage ++ List.replicate (k - (storage.length - len)) 0
         let len := len + k
         let lo := st.take len
         (lo.drop (len - k) ++ lo.take (len - k) ++ st.drop len, len)
       else (storage, len)) =
      (List.replicate k 0 ++ storage.take (lenDigits storage) ++ List.replicate z 0, lenDigits storage + k) := by
  have hsp := storage_split hne
  have hle := lenDigits_le hne
  generalize hlen : lenDigits storage = len at *
  generalize hds : storage.take len = ds at *
  have hdl : ds.length = len := by rw [← hds, List.length_take]; omega
  by_cases hk : 0 < k
  · simp only [if_pos hk]
    set e := storage.length - len with he
    refine ⟨e - k, ?_⟩
    have hst : storage ++ List.replicate (k - e) 0 = ds ++ (List.replicate k 0 ++ List.replicate (e - k) 0) := by
      rw [hsp, List.append_assoc]
      congr 1
      rw [List.replicate_append_replicate, List.replicate_append_replicate]
      congr 1; omega
    rw [hst, ← List.append_assoc]
    have hl : (ds ++ List.replicate k 0).length = len + k := by simp [hdl]
    rw [← hl, List.take_left, List.drop_left, hl, Nat.add_sub_cancel, ← hdl, List.take_left, List.drop_left]
  · rw [if_neg hk]
    have : k = 0 := by omega
    subst this
    exact ⟨storage.length - len, by simpa using hsp⟩

theorem shiftLeftDigits_spec {w : Nat} (hw : 1 ≤ w) {storage : List Nat} (hne : storage ≠ [])
    (hd : DigitsOk w storage) (n : Nat) :
    ∃ st len, (shiftLeftDigits w storage (lenDigits storage) n : Out ε _) = .ok (st, len) ∧ st ≠ [] ∧ DigitsOk w st ∧
      val w st = val w storage * 2 ^ n ∧
      len = (if val w storage = 0 ∧ n % w = 0 then 1 + n / w else lenDigits st) := by
  obtain ⟨z, hz⟩ := shl_digit_part hne hd (n / w)
  have hv := valid_take hd hne
  have hvv := val_take_lenDigits w hne
  have hdl : (storage.take (lenDigits storage)).length = lenDigits storage := by
    rw [List.length_take]; exact Nat.min_eq_left (lenDigits_le hne)
  have hlp := lenDigits_pos storage
  have hn : n = w * (n / w) + n % w := (Nat.div_add_mod n w).symm
  simp only [shiftLeftDigits]
  simp only at hz
  rw [hz]
  generalize lenDigits storage = len at *
  generalize storage.take len = ds at *
  generalize n / w = k at *
  generalize hs' : n % w = s at *
  have hs : s < w := by rw [← hs']; exact Nat.mod_lt _ hw
  have hvk : val w (List.replicate k 0 ++ ds ++ List.replicate z 0) = 2 ^ (w * k) * val w ds := by
    rw [val_pad, val_append, val_replicate_zero, List.length_replicate, Nat.zero_add]
  have hdk : DigitsOk w (List.replicate k 0 ++ ds ++ List.replicate z 0) := by simp [digitsOk_replicate, hv.digits]
  by_cases h0 : 0 < s
  · rw [if_pos h0]
    -- make room for one more digit
    obtain ⟨z', hz'⟩ : ∃ z', (if len + k = (List.replicate k 0 ++ ds ++ List.replicate z 0).length then
        List.replicate k 0 ++ ds ++ List.replicate z 0 ++ [0] else List.replicate k 0 ++ ds ++ List.replicate z 0) =
        List.replicate k 0 ++ ds ++ [0] ++ List.replicate z' 0 := by
      by_cases hc : len + k = (List.replicate k 0 ++ ds ++ List.replicate z 0).length
      · rw [if_pos hc]
        have : z = 0 := by simp [hdl] at hc; omega
        subst this
        exact ⟨0, by simp⟩
      · rw [if_neg hc]
        have : z ≠ 0 := by rintro rfl; apply hc; simp [hdl]; omega
        obtain ⟨z', rfl⟩ : ∃ z', z = z' + 1 := ⟨z - 1, by omega⟩
        exact ⟨z', by simp [List.replicate_succ]⟩
    rw [hz']
    have hl1 : (List.replicate k 0 ++ ds ++ [0]).length = len + k + 1 := by simp [hdl]; omega
    rw [← hl1, List.take_left, List.drop_left]
    have hdx : DigitsOk w (List.replicate k 0 ++ ds ++ [0]) := by simp [digitsOk_replicate, hv.digits]
    obtain ⟨i1, i2, cout, i3, i4⟩ := shlBits_spec h0 hs (List.replicate k 0 ++ ds ++ [0]) 0 hdx (Nat.two_pow_pos s)
    have hvx : val w (List.replicate k 0 ++ ds ++ [0]) = 2 ^ (w * k) * val w ds := by
      rw [show [0] = List.replicate 1 0 from rfl, val_pad, val_append, val_replicate_zero, List.length_replicate, Nat.zero_add]
    rw [hvx, hl1] at i4
    rw [hl1] at i1
    have hc0 : cout = 0 := by
      apply Classical.byContradiction
      intro hc
      have h1 : 2 ^ (w * (len + k + 1)) * 1 ≤ 2 ^ (w * (len + k + 1)) * cout := Nat.mul_le_mul_left _ (by omega)
      have h2 := hv.val_lt
      rw [hdl] at h2
      have h3 : 2 ^ s * (2 ^ (w * k) * val w ds) < 2 ^ (w * (len + k + 1)) := by
        have e : 2 ^ (w * (len + k + 1)) = 2 ^ w * (2 ^ (w * k) * 2 ^ (w * len)) := by
          rw [← Nat.pow_add, ← Nat.pow_add]; congr 1; ring
        rw [e]
        have hsw : 2 ^ s ≤ 2 ^ w := Nat.pow_le_pow_right (by decide) (by omega)
        calc 2 ^ s * (2 ^ (w * k) * val w ds) ≤ 2 ^ w * (2 ^ (w * k) * val w ds) := Nat.mul_le_mul_right _ hsw
          _ < _ := Nat.mul_lt_mul_of_pos_left (Nat.mul_lt_mul_of_pos_left h2 (Nat.two_pow_pos _)) (Nat.two_pow_pos _)
      omega
    subst hc0
    generalize shlBits w s (List.replicate k 0 ++ ds ++ [0]) 0 = out at *
    have hne' : out ≠ [] := by rintro rfl; simp at i1
    rw [lenDigitsM_eq hne']
    refine ⟨_, _, rfl, by simp [hne'], by simp [i2, digitsOk_replicate], ?_, ?_⟩
    · rw [val_pad, ← hvv, hn, Nat.pow_add]
      simp only [Nat.mul_zero, Nat.add_zero] at i4
      rw [i4]; ring
    · rw [if_neg (by omega), lenDigits_append_replicate]
  · rw [if_neg h0]
    have hs0 : s = 0 := by omega
    refine ⟨_, _, rfl, ?_, hdk, ?_, ?_⟩
    · intro he; have := congrArg List.length he
      simp [hdl] at this
      omega
    · rw [hvk, hvv, hn, hs0, Nat.add_zero]; ring
    · subst hs0
      by_cases hz0 : val w storage = 0
      · rw [if_pos ⟨hz0, rfl⟩]
        rw [← hvv, hv.val_eq_zero_iff] at hz0
        rw [hz0] at hdl
        simp at hdl; omega
      · rw [if_neg (by simp [hz0]), lenDigits_append_replicate]
        obtain ⟨i, d, rfl⟩ := exists_concat hv.ne_nil
        obtain ⟨_, _, h3⟩ := valid_concat_iff.mp hv
        have hd0 : d ≠ 0 := by
          rintro rfl
          rcases h3 with rfl | h3
          · simp at hvv; exact hz0 hvv.symm
          · exact h3 rfl
        rw [← List.append_assoc, lenDigits_concat_pos _ hd0]
        simp at hdl ⊢; omega

end LCT.BigInt
