import Verif.Lemmas.BigInt.Val
import Mathlib.Order.Compare
import Mathlib.Algebra.Order.Ring.Nat

namespace LCT.BigInt
open LCT.Spec
variable {ε : Type}

/-- What a digit function leaves in an output buffer of length `n`: the digits of `v`, zero-padded, with the canonical length. -/
structure Filled (w n v : Nat) (buf : List Nat) (len : Nat) : Prop where
  length : buf.length = n
  digits : DigitsOk w buf
  value : val w buf = v
  len_eq : len = lenDigits buf

theorem Filled.ne_nil {w n v : Nat} {buf : List Nat} {len : Nat} (h : Filled w n v buf len) (hn : 1 ≤ n) : buf ≠ [] := by
  rintro rfl; have := h.length; simp at this; omega

theorem Filled.valid {w n v : Nat} {buf : List Nat} {len : Nat} (h : Filled w n v buf len) (hn : 1 ≤ n) :
    Valid w (buf.take len) := h.len_eq ▸ valid_take h.digits (h.ne_nil hn)

theorem Filled.val_take {w n v : Nat} {buf : List Nat} {len : Nat} (h : Filled w n v buf len) (hn : 1 ≤ n) :
    val w (buf.take len) = v := by rw [h.len_eq, val_take_lenDigits w (h.ne_nil hn), h.value]

theorem Filled.len_le {w n v : Nat} {buf : List Nat} {len : Nat} (h : Filled w n v buf len) (hn : 1 ≤ n) : len ≤ n := by
  rw [h.len_eq, ← h.length]; exact lenDigits_le (h.ne_nil hn)

theorem Filled.one_le {w n v : Nat} {buf : List Nat} {len : Nat} (h : Filled w n v buf len) : 1 ≤ len := by
  rw [h.len_eq]; exact lenDigits_pos _

theorem Filled.length_take {w n v : Nat} {buf : List Nat} {len : Nat} (h : Filled w n v buf len) (hn : 1 ≤ n) :
    (buf.take len).length = len := by
  rw [List.length_take, h.length]; exact Nat.min_eq_left (h.len_le hn)

theorem filled_replicate (w n : Nat) : Filled w n 0 (List.replicate n 0) 1 := by
  refine ⟨by simp, digitsOk_replicate w n, val_replicate_zero w n, ?_⟩
  have := lenDigits_append_replicate [] n
  simp only [List.nil_append] at this
  rw [this]; rfl

theorem lenDigits_of_le_val {w : Nat} {out : List Nat} (hd : DigitsOk w out) (h1 : 1 ≤ out.length)
    (h : out.length = 1 ∨ 2 ^ (w * (out.length - 1)) ≤ val w out) : lenDigits out = out.length := by
  have hne : out ≠ [] := by rintro rfl; simp at h1
  obtain ⟨i, d, rfl⟩ := exists_concat hne
  simp only [List.length_append, List.length_singleton, Nat.add_sub_cancel] at *
  by_cases hd0 : d = 0
  · subst hd0
    rcases h with h | h
    · have : i = [] := List.length_eq_zero_iff.mp (by omega)
      subst this; rfl
    · rw [val_append] at h
      simp only [val_cons, val_nil, Nat.mul_zero, Nat.add_zero] at h
      have := val_lt ((digitsOk_append w i [0]).mp hd).1
      omega
  · rw [lenDigits_concat_pos i hd0]

theorem filled_write {w n v : Nat} {out : List Nat} (hl : out.length ≤ n) (hd : DigitsOk w out) (hv : val w out = v)
    (h1 : 1 ≤ out.length) (h : out.length = 1 ∨ 2 ^ (w * (out.length - 1)) ≤ v) :
    Filled w n v (out ++ List.replicate (n - out.length) 0) out.length := by
  refine ⟨by simp; omega, by simp [hd, digitsOk_replicate], by rw [val_pad, hv], ?_⟩
  rw [lenDigits_append_replicate, lenDigits_of_le_val hd h1 (hv ▸ h)]

/-! ## Comparison -/

theorem cmpLex_eq {w : Nat} (x y : List Nat) (hx : DigitsOk w x) (hy : DigitsOk w y) (hl : x.length = y.length) :
    cmpLex x y = compare (val w x.reverse) (val w y.reverse) := by
  induction x generalizing y with
  | nil => cases y with
    | nil => simp [cmpLex]
    | cons => simp at hl
  | cons a as ih =>
    cases y with
    | nil => simp at hl
    | cons b bs =>
      rw [digitsOk_cons] at hx hy
      have hl' : as.length = bs.length := by simpa using hl
      simp only [cmpLex, List.reverse_cons, val_append, List.length_reverse, val_cons, val_nil, Nat.mul_zero, Nat.add_zero,
        ih bs hx.2 hy.2 hl', ← hl']
      have h1 := val_lt ((digitsOk_reverse w as).mpr hx.2)
      have h2 := val_lt ((digitsOk_reverse w bs).mpr hy.2)
      rw [List.length_reverse] at h1 h2
      rw [← hl'] at h2
      generalize val w as.reverse = va at *
      generalize val w bs.reverse = vb at *
      generalize 2 ^ (w * as.length) = P at *
      rcases Nat.lt_trichotomy a b with h | h | h
      · have : P * a + P ≤ P * b := by nlinarith
        rw [Nat.compare_eq_lt.mpr h, Nat.compare_eq_lt.mpr (show va + P * a < vb + P * b by omega)]; rfl
      · subst h
        rw [Nat.compare_eq_eq.mpr rfl]
        show compare va vb = _
        rcases Nat.lt_trichotomy va vb with h | h | h
        · rw [Nat.compare_eq_lt.mpr h, Nat.compare_eq_lt.mpr (by omega)]
        · rw [Nat.compare_eq_eq.mpr h, Nat.compare_eq_eq.mpr (by omega)]
        · rw [Nat.compare_eq_gt.mpr h, Nat.compare_eq_gt.mpr (by omega)]
      · have : P * b + P ≤ P * a := by nlinarith
        rw [Nat.compare_eq_gt.mpr h, Nat.compare_eq_gt.mpr (show vb + P * b < va + P * a by omega)]; rfl

theorem cmpDigits_eq (m : Build) {w : Nat} {a b : List Nat} (ha : Valid w a) (hb : Valid w b) :
    (cmpDigits m a b : Out ε Ordering) = .ok (compare (val w a) (val w b)) := by
  simp only [cmpDigits, ha.valid, hb.valid, dassert_true, Out.bind_ok, Out.pure_def]
  rcases Nat.lt_trichotomy a.length b.length with h | h | h
  · rw [Nat.compare_eq_lt.mpr h]
    have : val w a < val w b := by
      apply Classical.byContradiction
      intro hc
      have := hb.length_le_of_val_le ha (by omega)
      omega
    rw [Nat.compare_eq_lt.mpr this]
  · rw [Nat.compare_eq_eq.mpr h]
    have := cmpLex_eq (w := w) a.reverse b.reverse (by simpa using ha.digits) (by simpa using hb.digits) (by simpa using h)
    simp only [this, List.reverse_reverse]
  · rw [Nat.compare_eq_gt.mpr h]
    have : val w b < val w a := by
      apply Classical.byContradiction
      intro hc
      have := ha.length_le_of_val_le hb (by omega)
      omega
    rw [Nat.compare_eq_gt.mpr this]

/-! ## Addition -/

theorem carryingAdd_spec {w l r : Nat} (hl : l < 2 ^ w) (hr : r < 2 ^ w) (c : Bool) :
    (carryingAdd w l r c).1 < 2 ^ w ∧
    (carryingAdd w l r c).1 + 2 ^ w * (carryingAdd w l r c).2.toNat = l + r + c.toNat := by
  have hc : c.toNat ≤ 1 := by cases c <;> decide
  simp only [carryingAdd]
  generalize 2 ^ w = B at *
  generalize c.toNat = k at *
  refine ⟨Nat.mod_lt _ (by omega), ?_⟩
  have e1 : (l + r) % B = if B ≤ l + r then l + r - B else l + r := by
    split
    · rw [Nat.mod_eq_sub_mod (by omega), Nat.mod_eq_of_lt (by omega)]
    · exact Nat.mod_eq_of_lt (by omega)
  by_cases h1 : B ≤ l + r
  · rw [if_pos h1] at e1
    have h2 : ¬ B ≤ l + r - B + k := by omega
    rw [e1, Nat.mod_eq_of_lt (by omega)]
    simp only [h1, decide_true, Bool.true_or, Bool.toNat_true]; omega
  · rw [if_neg h1] at e1
    rw [e1]
    by_cases h2 : B ≤ l + r + k
    · have : l + r + k = B := by omega
      simp [this]
    · rw [Nat.mod_eq_of_lt (by omega)]; simp [h1, h2]

theorem addZip_spec {w : Nat} (ss gs : List Nat) (c : Bool) (hs : DigitsOk w ss) (hg : DigitsOk w gs)
    (hl : ss.length ≤ gs.length) :
    (addZip w ss gs c).1.length = ss.length ∧ DigitsOk w (addZip w ss gs c).1 ∧
    val w (addZip w ss gs c).1 + 2 ^ (w * ss.length) * (addZip w ss gs c).2.toNat
      = val w ss + val w (gs.take ss.length) + c.toNat := by
  induction ss generalizing gs c with
  | nil => simp [addZip]
  | cons s ss ih =>
    cases gs with
    | nil => simp at hl
    | cons g gs =>
      rw [digitsOk_cons] at hs hg
      obtain ⟨h1, h2⟩ := carryingAdd_spec hg.1 hs.1 c
      obtain ⟨i1, i2, i3⟩ := ih gs (carryingAdd w g s c).2 hs.2 hg.2 (by simpa using hl)
      simp only [addZip, List.length_cons, List.take_succ_cons, val_cons, digitsOk_cons]
      refine ⟨by rw [i1], ⟨h1, i2⟩, ?_⟩
      rw [Nat.mul_succ, Nat.pow_add]
      generalize (carryingAdd w g s c).1 = d at *
      generalize (carryingAdd w g s c).2 = c' at *
      generalize addZip w ss gs c' = r at *
      have e : 2 ^ w * (val w r.1 + 2 ^ (w * ss.length) * r.2.toNat) =
        2 ^ w * (val w ss + val w (gs.take ss.length) + c'.toNat) := by rw [i3]
      have e1 : d + 2 ^ w * val w r.1 + 2 ^ (w * ss.length) * 2 ^ w * r.2.toNat =
        d + 2 ^ w * (val w r.1 + 2 ^ (w * ss.length) * r.2.toNat) := by ring
      rw [e1, e]
      have e2 : d + 2 ^ w * (val w ss + val w (gs.take ss.length) + c'.toNat) =
        (d + 2 ^ w * c'.toNat) + 2 ^ w * val w ss + 2 ^ w * val w (gs.take ss.length) := by ring
      rw [e2, h2]; ring

theorem addProp_spec {w : Nat} (gs : List Nat) (c : Bool) (hg : DigitsOk w gs) :
    (addProp w gs c).1.length = gs.length ∧ DigitsOk w (addProp w gs c).1 ∧
    val w (addProp w gs c).1 + 2 ^ (w * gs.length) * (addProp w gs c).2.toNat = val w gs + c.toNat := by
  induction gs generalizing c with
  | nil => simp [addProp]
  | cons g gs ih =>
    rw [digitsOk_cons] at hg
    obtain ⟨h1, h2⟩ := carryingAdd_spec (l := g) (r := 0) hg.1 (Nat.two_pow_pos w) c
    obtain ⟨i1, i2, i3⟩ := ih (carryingAdd w g 0 c).2 hg.2
    simp only [addProp, List.length_cons, val_cons, digitsOk_cons]
    refine ⟨by rw [i1], ⟨h1, i2⟩, ?_⟩
    rw [Nat.mul_succ, Nat.pow_add]
    generalize (carryingAdd w g 0 c).1 = d at *
    generalize (carryingAdd w g 0 c).2 = c' at *
    generalize addProp w gs c' = r at *
    have e : 2 ^ w * (val w r.1 + 2 ^ (w * gs.length) * r.2.toNat) = 2 ^ w * (val w gs + c'.toNat) := by rw [i3]
    have e1 : d + 2 ^ w * val w r.1 + 2 ^ (w * gs.length) * 2 ^ w * r.2.toNat =
      d + 2 ^ w * (val w r.1 + 2 ^ (w * gs.length) * r.2.toNat) := by ring
    rw [e1, e]
    have e2 : d + 2 ^ w * (val w gs + c'.toNat) = (d + 2 ^ w * c'.toNat) + 2 ^ w * val w gs := by ring
    rw [e2, h2]; ring

theorem Valid.size_cond {w : Nat} {g : List Nat} (h : Valid w g) (v : Nat) (hv : val w g ≤ v) :
    g.length = 1 ∨ 2 ^ (w * (g.length - 1)) ≤ v := by
  have := h.length_pos
  by_cases h1 : g.length = 1
  · left; exact h1
  · right; exact Nat.le_trans (h.le_val (by omega)) hv

/-- `add_digits`, when the first operand is the longer or equal one. -/
theorem add_core {w : Nat} {g s : List Nat} (hg : Valid w g) (hs : Valid w s) (hle : val w s ≤ val w g) {n : Nat}
    (hn : g.length + 1 ≤ n) :
    ∃ buf len, (
      (if (addZip w s g false).2 then
        if (addProp w (g.drop s.length) (addZip w s g false).2).2 then
          do
            let buf ← writeBuf n ((addZip w s g false).1 ++ (addProp w (g.drop s.length) (addZip w s g false).2).1 ++ [1])
            return (buf, g.length + 1)
        else do
            let buf ← writeBuf n ((addZip w s g false).1 ++ (addProp w (g.drop s.length) (addZip w s g false).2).1)
            return (buf, g.length)
      else do
        let buf ← writeBuf n ((addZip w s g false).1 ++ g.drop s.length)
        return (buf, g.length)) : Out ε _) = .ok (buf, len) ∧ Filled w n (val w g + val w s) buf len := by
  have hl := hs.length_le_of_val_le hg hle
  obtain ⟨z1, z2, z3⟩ := addZip_spec s g false hs.digits hg.digits hl
  obtain ⟨p1, p2, p3⟩ := addProp_spec (w := w) (g.drop s.length) (addZip w s g false).2 (hg.digits.drop _)
  have hsplit := val_take_drop w s.length g hl
  have hgl := hg.length_pos
  have hdl : (g.drop s.length).length = g.length - s.length := by simp
  have hpow : 2 ^ (w * s.length) * 2 ^ (w * (g.length - s.length)) = 2 ^ (w * g.length) := by
    rw [← Nat.pow_add, ← Nat.mul_add]; congr 2; omega
  have hsz := hg.size_cond (val w g + val w s) (by omega)
  generalize addZip w s g false = z at *
  generalize addProp w (g.drop s.length) z.2 = p at *
  rw [hdl] at p1 p3
  by_cases hc : z.2 = true
  · rw [if_pos hc]
    rw [hc] at z3 p3
    simp only [Bool.toNat_true, Bool.toNat_false, Nat.mul_one, Nat.add_zero] at z3 p3
    have hval : val w (z.1 ++ p.1) + 2 ^ (w * g.length) * p.2.toNat = val w g + val w s := by
      rw [val_append, z1, ← hpow, hsplit]
      have : 2 ^ (w * s.length) * (val w p.1 + 2 ^ (w * (g.length - s.length)) * p.2.toNat) =
        2 ^ (w * s.length) * (val w (g.drop s.length) + 1) := by rw [p3]
      nlinarith
    have hlen : (z.1 ++ p.1).length = g.length := by simp [z1, p1]; omega
    by_cases hc2 : p.2 = true
    · rw [if_pos hc2]
      rw [hc2] at hval
      have hl2 : (z.1 ++ p.1 ++ [1]).length = g.length + 1 := by rw [List.length_append, hlen]; rfl
      rw [writeBuf_eq (by omega)]
      have hv2 : val w (z.1 ++ p.1 ++ [1]) = val w g + val w s := by
        rw [val_append, hlen]; simpa using hval
      have hw : 1 < 2 ^ w := by
        apply Classical.byContradiction
        intro hw
        have hw1 : 2 ^ w = 1 := by have := Nat.two_pow_pos w; omega
        have e1 := hg.val_lt
        have e2 := hs.val_lt
        rw [Nat.pow_mul, hw1, Nat.one_pow] at e1 e2
        have : 2 ^ (w * g.length) = 1 := by rw [Nat.pow_mul, hw1, Nat.one_pow]
        rw [this] at hval
        simp at hval
        omega
      have hf := filled_write (n := n) (by omega) (by simp [z2, p2, hw]) hv2 (by omega)
        (Or.inr (by rw [hl2, Nat.add_sub_cancel]; simp at hval; omega))
      rw [hl2] at hf
      exact ⟨_, _, rfl, by rw [hl2]; exact hf⟩
    · rw [if_neg hc2]
      have hc2' : p.2 = false := by simpa using hc2
      rw [hc2'] at hval
      simp only [Bool.toNat_false, Nat.mul_zero, Nat.add_zero] at hval
      rw [writeBuf_eq (by omega)]
      have hf := filled_write (n := n) (by omega) (by simp [z2, p2]) hval (by omega) (by rw [hlen]; exact hsz)
      rw [hlen] at hf
      exact ⟨_, _, rfl, by rw [hlen]; exact hf⟩
  · rw [if_neg hc]
    have hc' : z.2 = false := by simpa using hc
    rw [hc'] at z3
    simp only [Bool.toNat_false, Nat.mul_zero, Nat.add_zero] at z3
    have hval : val w (z.1 ++ g.drop s.length) = val w g + val w s := by
      rw [val_append, z1, z3, hsplit]; ring
    have hlen : (z.1 ++ g.drop s.length).length = g.length := by simp [z1]; omega
    rw [writeBuf_eq (by omega)]
    have hf := filled_write (n := n) (by omega) (by simp [z2, hg.digits.drop]) hval (by omega) (by rw [hlen]; exact hsz)
    rw [hlen] at hf
    exact ⟨_, _, rfl, by rw [hlen]; exact hf⟩

theorem addDigits_spec (m : Build) {w : Nat} {a b : List Nat} (ha : Valid w a) (hb : Valid w b) {n : Nat}
    (hn : max a.length b.length + 1 ≤ n) :
    ∃ buf len, (addDigits m w a b n : Out ε _) = .ok (buf, len) ∧ Filled w n (val w a + val w b) buf len := by
  simp only [addDigits, ha.valid, hb.valid, dassert_true, Out.bind_ok, cmpDigits_eq m ha hb, hn, decide_true]
  by_cases h : val w a < val w b
  · rw [Nat.compare_eq_lt.mpr h]
    obtain ⟨buf, len, h1, h2⟩ := add_core (ε := ε) hb ha (by omega) (n := n) (by omega)
    rw [Nat.add_comm (val w a)]
    exact ⟨buf, len, h1, h2⟩
  · have : (compare (val w a) (val w b) == Ordering.lt) = false := by
      rw [beq_eq_false_iff_ne, ne_eq, Nat.compare_eq_lt]; exact h
    rw [this]
    obtain ⟨buf, len, h1, h2⟩ := add_core (ε := ε) ha hb (by omega) (n := n) (by omega)
    exact ⟨buf, len, h1, h2⟩

/-! ## Subtraction -/

theorem borrowingSub_spec {w l r : Nat} (hl : l < 2 ^ w) (hr : r < 2 ^ w) (c : Bool) :
    (borrowingSub w l r c).1 < 2 ^ w ∧
    (borrowingSub w l r c).1 + r + c.toNat = l + 2 ^ w * (borrowingSub w l r c).2.toNat := by
  have hc : c.toNat ≤ 1 := by cases c <;> decide
  simp only [borrowingSub]
  generalize 2 ^ w = B at *
  generalize c.toNat = k at *
  refine ⟨Nat.mod_lt _ (by omega), ?_⟩
  by_cases h1 : l < r
  · have e1 : (l + B - r) % B = l + B - r := Nat.mod_eq_of_lt (by omega)
    have e2 : ¬ l + B - r < k := by omega
    have e3 : (l + B - r + B - k) % B = l + B - r - k := by
      rw [show l + B - r + B - k = l + B - r - k + B by omega, Nat.add_mod_right, Nat.mod_eq_of_lt (by omega)]
    rw [e1, e3]; simp [h1]; omega
  · have e1 : (l + B - r) % B = l - r := by
      rw [show l + B - r = l - r + B by omega, Nat.add_mod_right, Nat.mod_eq_of_lt (by omega)]
    rw [e1]
    by_cases h2 : l - r < k
    · have e3 : (l - r + B - k) % B = l - r + B - k := Nat.mod_eq_of_lt (by omega)
      rw [e3]; simp [h2]; omega
    · have e3 : (l - r + B - k) % B = l - r - k := by
        rw [show l - r + B - k = l - r - k + B by omega, Nat.add_mod_right, Nat.mod_eq_of_lt (by omega)]
      rw [e3]; simp [h1, h2]; omega

theorem subZip_spec {w : Nat} (ss gs : List Nat) (c : Bool) (hs : DigitsOk w ss) (hg : DigitsOk w gs)
    (hl : ss.length ≤ gs.length) :
    (subZip w ss gs c).1.length = ss.length ∧ DigitsOk w (subZip w ss gs c).1 ∧
    val w (subZip w ss gs c).1 + val w ss + c.toNat
      = val w (gs.take ss.length) + 2 ^ (w * ss.length) * (subZip w ss gs c).2.toNat := by
  induction ss generalizing gs c with
  | nil => simp [subZip]
  | cons s ss ih =>
    cases gs with
    | nil => simp at hl
    | cons g gs =>
      rw [digitsOk_cons] at hs hg
      obtain ⟨h1, h2⟩ := borrowingSub_spec hg.1 hs.1 c
      obtain ⟨i1, i2, i3⟩ := ih gs (borrowingSub w g s c).2 hs.2 hg.2 (by simpa using hl)
      simp only [subZip, List.length_cons, List.take_succ_cons, val_cons, digitsOk_cons]
      refine ⟨by rw [i1], ⟨h1, i2⟩, ?_⟩
      rw [Nat.mul_succ, Nat.pow_add]
      generalize (borrowingSub w g s c).1 = d at *
      generalize (borrowingSub w g s c).2 = c' at *
      generalize subZip w ss gs c' = r at *
      have e : 2 ^ w * (val w r.1 + val w ss + c'.toNat) =
        2 ^ w * (val w (gs.take ss.length) + 2 ^ (w * ss.length) * r.2.toNat) := by rw [i3]
      have e2 : 2 ^ (w * ss.length) * 2 ^ w * r.2.toNat = 2 ^ w * (2 ^ (w * ss.length) * r.2.toNat) := by ring
      rw [e2]
      generalize 2 ^ (w * ss.length) * r.2.toNat = X at *
      generalize 2 ^ w = B at *
      nlinarith

theorem subProp_spec {w : Nat} (gs : List Nat) (c : Bool) (hg : DigitsOk w gs) :
    (subProp w gs c).1.length = gs.length ∧ DigitsOk w (subProp w gs c).1 ∧
    val w (subProp w gs c).1 + c.toNat = val w gs + 2 ^ (w * gs.length) * (subProp w gs c).2.toNat := by
  induction gs generalizing c with
  | nil => simp [subProp]
  | cons g gs ih =>
    rw [digitsOk_cons] at hg
    obtain ⟨h1, h2⟩ := borrowingSub_spec (l := g) (r := 0) hg.1 (Nat.two_pow_pos w) c
    obtain ⟨i1, i2, i3⟩ := ih (borrowingSub w g 0 c).2 hg.2
    simp only [subProp, List.length_cons, val_cons, digitsOk_cons]
    refine ⟨by rw [i1], ⟨h1, i2⟩, ?_⟩
    rw [Nat.mul_succ, Nat.pow_add]
    generalize (borrowingSub w g 0 c).1 = d at *
    generalize (borrowingSub w g 0 c).2 = c' at *
    generalize subProp w gs c' = r at *
    have e : 2 ^ w * (val w r.1 + c'.toNat) = 2 ^ w * (val w gs + 2 ^ (w * gs.length) * r.2.toNat) := by rw [i3]
    have e2 : 2 ^ (w * gs.length) * 2 ^ w * r.2.toNat = 2 ^ w * (2 ^ (w * gs.length) * r.2.toNat) := by ring
    rw [e2]
    generalize 2 ^ (w * gs.length) * r.2.toNat = X at *
    generalize 2 ^ w = B at *
    nlinarith

theorem subDigits_spec (m : Build) {w : Nat} {a b : List Nat} (ha : Valid w a) (hb : Valid w b) {n : Nat}
    (hn : max a.length b.length ≤ n) (hle : val w b ≤ val w a) :
    ∃ buf len, (subDigits m w a b n : Out ε _) = .ok (buf, len) ∧ Filled w n (val w a - val w b) buf len := by
  simp only [subDigits, ha.valid, hb.valid, dassert_true, Out.bind_ok, cmpDigits_eq m ha hb, hn, decide_true]
  have hal := ha.length_pos
  by_cases heq : val w a = val w b
  · rw [Nat.compare_eq_eq.mpr heq]
    refine ⟨_, _, rfl, ?_⟩
    rw [heq, Nat.sub_self]; exact filled_replicate w n
  · rw [Nat.compare_eq_gt.mpr (by omega)]
    simp only [lenDigitsM_eq ha.ne_nil, lenDigitsM_eq hb.ne_nil, Out.bind_ok, ha.len, hb.len]
    have hl := hb.length_le_of_val_le ha hle
    obtain ⟨z1, z2, z3⟩ := subZip_spec b a false hb.digits ha.digits hl
    obtain ⟨p1, p2, p3⟩ := subProp_spec (w := w) (a.drop b.length) (subZip w b a false).2 (ha.digits.drop _)
    have hsplit := val_take_drop w b.length a hl
    have hdl : (a.drop b.length).length = a.length - b.length := by simp
    have hpow : 2 ^ (w * b.length) * 2 ^ (w * (a.length - b.length)) = 2 ^ (w * a.length) := by
      rw [← Nat.pow_add, ← Nat.mul_add]; congr 2; omega
    generalize subZip w b a false = z at *
    generalize subProp w (a.drop b.length) z.2 = p at *
    rw [hdl] at p1 p3
    have fin : ∀ out : List Nat, out.length = a.length → DigitsOk w out → val w out + val w b = val w a →
        ∃ buf len, ((do
          let buf ← writeBuf n out
          let len ← lenDigitsM buf
          return (buf, len)) : Out ε _) = .ok (buf, len) ∧ Filled w n (val w a - val w b) buf len := by
      intro out ho hd hv
      have hne : out ++ List.replicate (n - out.length) 0 ≠ [] := by
        intro he; have := congrArg List.length he; simp only [List.length_append, List.length_nil] at this; omega
      rw [writeBuf_eq (by omega)]
      simp only [Out.bind_ok, lenDigitsM_eq hne]
      refine ⟨_, _, rfl, by simp; omega, by simp [hd, digitsOk_replicate], by rw [val_pad]; omega, rfl⟩
    by_cases hc : z.2 = true
    · rw [if_pos hc]
      rw [hc] at z3 p3
      simp only [Bool.toNat_true, Bool.toNat_false, Nat.mul_one, Nat.add_zero] at z3 p3
      have hval : val w (z.1 ++ p.1) + val w b = val w a + 2 ^ (w * a.length) * p.2.toNat := by
        rw [val_append, z1, ← hpow, hsplit]
        have : 2 ^ (w * b.length) * (val w p.1 + 1) =
          2 ^ (w * b.length) * (val w (a.drop b.length) + 2 ^ (w * (a.length - b.length)) * p.2.toNat) := by rw [p3]
        nlinarith
      have hlen : (z.1 ++ p.1).length = a.length := by simp [z1, p1]; omega
      have hlt := val_lt (w := w) (ds := z.1 ++ p.1) (by simp [z2, p2])
      rw [hlen] at hlt
      have hp2 : p.2 = false := by
        cases hp : p.2 with
        | false => rfl
        | true =>
          rw [hp] at hval; simp only [Bool.toNat_true, Nat.mul_one] at hval
          omega
      rw [hp2] at hval
      exact fin _ hlen (by simp [z2, p2]) (by simpa using hval)
    · rw [if_neg hc]
      have hc' : z.2 = false := by simpa using hc
      rw [hc'] at z3
      simp only [Bool.toNat_false, Nat.mul_zero, Nat.add_zero] at z3
      simp only [decide_true, rassert_true, Out.bind_ok]
      rw [← z1, List.take_length, z1]
      refine fin _ (by simp [z1]; omega) (by simp [z2, ha.digits.drop]) ?_
      rw [val_append, z1, hsplit]
      nlinarith

theorem subDigits_less (m : Build) {w : Nat} {a b : List Nat} (ha : Valid w a) (hb : Valid w b) {n : Nat}
    (hn : max a.length b.length ≤ n) (h : val w a < val w b) : (subDigits m w a b n : Out ε _) = .panic := by
  simp only [subDigits, ha.valid, hb.valid, dassert_true, Out.bind_ok, cmpDigits_eq m ha hb, hn, decide_true]
  rw [Nat.compare_eq_lt.mpr h]

end LCT.BigInt
