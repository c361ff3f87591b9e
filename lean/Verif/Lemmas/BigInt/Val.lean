import Verif.Model.BigInt.Digits
import Verif.Spec.Digits
import Mathlib.Data.List.Induction
import Mathlib.Tactic.Ring
import Mathlib.Tactic.Linarith

namespace LCT.BigInt
open LCT.Spec

/-- Every element is a digit. -/
def DigitsOk (w : Nat) (ds : List Nat) : Prop := ∀ d ∈ ds, d < 2 ^ w

@[simp] theorem val_nil (w : Nat) : val w [] = 0 := rfl
@[simp] theorem val_cons (w d : Nat) (ds : List Nat) : val w (d :: ds) = d + 2 ^ w * val w ds := rfl

@[simp] theorem digitsOk_nil (w : Nat) : DigitsOk w [] := by simp [DigitsOk]
@[simp] theorem digitsOk_cons (w d : Nat) (ds : List Nat) : DigitsOk w (d :: ds) ↔ d < 2 ^ w ∧ DigitsOk w ds := by
  simp [DigitsOk]
@[simp] theorem digitsOk_append (w : Nat) (a b : List Nat) : DigitsOk w (a ++ b) ↔ DigitsOk w a ∧ DigitsOk w b := by
  simp only [DigitsOk, List.mem_append]
  exact ⟨fun h => ⟨fun d hd => h d (Or.inl hd), fun d hd => h d (Or.inr hd)⟩, fun h d hd => hd.elim (h.1 d) (h.2 d)⟩
@[simp] theorem digitsOk_reverse (w : Nat) (a : List Nat) : DigitsOk w a.reverse ↔ DigitsOk w a := by
  simp [DigitsOk]
theorem digitsOk_replicate (w n : Nat) : DigitsOk w (List.replicate n 0) := by
  intro d hd; rw [List.eq_of_mem_replicate hd]; exact Nat.two_pow_pos w
theorem DigitsOk.take {w : Nat} {ds : List Nat} (h : DigitsOk w ds) (n : Nat) : DigitsOk w (ds.take n) :=
  fun d hd => h d (List.mem_of_mem_take hd)
theorem DigitsOk.drop {w : Nat} {ds : List Nat} (h : DigitsOk w ds) (n : Nat) : DigitsOk w (ds.drop n) :=
  fun d hd => h d (List.mem_of_mem_drop hd)

theorem val_append (w : Nat) (a b : List Nat) : val w (a ++ b) = val w a + 2 ^ (w * a.length) * val w b := by
  induction a with
  | nil => simp
  | cons d ds ih => simp only [List.cons_append, val_cons, ih, List.length_cons, Nat.mul_succ, Nat.pow_add]; ring

theorem val_replicate_zero (w n : Nat) : val w (List.replicate n 0) = 0 := by
  induction n with
  | zero => rfl
  | succ n ih => simp [List.replicate_succ, ih]

theorem val_lt {w : Nat} {ds : List Nat} (h : DigitsOk w ds) : val w ds < 2 ^ (w * ds.length) := by
  induction ds with
  | nil => simp
  | cons d ds ih =>
    rw [digitsOk_cons] at h
    have := ih h.2
    simp only [val_cons, List.length_cons, Nat.mul_succ, Nat.pow_add]
    calc d + 2 ^ w * val w ds < 2 ^ w + 2 ^ w * val w ds := by omega
      _ = 2 ^ w * (val w ds + 1) := by ring
      _ ≤ 2 ^ w * 2 ^ (w * ds.length) := Nat.mul_le_mul_left _ this
      _ = _ := by ring

theorem val_take_drop (w n : Nat) (ds : List Nat) (h : n ≤ ds.length) :
    val w ds = val w (ds.take n) + 2 ^ (w * n) * val w (ds.drop n) := by
  conv_lhs => rw [← List.take_append_drop n ds]
  rw [val_append, List.length_take, Nat.min_eq_left h]

theorem val_inj {w : Nat} {a b : List Nat} (ha : DigitsOk w a) (hb : DigitsOk w b) (hl : a.length = b.length)
    (h : val w a = val w b) : a = b := by
  induction a generalizing b with
  | nil => cases b <;> simp_all
  | cons d ds ih =>
    cases b with
    | nil => simp at hl
    | cons e es =>
      rw [digitsOk_cons] at ha hb
      simp only [val_cons] at h
      have h0 : (d + 2 ^ w * val w ds) % 2 ^ w = (e + 2 ^ w * val w es) % 2 ^ w := by rw [h]
      rw [Nat.add_mul_mod_self_left, Nat.add_mul_mod_self_left, Nat.mod_eq_of_lt ha.1, Nat.mod_eq_of_lt hb.1] at h0
      subst h0
      have : val w ds = val w es := Nat.eq_of_mul_eq_mul_left (Nat.two_pow_pos w) (by omega)
      rw [ih ha.2 hb.2 (by simpa using hl) this]

/-! ## Canonical length -/

theorem lenDigits_pos (ds : List Nat) : 1 ≤ lenDigits ds := Nat.le_max_left _ _

theorem lenDigits_le {ds : List Nat} (h : ds ≠ []) : lenDigits ds ≤ ds.length := by
  have h1 : 1 ≤ ds.length := List.length_pos_iff.mpr h
  have h2 := (List.dropWhile_sublist (l := ds.reverse) (· == 0)).length_le
  rw [List.length_reverse] at h2
  exact Nat.max_le.mpr ⟨h1, h2⟩

theorem lenDigits_concat_zero (ds : List Nat) : lenDigits (ds ++ [0]) = lenDigits ds := by
  simp [lenDigits]

theorem lenDigits_concat_pos (ds : List Nat) {d : Nat} (h : d ≠ 0) : lenDigits (ds ++ [d]) = ds.length + 1 := by
  simp [lenDigits, h]

theorem lenDigits_append_replicate (ds : List Nat) (n : Nat) : lenDigits (ds ++ List.replicate n 0) = lenDigits ds := by
  induction n with
  | zero => simp
  | succ n ih => rw [List.replicate_succ', ← List.append_assoc, lenDigits_concat_zero, ih]

/-- The digits beyond the canonical length are zero. -/
theorem drop_lenDigits (ds : List Nat) : ds.drop (lenDigits ds) = List.replicate (ds.length - lenDigits ds) 0 := by
  induction ds using List.reverseRecOn with
  | nil => simp
  | append_singleton ds d ih =>
    by_cases hd : d = 0
    · subst hd
      rw [lenDigits_concat_zero]
      by_cases hn : ds = []
      · subst hn; simp [lenDigits]
      · have hle := lenDigits_le hn
        rw [List.drop_append_of_le_length hle, ih, ← List.replicate_succ']
        congr 1
        simp only [List.length_append, List.length_singleton]; omega
    · rw [lenDigits_concat_pos ds hd]
      simp [List.drop_eq_nil_of_le]

theorem val_take_lenDigits (w : Nat) {ds : List Nat} (h : ds ≠ []) : val w (ds.take (lenDigits ds)) = val w ds := by
  rw [val_take_drop w (lenDigits ds) ds (lenDigits_le h), drop_lenDigits, val_replicate_zero]; simp

theorem isValid_iff {ds : List Nat} : isValid ds = true ↔ ds ≠ [] ∧ lenDigits ds = ds.length := by
  simp [isValid]

theorem isValid_take_lenDigits {ds : List Nat} (h : ds ≠ []) : isValid (ds.take (lenDigits ds)) = true := by
  have hp := lenDigits_pos ds
  have hle := lenDigits_le h
  have hl : (ds.take (lenDigits ds)).length = lenDigits ds := by rw [List.length_take]; omega
  rw [isValid_iff]
  refine ⟨fun he => ?_, ?_⟩
  · rw [he] at hl; simp at hl; omega
  · rw [hl]
    conv_rhs => rw [← List.take_append_drop (lenDigits ds) ds, drop_lenDigits, lenDigits_append_replicate]

/-- A slice representing a canonical unsigned big integer (`is_valid_biguint_slice`) whose elements are digits. -/
structure Valid (w : Nat) (ds : List Nat) : Prop where
  digits : DigitsOk w ds
  valid : isValid ds = true

theorem Valid.ne_nil {w : Nat} {ds : List Nat} (h : Valid w ds) : ds ≠ [] := (isValid_iff.mp h.valid).1
theorem Valid.len {w : Nat} {ds : List Nat} (h : Valid w ds) : lenDigits ds = ds.length := (isValid_iff.mp h.valid).2
theorem Valid.length_pos {w : Nat} {ds : List Nat} (h : Valid w ds) : 1 ≤ ds.length := List.length_pos_iff.mpr h.ne_nil

theorem valid_take {w : Nat} {ds : List Nat} (hd : DigitsOk w ds) (h : ds ≠ []) : Valid w (ds.take (lenDigits ds)) :=
  ⟨hd.take _, isValid_take_lenDigits h⟩

theorem Valid.take_len {w : Nat} {ds : List Nat} (h : Valid w ds) : ds.take (lenDigits ds) = ds := by
  rw [h.len, List.take_length]

/-- Splitting off the most significant digit. -/
theorem exists_concat {ds : List Nat} (h : ds ≠ []) : ∃ i d, ds = i ++ [d] :=
  ⟨ds.dropLast, ds.getLast h, (List.dropLast_concat_getLast h).symm⟩

theorem valid_concat_iff {w : Nat} {i : List Nat} {d : Nat} :
    Valid w (i ++ [d]) ↔ DigitsOk w i ∧ d < 2 ^ w ∧ (i = [] ∨ d ≠ 0) := by
  constructor
  · intro h
    have hd := h.digits
    simp only [digitsOk_append, digitsOk_cons, digitsOk_nil, and_true] at hd
    refine ⟨hd.1, hd.2, ?_⟩
    by_cases hd0 : d = 0
    · left
      have hl := h.len
      subst hd0
      rw [lenDigits_concat_zero] at hl
      apply Classical.byContradiction
      intro hn
      have := lenDigits_le hn
      simp at hl; omega
    · right; exact hd0
  · rintro ⟨h1, h2, h3⟩
    refine ⟨by simp [h1, h2], isValid_iff.mpr ⟨by simp, ?_⟩⟩
    by_cases hd0 : d = 0
    · subst hd0
      rcases h3 with rfl | h3
      · simp [lenDigits]
      · exact absurd rfl h3
    · rw [lenDigits_concat_pos i hd0]; simp

/-- A canonical slice of length above one denotes at least `2^(w * (len - 1))`. -/
theorem Valid.le_val {w : Nat} {ds : List Nat} (h : Valid w ds) (h2 : 2 ≤ ds.length) : 2 ^ (w * (ds.length - 1)) ≤ val w ds := by
  obtain ⟨i, d, rfl⟩ := exists_concat h.ne_nil
  obtain ⟨-, -, h3⟩ := valid_concat_iff.mp h
  simp only [List.length_append, List.length_singleton] at h2 ⊢
  have hd : d ≠ 0 := h3.resolve_left (by rintro rfl; simp at h2)
  rw [val_append]
  have : 1 ≤ d := by omega
  simp only [val_cons, val_nil, Nat.mul_zero, Nat.add_zero, Nat.add_sub_cancel]
  calc 2 ^ (w * i.length) = 2 ^ (w * i.length) * 1 := by ring
    _ ≤ 2 ^ (w * i.length) * d := Nat.mul_le_mul_left _ this
    _ ≤ _ := by omega

theorem Valid.val_lt {w : Nat} {ds : List Nat} (h : Valid w ds) : val w ds < 2 ^ (w * ds.length) := BigInt.val_lt h.digits

/-- Canonical slices of the same value are equal. -/
theorem Valid.len_le_of_val_lt {w : Nat} {ds : List Nat} (h : Valid w ds) {k : Nat} (hk : 1 ≤ k)
    (hv : val w ds < 2 ^ (w * k)) : ds.length ≤ k := by
  apply Classical.byContradiction
  intro hc
  have h1 := h.le_val (by omega)
  have h2 : 2 ^ (w * k) ≤ 2 ^ (w * (ds.length - 1)) := Nat.pow_le_pow_right (by decide) (Nat.mul_le_mul_left _ (by omega))
  omega

theorem Valid.length_le_of_val_le {w : Nat} {a b : List Nat} (ha : Valid w a) (hb : Valid w b) (h : val w a ≤ val w b) :
    a.length ≤ b.length :=
  ha.len_le_of_val_lt hb.length_pos (Nat.lt_of_le_of_lt h hb.val_lt)

theorem Valid.ext {w : Nat} {a b : List Nat} (ha : Valid w a) (hb : Valid w b) (h : val w a = val w b) : a = b :=
  val_inj ha.digits hb.digits
    (Nat.le_antisymm (ha.length_le_of_val_le hb (by omega)) (hb.length_le_of_val_le ha (by omega))) h

theorem Valid.val_eq_zero_iff {w : Nat} {ds : List Nat} (h : Valid w ds) : val w ds = 0 ↔ ds = [0] := by
  constructor
  · intro h0
    have h0' : Valid w [0] := by
      have : Valid w ([] ++ [0]) := valid_concat_iff.mpr ⟨by simp, Nat.two_pow_pos w, Or.inl rfl⟩
      exact this
    exact h.ext h0' (by simp [h0])
  · rintro rfl; simp

theorem valid_singleton {w d : Nat} (h : d < 2 ^ w) : Valid w [d] := by
  have : Valid w ([] ++ [d]) := valid_concat_iff.mpr ⟨by simp, h, Or.inl rfl⟩
  exact this

/-! ## Outcomes -/

variable {ε : Type}

@[simp] theorem dassert_true (m : Build) : (dassert m true : Out ε Unit) = .ok () := by cases m <;> rfl

theorem lenDigitsM_eq {ds : List Nat} (h : ds ≠ []) : (lenDigitsM ds : Out ε Nat) = .ok (lenDigits ds) := by
  cases ds with
  | nil => exact absurd rfl h
  | cons => rfl

theorem isZeroDigits_eq (m : Build) {w : Nat} {ds : List Nat} (h : Valid w ds) :
    (isZeroDigits m ds : Out ε Bool) = .ok (decide (val w ds = 0)) := by
  simp only [isZeroDigits, h.valid, dassert_true, Out.bind_ok, Out.pure_def]
  congr 1
  rw [Bool.eq_iff_iff, decide_eq_true_eq, h.val_eq_zero_iff]
  constructor
  · intro hc
    simp only [Bool.and_eq_true, beq_iff_eq] at hc
    match ds, hc with
    | [x], hc => simpa using hc
  · rintro rfl; rfl

theorem writeBuf_eq {n : Nat} {out : List Nat} (h : out.length ≤ n) :
    (writeBuf n out : Out ε _) = .ok (out ++ List.replicate (n - out.length) 0) := if_pos h

theorem val_pad (w : Nat) (out : List Nat) (k : Nat) : val w (out ++ List.replicate k 0) = val w out := by
  rw [val_append, val_replicate_zero]; simp

end LCT.BigInt
