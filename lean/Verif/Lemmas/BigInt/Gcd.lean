import Verif.Lemmas.BigInt.Dpcc

namespace LCT.BigInt
open LCT.Spec
variable {ε : Type}

/-! ## Slices and buffers -/

theorem Filled.sliceTo {w n v : Nat} {buf : List Nat} {len : Nat} (h : Filled w n v buf len) (hn : 1 ≤ n) :
    (sliceTo buf len : Out ε _) = .ok (buf.take len) := by
  have := h.len_le hn
  have hl := h.length
  simp only [BigInt.sliceTo]
  rw [decide_eq_true (by omega : len ≤ buf.length)]
  rfl

theorem Filled.len_le_of_lt {w n v k : Nat} {buf : List Nat} {len : Nat} (h : Filled w n v buf len) (hn : 1 ≤ n) (hk : 1 ≤ k)
    (hv : v < 2 ^ (w * k)) : len ≤ k := by
  have h1 := (h.valid hn).len_le_of_val_lt hk (by rw [h.val_take hn]; exact hv)
  rwa [h.length_take hn] at h1

theorem copyBuf_spec {w n k v : Nat} {src : List Nat} {len : Nat} (h : Filled w n v src len) (hn : 1 ≤ n) (hk : 1 ≤ k)
    (hv : v < 2 ^ (w * k)) : ∃ buf, (copyBuf k src len : Out ε _) = .ok buf ∧ Filled w k v buf len := by
  have hlen := h.len_le_of_lt hn hk hv
  have hlt := h.length_take hn
  have hvd := h.valid hn
  refine ⟨src.take len ++ List.replicate (k - (src.take len).length) 0, ?_, ?_⟩
  · simp only [copyBuf, h.sliceTo hn, Out.bind_ok]
    exact writeBuf_eq (by omega)
  · have := filled_write (w := w) (n := k) (v := v) (out := src.take len) (by omega) hvd.digits (h.val_take hn) hvd.length_pos
      (by rw [← h.val_take hn]; exact hvd.size_cond _ (Nat.le_refl _))
    rwa [hlt] at this ⊢

/-! ## Signed magnitudes -/

/-- The value of a magnitude with a sign. -/
def sval (g : Sign) (v : Nat) : Int :=
  match g with
  | .positive => v
  | .negative => -(v : Int)

theorem sval_natAbs (g : Sign) (v : Nat) : (sval g v).natAbs = v := by cases g <;> simp [sval]
theorem sval_mul (g : Sign) (x v : Nat) : sval g (x * v) = x * sval g v := by cases g <;> simp [sval]
theorem toInt_mk {w : Nat} {buf : List Nat} {len : Nat} {g : Sign} : toInt w ⟨buf, len, g⟩ = sval g (val w (buf.take len)) := by
  cases g <;> rfl

/-- A buffer of length `n` holding a magnitude, with a sign, denotes the integer `u`. -/
structure SFilled (w n : Nat) (u : Int) (buf : List Nat) (len : Nat) (g : Sign) : Prop where
  filled : Filled w n u.natAbs buf len
  sign : u = sval g u.natAbs

theorem SFilled.mk' {w n v : Nat} {u : Int} {buf : List Nat} {len : Nat} {g : Sign} (h : Filled w n v buf len) (hu : u = sval g v) :
    SFilled w n u buf len g := by
  have : u.natAbs = v := by rw [hu, sval_natAbs]
  exact ⟨this ▸ h, by rw [this]; exact hu⟩

theorem signedSub_spec (m : Build) {w n : Nat} {d1 d2 : List Nat} (h1 : Valid w d1) (h2 : Valid w d2) (g1 g2 : Sign)
    (hn : max d1.length d2.length + 1 ≤ n) :
    ∃ buf len g, (signedSub m w n d1 g1 d2 g2 : Out ε _) = .ok (buf, len, g) ∧
      SFilled w n (sval g1 (val w d1) - sval g2 (val w d2)) buf len g := by
  simp only [signedSub]
  split
  · rename_i hg
    obtain ⟨buf, len, e, f⟩ := addDigits_spec (ε := ε) m h1 h2 hn
    rw [e]
    refine ⟨buf, len, g1, rfl, SFilled.mk' f ?_⟩
    cases g1 <;> cases g2 <;> simp_all [sval] <;> omega
  · rename_i hg
    have hg : g1 = g2 := by simpa using hg
    subst hg
    rw [cmpDigits_eq m h1 h2, Out.bind_ok]
    rcases Nat.lt_trichotomy (val w d1) (val w d2) with h | h | h
    · rw [Nat.compare_eq_lt.mpr h]
      obtain ⟨buf, len, e, f⟩ := subDigits_spec (ε := ε) m h2 h1 (n := n) (by omega) h.le
      simp only [e, Out.bind_ok]
      refine ⟨buf, len, g1.neg, rfl, SFilled.mk' f ?_⟩
      cases g1 <;> simp [sval, Sign.neg] <;> omega
    · rw [Nat.compare_eq_eq.mpr h]
      refine ⟨_, _, _, rfl, SFilled.mk' (filled_replicate w n) ?_⟩
      rw [h]; simp [sval]
    · rw [Nat.compare_eq_gt.mpr h]
      obtain ⟨buf, len, e, f⟩ := subDigits_spec (ε := ε) m h1 h2 (n := n) (by omega) h.le
      simp only [e, Out.bind_ok]
      refine ⟨buf, len, g1, rfl, SFilled.mk' f ?_⟩
      cases g1 <;> simp [sval] <;> omega

theorem valid_digit {w x : Nat} (h : x < 2 ^ w) : Valid w [x] := valid_singleton h

theorem mulSubUnsigned_spec (m : Build) {w n x y : Nat} (hx : x < 2 ^ w) (hy : y < 2 ^ w) {d1 d2 : List Nat} (h1 : Valid w d1)
    (h2 : Valid w d2) (hn1 : d1.length + 1 ≤ n) (hn2 : d2.length + 1 ≤ n) (hle : y * val w d2 ≤ x * val w d1) :
    ∃ buf len, (mulSubUnsigned m w n x d1 y d2 : Out ε _) = .ok (buf, len) ∧ Filled w n (x * val w d1 - y * val w d2) buf len := by
  obtain ⟨p1, l1, e1, f1⟩ := mulDigits_spec (ε := ε) m (valid_digit hx) h1 (n := n) (by simp; omega)
  obtain ⟨p2, l2, e2, f2⟩ := mulDigits_spec (ε := ε) m (valid_digit hy) h2 (n := n) (by simp; omega)
  have hn : 1 ≤ n := by omega
  simp only [mulSubUnsigned, e1, e2, Out.bind_ok, f1.sliceTo hn, f2.sliceTo hn]
  have hs : ∀ z : Nat, val w [z] = z := by intro z; simp [val_cons]
  rw [hs] at f1 f2
  have := subDigits_spec (ε := ε) m (f1.valid hn) (f2.valid hn) (n := n)
    (by rw [f1.length_take hn, f2.length_take hn]; have := f1.len_le hn; have := f2.len_le hn; omega)
    (by rw [f1.val_take hn, f2.val_take hn]; exact hle)
  rwa [f1.val_take hn, f2.val_take hn] at this

theorem mulSubSigned_spec (m : Build) {w n x y : Nat} (hx : x < 2 ^ w) (hy : y < 2 ^ w) (hn0 : 1 ≤ n) {d1 d2 : List Nat} (h1 : Valid w d1)
    (h2 : Valid w d2) (hn1 : d1.length ≤ n) (hn2 : d2.length ≤ n) (g1 g2 : Sign)
    (hb1 : x * val w d1 < 2 ^ (w * n)) (hb2 : y * val w d2 < 2 ^ (w * n)) :
    ∃ buf len g, (mulSubSigned m w (n + 1) x d1 g1 y d2 g2 : Out ε _) = .ok (buf, len, g) ∧
      SFilled w (n + 1) (x * sval g1 (val w d1) - y * sval g2 (val w d2)) buf len g := by
  obtain ⟨p1, l1, e1, f1⟩ := mulDigits_spec (ε := ε) m (valid_digit hx) h1 (n := n + 1) (by simp; omega)
  obtain ⟨p2, l2, e2, f2⟩ := mulDigits_spec (ε := ε) m (valid_digit hy) h2 (n := n + 1) (by simp; omega)
  have hn : 1 ≤ n + 1 := by omega
  simp only [mulSubSigned, e1, e2, Out.bind_ok, f1.sliceTo hn, f2.sliceTo hn]
  have hs : ∀ z : Nat, val w [z] = z := by intro z; simp [val_cons]
  rw [hs] at f1 f2
  have := signedSub_spec (ε := ε) m (f1.valid hn) (f2.valid hn) g1 g2 (n := n + 1)
    (by rw [f1.length_take hn, f2.length_take hn]; have := f1.len_le_of_lt hn hn0 hb1; have := f2.len_le_of_lt hn hn0 hb2; omega)
  rwa [f1.val_take hn, f2.val_take hn, sval_mul, sval_mul] at this

/-! ## The leading digits -/

theorem hatDigit_eq {w t hi lo : Nat} (ht : t ≤ w) (hlo : lo < 2 ^ w) :
    hatDigit w t hi lo = hi % 2 ^ (w - t) * 2 ^ t + lo / 2 ^ (w - t) := by
  rw [hatDigit, shlDigit_eq ht]
  by_cases h : t = 0
  · subst h
    simp [Nat.div_eq_of_lt hlo]
  · rw [if_pos (by omega), Nat.shiftRight_eq_div_pow, Nat.or_comm, or_eq_add ?_ (Nat.dvd_mul_left _ _), Nat.add_comm]
    rw [Nat.div_lt_iff_lt_mul (Nat.two_pow_pos _), ← Nat.pow_add]
    rw [Nat.add_sub_cancel' ht]; exact hlo

theorem div_of_bounds {P X h : Nat} (h1 : P * h ≤ X) (h2 : X < P * (h + 1)) : X / P = h := by
  have hP : 0 < P := by
    rcases Nat.eq_zero_or_pos P with h | h
    · subst h; simp at h2
    · exact h
  exact Nat.div_eq_of_lt_le (by rw [Nat.mul_comm]; exact h1) (by rw [Nat.mul_comm]; exact h2)

/-- The top two digits, shifted. -/
theorem hat_top {w t : Nat} (ht : t ≤ w) {rest : List Nat} {y0 y1 : Nat} (hr : DigitsOk w rest) (h1 : y1 < 2 ^ w) (h0 : y0 < 2 ^ (w - t)) :
    hatDigit w t y0 y1 = val w (rest.reverse ++ [y1, y0]) * 2 ^ t / 2 ^ (w * (rest.length + 1)) := by
  have hf := topFrac (d := t) ht (y1 :: rest) (by simp [digitsOk_cons, h1, hr])
  simp only [List.getD_cons_zero, List.length_cons, List.reverse_cons] at hf
  have hv : val w (rest.reverse ++ [y1, y0]) = val w (rest.reverse ++ [y1]) + 2 ^ (w * (rest.length + 1)) * y0 := by
    have : rest.reverse ++ [y1, y0] = (rest.reverse ++ [y1]) ++ [y0] := by simp
    rw [this, val_append]
    simp [val_cons]
  rw [hatDigit_eq ht h1, Nat.mod_eq_of_lt h0, hv]
  symm
  refine div_of_bounds ?_ ?_
  · rw [Nat.mul_add, Nat.add_mul]
    have : 2 ^ (w * (rest.length + 1)) * (y0 * 2 ^ t) = 2 ^ (w * (rest.length + 1)) * y0 * 2 ^ t := by ring
    omega
  · have : 2 ^ (w * (rest.length + 1)) * (y0 * 2 ^ t + y1 / 2 ^ (w - t) + 1)
        = 2 ^ (w * (rest.length + 1)) * y0 * 2 ^ t + 2 ^ (w * (rest.length + 1)) * (y1 / 2 ^ (w - t) + 1) := by ring
    rw [this, Nat.add_mul]
    omega

theorem split2 {l : List Nat} (h : 2 ≤ l.length) : ∃ (rest : List Nat) (y1 y0 : Nat), l = rest.reverse ++ [y1, y0] ∧ rest.length + 2 = l.length := by
  have hrl : 2 ≤ l.reverse.length := by simpa using h
  match hr : l.reverse, hrl with
  | y0 :: y1 :: rest, _ =>
    refine ⟨rest, y1, y0, ?_, ?_⟩
    · have := congrArg List.reverse hr; simpa using this
    · have := congrArg List.length hr; simp at this; omega

theorem take_getElem? {buf l : List Nat} {len i : Nat} (h : buf.take len = l) (hi : i < len) : buf[i]? = l[i]? := by
  rw [← h, List.getElem?_take_of_lt hi]

theorem dpccInit_spec {w A B n nb : Nat} (hw : 1 ≤ w) {s : GcdSt} (fa : Filled w n A s.a s.aLen) (fb : Filled w nb B s.b s.bLen)
    (hn : 1 ≤ n) (hnb : 1 ≤ nb) (hBA : B < A) (hb : 1 < s.bLen) :
    ∃ K ah bh, 0 < K ∧ A / K = ah ∧ B / K = bh ∧ ah < 2 ^ w ∧
      (dpccInit w s : Out ε _) = .ok ⟨ah, bh, 0, 1, 0, 0, 0, 1, true⟩ := by
  have va := fa.valid hn
  have vb := fb.valid hnb
  have hla := fa.length_take hn
  have hlb := fb.length_take hnb
  have hA := fa.val_take hn
  have hB := fb.val_take hnb
  have hab : s.bLen ≤ s.aLen := by
    rw [← hla, ← hlb]; exact vb.length_le_of_val_le va (by omega)
  obtain ⟨rest, y1, y0, ea, el⟩ := split2 (l := s.a.take s.aLen) (by omega)
  rw [hla] at el
  have hdig := va.digits
  have hv' : Valid w ((rest.reverse ++ [y1]) ++ [y0]) := by have := va; rw [ea] at this; simpa using this
  obtain ⟨-, hy0, hne⟩ := valid_concat_iff.mp hv'
  have hy0n : y0 ≠ 0 := hne.resolve_left (by simp)
  rw [ea] at hdig
  simp only [digitsOk_append, digitsOk_cons, digitsOk_nil, and_true, digitsOk_reverse] at hdig
  obtain ⟨hrest, hy1, -⟩ := hdig
  have g0 : s.a[s.aLen - 1]? = some y0 := by
    rw [take_getElem? ea (by omega), List.getElem?_append_right (by simp; omega)]
    simp [show s.aLen - 1 - rest.length = 1 by omega]
  have g1 : s.a[s.aLen - 2]? = some y1 := by
    rw [take_getElem? ea (by omega), List.getElem?_append_right (by simp; omega)]
    simp [show s.aLen - 2 - rest.length = 0 by omega]
  have ht : leadingZeros w y0 ≤ w := Nat.sub_le _ _
  have hbits : digitBits y0 ≤ w := (digitBits_le_iff y0 w).mpr hy0
  have hbits0 : 0 < digitBits y0 := by
    rcases Nat.eq_zero_or_pos (digitBits y0) with h | h
    · have := (digitBits_le_iff y0 0).mp (by omega); simp at this; omega
    · exact h
  have hwt : w - leadingZeros w y0 = digitBits y0 := by rw [leadingZeros]; omega
  have hy0t : y0 < 2 ^ (w - leadingZeros w y0) := by rw [hwt]; exact (digitBits_le_iff y0 _).mp (Nat.le_refl _)
  have hltw : leadingZeros w y0 < w := by omega
  generalize htd : leadingZeros w y0 = t at *
  have hx := hat_top ht hrest hy1 hy0t
  rw [← ea, hA] at hx
  -- the common scale
  have hPK : 2 ^ (w * (rest.length + 1)) = 2 ^ (w * (rest.length + 1) - t) * 2 ^ t := by
    rw [← Nat.pow_add]; congr 1
    have : w * 1 ≤ w * (rest.length + 1) := Nat.mul_le_mul_left _ (by omega)
    omega
  have hdiv : ∀ X, X * 2 ^ t / 2 ^ (w * (rest.length + 1)) = X / 2 ^ (w * (rest.length + 1) - t) := by
    intro X; rw [hPK, Nat.mul_div_mul_right _ _ (Nat.two_pow_pos t)]
  have hAlt : A * 2 ^ t < 2 ^ (w * (rest.length + 1)) * 2 ^ w := by
    have h1 : A < 2 ^ (w * (rest.length + 1)) * (y0 + 1) := by
      have h2 := val_lt (w := w) (ds := rest.reverse ++ [y1]) (by simp [digitsOk_append, digitsOk_cons, hrest, hy1])
      have h3 : A = val w (rest.reverse ++ [y1]) + 2 ^ (w * (rest.length + 1)) * y0 := by
        rw [← hA, ea]
        have : rest.reverse ++ [y1, y0] = (rest.reverse ++ [y1]) ++ [y0] := by simp
        rw [this, val_append]
        simp [val_cons]
      simp only [List.length_append, List.length_reverse, List.length_singleton] at h2
      have h4 := Nat.mul_add_one (2 ^ (w * (rest.length + 1))) y0
      rw [h3]; omega
    have h2 : 2 ^ (w * (rest.length + 1)) * (y0 + 1) ≤ 2 ^ (w * (rest.length + 1)) * 2 ^ (w - t) := Nat.mul_le_mul_left _ hy0t
    have h3 : A * 2 ^ t < 2 ^ (w * (rest.length + 1)) * 2 ^ (w - t) * 2 ^ t :=
      Nat.mul_lt_mul_of_pos_right (by omega) (Nat.two_pow_pos t)
    rwa [Nat.mul_assoc, ← Nat.pow_add, Nat.sub_add_cancel ht] at h3
  refine ⟨2 ^ (w * (rest.length + 1) - t), A / 2 ^ (w * (rest.length + 1) - t), B / 2 ^ (w * (rest.length + 1) - t),
    Nat.two_pow_pos _, rfl, rfl, ?_, ?_⟩
  · rw [← hdiv, Nat.div_lt_iff_lt_mul (Nat.two_pow_pos _), Nat.mul_comm (2 ^ w)]; exact hAlt
  rw [← hdiv A, ← hdiv B, ← hx]
  simp only [dpccInit, g0, g1, unwrap_some, Out.bind_ok, htd]
  rw [decide_eq_true (by omega : 2 ≤ s.aLen), decide_eq_true hab]
  simp only [rassert_true, Out.bind_ok]
  obtain ⟨restb, z1, z0, eb, elb⟩ := split2 (l := s.b.take s.bLen) (by omega)
  rw [hlb] at elb
  have hdigb := vb.digits
  rw [eb] at hdigb
  simp only [digitsOk_append, digitsOk_cons, digitsOk_nil, and_true, digitsOk_reverse] at hdigb
  obtain ⟨hrestb, hz1, hz0⟩ := hdigb
  have gb0 : s.b[s.bLen - 1]? = some z0 := by
    rw [take_getElem? eb (by omega), List.getElem?_append_right (by simp; omega)]
    simp [show s.bLen - 1 - restb.length = 1 by omega]
  have gb1 : s.b[s.bLen - 2]? = some z1 := by
    rw [take_getElem? eb (by omega), List.getElem?_append_right (by simp; omega)]
    simp [show s.bLen - 2 - restb.length = 0 by omega]
  match hd : s.aLen - s.bLen with
  | 0 =>
    simp only [gb0, gb1, unwrap_some, Out.bind_ok, Out.pure_def]
    have hll : restb.length = rest.length := by omega
    have hz0t : z0 < 2 ^ (w - t) := by
      have h1 : 2 ^ (w * (rest.length + 1)) * z0 ≤ B := by
        rw [← hB, eb]
        have : restb.reverse ++ [z1, z0] = (restb.reverse ++ [z1]) ++ [z0] := by simp
        rw [this, val_append, ← hll]
        simp [val_cons]
      apply Classical.byContradiction
      intro hc
      have h2 : 2 ^ (w * (rest.length + 1)) * 2 ^ (w - t) ≤ 2 ^ (w * (rest.length + 1)) * z0 := Nat.mul_le_mul_left _ (by omega)
      have h3 : 2 ^ (w * (rest.length + 1)) * 2 ^ (w - t) * 2 ^ t ≤ A * 2 ^ t := Nat.mul_le_mul_right _ (by omega)
      rw [Nat.mul_assoc, ← Nat.pow_add, Nat.sub_add_cancel ht] at h3
      omega
    have hy := hat_top ht hrestb hz1 hz0t
    rw [← eb, hB, hll] at hy
    rw [← hy]
  | 1 =>
    simp only [gb0, unwrap_some, Out.bind_ok, Out.pure_def]
    have hf := topFrac (d := t) ht (z0 :: z1 :: restb) (by simp [digitsOk_cons, hz0, hz1, hrestb])
    have hrv : (z0 :: z1 :: restb).reverse = restb.reverse ++ [z1, z0] := by simp
    rw [hrv, ← eb, hB] at hf
    simp only [List.getD_cons_zero, List.length_cons] at hf
    rw [show restb.length + 1 + 1 = rest.length + 1 by omega] at hf
    have : B * 2 ^ t / 2 ^ (w * (rest.length + 1)) = z0 / 2 ^ (w - t) := div_of_bounds hf.1 hf.2
    rw [this]
    congr 2; show (if w - t < w then z0 >>> (w - t) else 0) = _
    by_cases ht0 : t = 0
    · subst ht0; simp [Nat.div_eq_of_lt hz0]
    · rw [if_pos (by omega), Nat.shiftRight_eq_div_pow]
  | j + 2 =>
    simp only [Out.bind_ok, Out.pure_def]
    have h1 := vb.val_lt
    rw [hB, hlb] at h1
    have : B * 2 ^ t / 2 ^ (w * (rest.length + 1)) = 0 := by
      rw [Nat.div_eq_zero_iff_lt (Nat.two_pow_pos _)]
      have h2 : 2 ^ (w * s.bLen) ≤ 2 ^ (w * rest.length) := Nat.pow_le_pow_right (by omega) (Nat.mul_le_mul_left _ (by omega))
      have h3 : 2 ^ (w * (rest.length + 1)) = 2 ^ (w * rest.length) * 2 ^ w := by rw [← Nat.pow_add]; congr 1
      have h4 : 2 ^ t ≤ 2 ^ w := Nat.pow_le_pow_right (by omega) ht
      rw [h3]
      calc B * 2 ^ t < 2 ^ (w * rest.length) * 2 ^ t := Nat.mul_lt_mul_of_pos_right (by omega) (Nat.two_pow_pos t)
        _ ≤ _ := Nat.mul_le_mul_left _ h4
    rw [this]

end LCT.BigInt
