import Verif.Lemmas.BigInt.Shift
import Verif.Lemmas.Bytes
import Verif.Lemmas.Codecs
import Verif.Spec.BigInt

namespace LCT.BigInt
open LCT.Spec
variable {ε : Type}

/-- Absolute value of the stored number. -/
def mag (w : Nat) (x : BInt) : Nat := val w (x.storage.take x.len)

theorem wf_iff {w : Nat} {x : BInt} :
    WF w x ↔ x.storage ≠ [] ∧ DigitsOk w x.storage ∧ x.len = lenDigits x.storage := by
  constructor
  · rintro ⟨h1, h2, h3, h4, h5⟩
    have hne : x.storage ≠ [] := by intro h; rw [h] at h3; simp at h3; omega
    refine ⟨hne, h1, ?_⟩
    have hdrop : x.storage.drop x.len = List.replicate (x.storage.drop x.len).length 0 :=
      List.eq_replicate_of_mem h5
    have hsp : x.storage = x.storage.take x.len ++ List.replicate (x.storage.drop x.len).length 0 := by
      rw [← hdrop, List.take_append_drop]
    have hv : Valid w (x.storage.take x.len) := by
      have hl : (x.storage.take x.len).length = x.len := by rw [List.length_take]; omega
      obtain ⟨i, d, hid⟩ := exists_concat (ds := x.storage.take x.len) (by intro h; rw [h] at hl; simp at hl; omega)
      have hdk : DigitsOk w (x.storage.take x.len) := DigitsOk.take (w := w) h1 _
      rw [hid] at hl hdk ⊢
      rw [digitsOk_append, digitsOk_cons] at hdk
      refine valid_concat_iff.mpr ⟨hdk.1, hdk.2.1, ?_⟩
      simp only [List.length_append, List.length_singleton] at hl
      rcases h4 with h4 | h4
      · left; exact List.eq_nil_of_length_eq_zero (by omega)
      · right
        have : x.storage.getD (x.len - 1) 0 = (i ++ [d]).getD (x.len - 1) 0 := by
          rw [← hid]; simp only [List.getD_eq_getElem?_getD]; rw [List.getElem?_take_of_lt (by omega)]
        rw [this] at h4
        have hx : x.len - 1 = i.length := by omega
        rw [hx] at h4
        simpa using h4
    rw [hsp, lenDigits_append_replicate, hv.len, List.length_take]; omega
  · rintro ⟨hne, hd, hl⟩
    have hle := lenDigits_le hne
    have hv := valid_take hd hne
    refine ⟨hd, hl ▸ lenDigits_pos _, hl ▸ hle, ?_, ?_⟩
    · rw [← hl] at hv
      have hlen : (x.storage.take x.len).length = x.len := by rw [List.length_take]; omega
      obtain ⟨i, d, hid⟩ := exists_concat hv.ne_nil
      rw [hid] at hv hlen
      simp only [List.length_append, List.length_singleton] at hlen
      obtain ⟨_, _, h3⟩ := valid_concat_iff.mp hv
      rcases h3 with rfl | h3
      · left; simp at hlen; omega
      · right
        have : x.storage.getD (x.len - 1) 0 = (i ++ [d]).getD (x.len - 1) 0 := by
          rw [← hid]; simp only [List.getD_eq_getElem?_getD]; rw [List.getElem?_take_of_lt (by omega)]
        rw [this, show x.len - 1 = i.length by omega]
        simpa using h3
    · rw [hl, drop_lenDigits]; intro d hd; exact List.eq_of_mem_replicate hd

theorem mag_eq {w : Nat} {x : BInt} (h : WF w x) : mag w x = val w x.storage := by
  obtain ⟨h1, _, h3⟩ := wf_iff.mp h
  rw [mag, h3, val_take_lenDigits w h1]

theorem toInt_eq (w : Nat) (x : BInt) : toInt w x = match x.sign with | .positive => (mag w x : Int) | .negative => -(mag w x : Int) := rfl

theorem natAbs_toInt (w : Nat) (x : BInt) : (toInt w x).natAbs = mag w x := by
  rw [toInt_eq]; cases x.sign <;> simp

theorem toInt_pos {w : Nat} {x : BInt} (h : x.sign = .positive) : toInt w x = mag w x := by rw [toInt_eq, h]
theorem toInt_neg {w : Nat} {x : BInt} (h : x.sign = .negative) : toInt w x = -(mag w x : Int) := by rw [toInt_eq, h]

theorem wf_valid {w : Nat} {x : BInt} (h : WF w x) : Valid w (x.storage.take x.len) := by
  obtain ⟨h1, h2, h3⟩ := wf_iff.mp h
  rw [h3]; exact valid_take h2 h1

theorem asDigits_eq (m : Build) {w : Nat} {x : BInt} (h : WF w x) :
    (x.asDigits m : Out ε _) = .ok (x.storage.take x.len) := by
  have h1 := h.len_pos
  have h2 := h.len_le
  simp only [BInt.asDigits, Out.pure_def]
  rw [show decide (0 < x.len) = true by simp; omega, show decide (x.len ≤ x.storage.length) = true by simp; omega]
  simp [dassert_true]

theorem isZero_eq (m : Build) {w : Nat} {x : BInt} (h : WF w x) :
    (x.isZero m : Out ε _) = .ok (decide (toInt w x = 0)) := by
  simp only [BInt.isZero, asDigits_eq m h, Out.bind_ok, isZeroDigits_eq m (wf_valid h)]
  congr 1
  apply decide_eq_decide.mpr
  show mag w x = 0 ↔ _
  rw [← natAbs_toInt, Int.natAbs_eq_zero]

/-- A filled buffer makes a well-formed number. -/
theorem Filled.wf {w n v : Nat} {buf : List Nat} {len : Nat} (h : Filled w n v buf len) (hn : 1 ≤ n) (s : Sign) :
    WF w ⟨buf, len, s⟩ ∧ mag w ⟨buf, len, s⟩ = v :=
  ⟨wf_iff.mpr ⟨h.ne_nil hn, h.digits, h.len_eq⟩, h.val_take hn⟩

/-! ## Bytes -/

theorem fromBE_lt (k : Nat) (bs : List UInt8) (h : bs.length = k) : fromBE bs < 2 ^ (8 * k) := by
  rw [fromBE_eq, Nat.pow_mul, ← h]
  exact ofBE_lt bs

theorem chunksAux_spec (k : Nat) (n : Nat) (bs : List UInt8) (h : bs.length = n * k) :
    ((chunksAux k n bs).map fromBE).length = n ∧ DigitsOk (8 * k) ((chunksAux k n bs).map fromBE) ∧
      val (8 * k) ((chunksAux k n bs).map fromBE).reverse = ofBE bs := by
  induction n generalizing bs with
  | zero =>
    have : bs = [] := List.eq_nil_of_length_eq_zero (by omega)
    subst this
    exact ⟨rfl, by simp [chunksAux], rfl⟩
  | succ n ih =>
    have hk : k ≤ bs.length := by rw [h, Nat.succ_mul]; omega
    obtain ⟨i1, i2, i3⟩ := ih (bs.drop k) (by rw [List.length_drop, h, Nat.succ_mul]; omega)
    simp only [chunksAux, List.map_cons, List.length_cons, digitsOk_cons, List.reverse_cons, val_append, val_cons, val_nil,
      Nat.mul_zero, Nat.add_zero, List.length_reverse]
    refine ⟨by rw [i1], ⟨fromBE_lt k _ (by rw [List.length_take]; omega), i2⟩, ?_⟩
    rw [i3, i1, fromBE_eq]
    conv_rhs => rw [← List.take_append_drop k bs, ofBE_append]
    rw [List.length_drop, h, show (n + 1) * k - k = n * k by rw [Nat.succ_mul]; omega, show (256 : Nat) = 2 ^ 8 from rfl, ← Nat.pow_mul]
    rw [show 8 * k * n = 8 * (n * k) by ring]
    ring

theorem beBytesToLeDigits_spec {k : Nat} (hk : 1 ≤ k) (bs : List UInt8) (hne : bs ≠ []) :
    beBytesToLeDigits (8 * k) bs ≠ [] ∧ DigitsOk (8 * k) (beBytesToLeDigits (8 * k) bs) ∧
      val (8 * k) (beBytesToLeDigits (8 * k) bs) = ofBE bs := by
  have h8 : 8 * k / 8 = k := by omega
  have hmod := Nat.mod_lt bs.length hk
  have hemp : bs.isEmpty = false := by cases bs <;> simp at *
  simp only [beBytesToLeDigits, beBytesToBeDigits, h8, hemp, Bool.false_eq_true, if_false, if_pos (show 0 < k - bs.length % k by omega)]
  generalize hP : List.replicate (k - bs.length % k) 0 ++ bs = P
  have hPl : P.length = (bs.length / k + 1) * k := by
    rw [← hP, List.length_append, List.length_replicate, Nat.add_mul, Nat.one_mul]
    have := Nat.div_add_mod bs.length k
    rw [Nat.mul_comm] at this
    omega
  have hcnt : P.length / k = bs.length / k + 1 := by rw [hPl, Nat.mul_div_cancel _ hk]
  obtain ⟨i1, i2, i3⟩ := chunksAux_spec k (bs.length / k + 1) P hPl
  rw [chunksExact, hcnt]
  refine ⟨?_, by simpa using i2, ?_⟩
  · intro h
    have := congrArg List.length h
    rw [List.length_reverse, i1] at this
    simp at this
  · rw [i3, ← hP, ofBE_pad]

theorem fromBeBytes_spec {k : Nat} (hk : 1 ≤ k) (bs : List UInt8) (hne : bs ≠ []) (s : Sign) :
    ∃ x, (BInt.fromBeBytes (8 * k) bs s : Out ε _) = .ok x ∧ WF (8 * k) x ∧ mag (8 * k) x = ofBE bs ∧ x.sign = s := by
  obtain ⟨h1, h2, h3⟩ := beBytesToLeDigits_spec hk bs hne
  have hwf : WF (8 * k) ⟨beBytesToLeDigits (8 * k) bs, lenDigits (beBytesToLeDigits (8 * k) bs), s⟩ :=
    wf_iff.mpr ⟨h1, h2, rfl⟩
  refine ⟨_, ?_, hwf, ?_, rfl⟩
  · simp [BInt.fromBeBytes, lenDigitsM_eq h1]
  · rw [mag_eq hwf, h3]

theorem fromBeBytes_nil (w : Nat) (s : Sign) : (BInt.fromBeBytes w [] s : Out ε _) = .panic := rfl

theorem fromU128_spec {k : Nat} (hk : 1 ≤ k) (n : Nat) (hn : n < 2 ^ 128) (s : Sign) :
    ∃ x, (BInt.fromU128 (8 * k) n s : Out ε _) = .ok x ∧ WF (8 * k) x ∧ mag (8 * k) x = n ∧ x.sign = s := by
  have := fromBeBytes_spec (ε := ε) hk (toBEk 16 n) (by intro h; have := congrArg List.length h; simp at this) s
  rw [ofBE_toBEk, Nat.mod_eq_of_lt (by norm_num at *; omega)] at this
  exact this

theorem denotes_mk {w : Nat} {x : BInt} (h : WF w x) : Denotes w x (toInt w x) := ⟨h, rfl⟩

theorem fromI128_spec {k : Nat} (hk : 1 ≤ k) (i : Int) (h1 : -2 ^ 127 ≤ i) (h2 : i < 2 ^ 127) :
    ∃ x, (BInt.fromI128 (8 * k) i : Out ε _) = .ok x ∧ Denotes (8 * k) x i := by
  unfold BInt.fromI128
  by_cases h0 : 0 ≤ i
  · rw [if_pos h0]
    obtain ⟨x, e, wf, mg, sg⟩ := fromU128_spec (ε := ε) hk i.toNat (by norm_num at *; omega) .positive
    refine ⟨x, e, wf, ?_⟩
    rw [toInt_pos sg, mg]; omega
  · rw [if_neg h0]
    simp only
    obtain ⟨x, e, wf, mg, sg⟩ := fromU128_spec (ε := ε) hk (if i = -2 ^ 127 then (i + 2 ^ 128).toNat else (-i).toNat)
      (by norm_num at *; split <;> omega) .negative
    refine ⟨x, e, wf, ?_⟩
    rw [toInt_neg sg, mg]
    norm_num at *
    split <;> omega

theorem zero_spec {k : Nat} (hk : 1 ≤ k) : ∃ x, (BInt.zero (8 * k) : Out ε _) = .ok x ∧ Denotes (8 * k) x 0 ∧ x.sign = .positive := by
  obtain ⟨x, e, wf, mg, sg⟩ := fromU128_spec (ε := ε) hk 0 (by decide) .positive
  exact ⟨x, e, ⟨wf, by rw [toInt_pos sg, mg]; rfl⟩, sg⟩

/-! ## Arithmetic -/

theorem add_spec (m : Build) {k : Nat} (hk : 1 ≤ k) {x y : BInt} (hx : WF (8 * k) x) (hy : WF (8 * k) y) :
    ∃ z, (BInt.add m (8 * k) x y : Out ε _) = .ok z ∧ Denotes (8 * k) z (toInt (8 * k) x + toInt (8 * k) y) := by
  have va := wf_valid hx
  have vb := wf_valid hy
  simp only [BInt.add, asDigits_eq m hx, asDigits_eq m hy, Out.bind_ok]
  rw [toInt_eq _ x, toInt_eq _ y]
  simp only [mag]
  generalize x.storage.take x.len = a at *
  generalize y.storage.take y.len = b at *
  have hal := va.length_pos
  have hbl := vb.length_pos
  by_cases hs : x.sign = y.sign
  · rw [if_pos hs]
    obtain ⟨buf, len, e, hf⟩ := addDigits_spec (ε := ε) m va vb (n := max a.length b.length + 1) (Nat.le_refl _)
    obtain ⟨hw, hm⟩ := hf.wf (by omega) x.sign
    rw [e]
    refine ⟨_, rfl, hw, ?_⟩
    rw [toInt_eq, hm]
    rw [← hs]
    cases x.sign <;> simp only <;> omega
  · rw [if_neg hs, cmpDigits_eq m va vb, Out.bind_ok]
    rcases Nat.lt_trichotomy (val (8 * k) a) (val (8 * k) b) with h | h | h
    · rw [Nat.compare_eq_lt.mpr h]
      obtain ⟨buf, len, e, hf⟩ := subDigits_spec (ε := ε) m vb va (n := max b.length a.length) (Nat.le_refl _) (by omega)
      obtain ⟨hw, hm⟩ := hf.wf (by omega) y.sign
      simp only [e, Out.bind_ok]
      refine ⟨_, rfl, hw, ?_⟩
      rw [toInt_eq, hm]
      revert hs
      cases x.sign <;> cases y.sign <;> simp <;> omega
    · rw [Nat.compare_eq_eq.mpr h]
      obtain ⟨z, e, hz, _⟩ := zero_spec (ε := ε) hk
      refine ⟨z, e, ?_⟩
      rw [h]
      revert hs
      cases x.sign <;> cases y.sign <;> simp <;> exact hz
    · rw [Nat.compare_eq_gt.mpr h]
      obtain ⟨buf, len, e, hf⟩ := subDigits_spec (ε := ε) m va vb (n := max a.length b.length) (Nat.le_refl _) (by omega)
      obtain ⟨hw, hm⟩ := hf.wf (by omega) x.sign
      simp only [e, Out.bind_ok]
      refine ⟨_, rfl, hw, ?_⟩
      rw [toInt_eq, hm]
      revert hs
      cases x.sign <;> cases y.sign <;> simp <;> omega

theorem sub_spec (m : Build) {k : Nat} (hk : 1 ≤ k) {x y : BInt} (hx : WF (8 * k) x) (hy : WF (8 * k) y) :
    ∃ z, (BInt.sub m (8 * k) x y : Out ε _) = .ok z ∧ Denotes (8 * k) z (toInt (8 * k) x - toInt (8 * k) y) := by
  have va := wf_valid hx
  have vb := wf_valid hy
  simp only [BInt.sub, asDigits_eq m hx, asDigits_eq m hy, Out.bind_ok]
  rw [toInt_eq _ x, toInt_eq _ y]
  simp only [mag]
  generalize x.storage.take x.len = a at *
  generalize y.storage.take y.len = b at *
  have hal := va.length_pos
  have hbl := vb.length_pos
  by_cases hs : x.sign = y.sign
  · rw [if_neg (by simpa using hs), cmpDigits_eq m va vb, Out.bind_ok]
    rw [← hs]
    rcases Nat.lt_trichotomy (val (8 * k) a) (val (8 * k) b) with h | h | h
    · rw [Nat.compare_eq_lt.mpr h]
      obtain ⟨buf, len, e, hf⟩ := subDigits_spec (ε := ε) m vb va (n := max b.length a.length) (Nat.le_refl _) (by omega)
      obtain ⟨hw, hm⟩ := hf.wf (by omega) x.sign.neg
      simp only [e, Out.bind_ok]
      refine ⟨_, rfl, hw, ?_⟩
      rw [toInt_eq, hm]
      cases x.sign <;> simp [Sign.neg] <;> omega
    · rw [Nat.compare_eq_eq.mpr h]
      obtain ⟨z, e, hz, _⟩ := zero_spec (ε := ε) hk
      refine ⟨z, e, ?_⟩
      rw [h]
      cases x.sign <;> simp <;> exact hz
    · rw [Nat.compare_eq_gt.mpr h]
      obtain ⟨buf, len, e, hf⟩ := subDigits_spec (ε := ε) m va vb (n := max a.length b.length) (Nat.le_refl _) (by omega)
      obtain ⟨hw, hm⟩ := hf.wf (by omega) x.sign
      simp only [e, Out.bind_ok]
      refine ⟨_, rfl, hw, ?_⟩
      rw [toInt_eq, hm]
      cases x.sign <;> simp <;> omega
  · rw [if_pos hs]
    obtain ⟨buf, len, e, hf⟩ := addDigits_spec (ε := ε) m va vb (n := max a.length b.length + 1) (Nat.le_refl _)
    obtain ⟨hw, hm⟩ := hf.wf (by omega) x.sign
    rw [e]
    refine ⟨_, rfl, hw, ?_⟩
    rw [toInt_eq, hm]
    revert hs
    cases x.sign <;> cases y.sign <;> simp <;> omega

theorem mul_spec (m : Build) {w : Nat} {x y : BInt} (hx : WF w x) (hy : WF w y) :
    ∃ z, (BInt.mul m w x y : Out ε _) = .ok z ∧ Denotes w z (toInt w x * toInt w y) := by
  have va := wf_valid hx
  have vb := wf_valid hy
  simp only [BInt.mul, asDigits_eq m hx, asDigits_eq m hy, Out.bind_ok]
  rw [toInt_eq _ x, toInt_eq _ y]
  simp only [mag]
  generalize x.storage.take x.len = a at *
  generalize y.storage.take y.len = b at *
  have hal := va.length_pos
  obtain ⟨buf, len, e, hf⟩ := mulDigits_spec (ε := ε) m va vb (n := a.length + b.length) (Nat.le_refl _)
  obtain ⟨hw, hm⟩ := hf.wf (by omega) (if x.sign = y.sign then .positive else .negative)
  rw [e]
  refine ⟨_, rfl, hw, ?_⟩
  rw [toInt_eq, hm]
  cases x.sign <;> cases y.sign <;> simp

theorem neg_spec {w : Nat} {x : BInt} (hx : WF w x) : Denotes w x.neg (-toInt w x) := by
  refine ⟨⟨hx.digits, hx.len_pos, hx.len_le, hx.top, hx.slack⟩, ?_⟩
  rw [toInt_eq, toInt_eq]
  show (match x.sign.neg with | .positive => (mag w x : Int) | .negative => -(mag w x : Int)) = _
  cases x.sign <;> simp [Sign.neg]

theorem shr_spec (m : Build) {w : Nat} (hw : 1 ≤ w) {x : BInt} (hx : WF w x) (n : Nat) :
    ∃ z, (BInt.shr m w x n : Out ε _) = .ok z ∧ Denotes w z ((toInt w x).tdiv (2 ^ n)) := by
  have va := wf_valid hx
  obtain ⟨buf, len, e, hf⟩ := shiftRightDigits_spec (ε := ε) m hw va n
  have hle := hx.len_le
  have hal := va.length_pos
  simp only [BInt.shr, show decide (x.len ≤ x.storage.length) = true by simp; omega, rassert_true, Out.bind_ok, e]
  have hdrop : x.storage.drop x.len = List.replicate (x.storage.drop x.len).length 0 := List.eq_replicate_of_mem hx.slack
  have hwf : WF w ⟨buf ++ x.storage.drop x.len, len, x.sign⟩ := by
    refine wf_iff.mpr ⟨?_, ?_, ?_⟩
    · have := hf.ne_nil hal; simp [this]
    · rw [digitsOk_append]; exact ⟨hf.digits, DigitsOk.drop (w := w) hx.digits _⟩
    · simp only; rw [hdrop, lenDigits_append_replicate, hf.len_eq]
  refine ⟨_, rfl, hwf, ?_⟩
  have hm : mag w ⟨buf ++ x.storage.drop x.len, len, x.sign⟩ = mag w x / 2 ^ n := by
    rw [mag_eq hwf]
    simp only
    rw [hdrop, val_pad, hf.value]; rfl
  rw [toInt_eq, toInt_eq, hm]
  have key : ((mag w x / 2 ^ n : Nat) : Int) = (mag w x : Int).tdiv (2 ^ n) := by
    rw [Int.tdiv_eq_ediv_of_nonneg (by omega)]; push_cast; rfl
  cases x.sign <;> simp only [key, Int.neg_tdiv]

theorem shl_spec {w : Nat} (hw : 1 ≤ w) {x : BInt} (hx : WF w x) (n : Nat) (hz : toInt w x ≠ 0 ∨ n % w ≠ 0 ∨ n = 0) :
    ∃ z, (BInt.shl w x n : Out ε _) = .ok z ∧ Denotes w z (toInt w x * 2 ^ n) := by
  obtain ⟨h1, h2, h3⟩ := wf_iff.mp hx
  obtain ⟨st, len, e, g1, g2, g3, g4⟩ := shiftLeftDigits_spec (ε := ε) hw h1 h2 n
  simp only [BInt.shl, h3, e, Out.bind_ok, Out.pure_def]
  have hlen : len = lenDigits st := by
    by_cases hc : val w x.storage = 0 ∧ n % w = 0
    · have h0 : toInt w x = 0 := by
        rw [← Int.natAbs_eq_zero, natAbs_toInt, mag_eq hx]; exact hc.1
      have hn : n = 0 := by
        rcases hz with hz | hz | hz
        · exact absurd h0 hz
        · exact absurd hc.2 hz
        · exact hz
      rw [if_pos hc, hn] at g4
      rw [hn, Nat.pow_zero, Nat.mul_one] at g3
      have := eq_replicate_of_val_eq_zero st (by rw [g3]; exact hc.1)
      rw [this, ← List.nil_append (List.replicate _ _), lenDigits_append_replicate]
      rw [g4]; simp [lenDigits]
    · rw [if_neg hc] at g4; exact g4
  have hwf : WF w ⟨st, len, x.sign⟩ := wf_iff.mpr ⟨g1, g2, hlen⟩
  refine ⟨_, rfl, hwf, ?_⟩
  have hm : mag w ⟨st, len, x.sign⟩ = mag w x * 2 ^ n := by rw [mag_eq hwf, mag_eq hx]; exact g3
  rw [toInt_eq, toInt_eq, hm]
  push_cast
  cases x.sign <;> simp

/-- The value is right even where the result is not canonical. -/
theorem shl_value {w : Nat} (hw : 1 ≤ w) {x : BInt} (hx : WF w x) (n : Nat) :
    ∃ z, (BInt.shl w x n : Out ε _) = .ok z ∧ toInt w z = toInt w x * 2 ^ n := by
  by_cases hz : toInt w x ≠ 0 ∨ n % w ≠ 0 ∨ n = 0
  · obtain ⟨z, e, d⟩ := shl_spec (ε := ε) hw hx n hz
    exact ⟨z, e, d.2⟩
  · have h0 : toInt w x = 0 := by
      apply Classical.byContradiction; intro h; exact hz (Or.inl h)
    obtain ⟨h1, h2, h3⟩ := wf_iff.mp hx
    obtain ⟨st, len, e, g1, g2, g3, g4⟩ := shiftLeftDigits_spec (ε := ε) hw h1 h2 n
    have hv : val w x.storage = 0 := by rw [← mag_eq hx, ← natAbs_toInt, h0]; rfl
    rw [hv, Nat.zero_mul] at g3
    refine ⟨⟨st, len, x.sign⟩, by simp only [BInt.shl, h3, e, Out.bind_ok, Out.pure_def], ?_⟩
    have hm : mag w ⟨st, len, x.sign⟩ = 0 := by
      simp only [mag]
      have := eq_replicate_of_val_eq_zero st g3
      rw [this, List.take_replicate, val_replicate_zero]
    rw [h0, Int.zero_mul, ← Int.natAbs_eq_zero, natAbs_toInt, hm]

/-- Zero shifted by a positive multiple of the digit size is not canonical. -/
theorem shl_zero_len {w : Nat} (hw : 1 ≤ w) {x : BInt} (hx : WF w x) (h0 : toInt w x = 0) (j : Nat) :
    ∃ z, (BInt.shl w x (w * j) : Out ε _) = .ok z ∧ z.len = 1 + j ∧ ∀ d ∈ z.storage, d = 0 := by
  obtain ⟨h1, h2, h3⟩ := wf_iff.mp hx
  obtain ⟨st, len, e, g1, g2, g3, g4⟩ := shiftLeftDigits_spec (ε := ε) hw h1 h2 (w * j)
  have hv : val w x.storage = 0 := by rw [← mag_eq hx, ← natAbs_toInt, h0]; rfl
  rw [hv, Nat.zero_mul] at g3
  refine ⟨⟨st, len, x.sign⟩, by simp only [BInt.shl, h3, e, Out.bind_ok, Out.pure_def], ?_, ?_⟩
  · simp only
    rw [g4, if_pos ⟨hv, Nat.mul_mod_right w j⟩, Nat.mul_div_cancel_left _ hw]
  · intro d hd
    simp only at hd
    rw [eq_replicate_of_val_eq_zero st g3] at hd
    exact List.eq_of_mem_replicate hd

/-! ## Comparison -/

theorem bothZero_eq (m : Build) {w : Nat} {x y : BInt} (hx : WF w x) (hy : WF w y) :
    (BInt.bothZero m x y : Out ε _) = .ok (decide (toInt w x = 0 ∧ toInt w y = 0)) := by
  simp only [BInt.bothZero, isZero_eq m hx, Out.bind_ok]
  by_cases h : toInt w x = 0
  · simp [h, isZero_eq m hy]
  · simp [h]

theorem cmp_spec (m : Build) {w : Nat} {x y : BInt} (hx : WF w x) (hy : WF w y) :
    (BInt.cmp m x y : Out ε _) = .ok (compare (toInt w x) (toInt w y)) := by
  have va := wf_valid hx
  have vb := wf_valid hy
  have hcmp : ∀ p q : Nat, compare (p : Int) q = compare p q := by
    intro p q
    rcases Nat.lt_trichotomy p q with h | h | h
    · rw [Nat.compare_eq_lt.mpr h, show compare (p : Int) q = .lt from Int.compare_eq_lt.mpr (by omega)]
    · rw [Nat.compare_eq_eq.mpr h, h, show compare (q : Int) q = .eq from Int.compare_eq_eq.mpr rfl]
    · rw [Nat.compare_eq_gt.mpr h, show compare (p : Int) q = .gt from Int.compare_eq_gt.mpr (by omega)]
  have hcmpn : ∀ p q : Nat, compare (-p : Int) (-q) = compare q p := by
    intro p q
    rcases Nat.lt_trichotomy q p with h | h | h
    · rw [Nat.compare_eq_lt.mpr h, show compare (-p : Int) (-q) = .lt from Int.compare_eq_lt.mpr (by omega)]
    · rw [Nat.compare_eq_eq.mpr h, h, show compare (-p : Int) (-p) = .eq from Int.compare_eq_eq.mpr rfl]
    · rw [Nat.compare_eq_gt.mpr h, show compare (-p : Int) (-q) = .gt from Int.compare_eq_gt.mpr (by omega)]
  simp only [BInt.cmp, bothZero_eq m hx hy, Out.bind_ok]
  by_cases h0 : toInt w x = 0 ∧ toInt w y = 0
  · simp [h0]
  · rw [decide_eq_false h0]
    simp only [Bool.false_eq_true, if_false]
    rw [toInt_eq, toInt_eq] at h0 ⊢
    revert h0
    cases x.sign <;> cases y.sign <;> intro h0 <;>
      simp only [asDigits_eq m hx, asDigits_eq m hy, Out.bind_ok, cmpDigits_eq m va vb, cmpDigits_eq m vb va, hcmp, hcmpn, Out.pure_def]
    · rfl
    · congr 1; symm; apply Int.compare_eq_gt.mpr; simp only at h0; omega
    · congr 1; symm; apply Int.compare_eq_lt.mpr; simp only at h0; omega
    · rfl

theorem beq_spec (m : Build) {w : Nat} {x y : BInt} (hx : WF w x) (hy : WF w y) :
    (BInt.beq m x y : Out ε _) = .ok (decide (toInt w x = toInt w y)) := by
  have va := wf_valid hx
  have vb := wf_valid hy
  simp only [BInt.beq, bothZero_eq m hx hy, Out.bind_ok]
  by_cases h0 : toInt w x = 0 ∧ toInt w y = 0
  · simp [h0]
  · rw [decide_eq_false h0]
    simp only [Bool.false_eq_true, if_false]
    have heq : (x.storage.take x.len == y.storage.take y.len) = decide (mag w x = mag w y) := by
      rw [Bool.eq_iff_iff, beq_iff_eq, decide_eq_true_iff]
      exact ⟨fun h => by rw [mag, mag, h], fun h => va.ext vb h⟩
    by_cases hs : x.sign = y.sign
    · simp only [if_pos hs, asDigits_eq m hx, asDigits_eq m hy, Out.bind_ok, eqDigits, va.valid, vb.valid, dassert_true, Out.pure_def, heq]
      congr 1
      apply decide_eq_decide.mpr
      rw [toInt_eq, toInt_eq, ← hs]
      cases x.sign <;> simp
    · simp only [if_neg hs, Out.pure_def]
      congr 1
      symm
      rw [decide_eq_false_iff_not]
      rw [toInt_eq, toInt_eq] at h0 ⊢
      revert h0 hs
      cases x.sign <;> cases y.sign <;> simp <;> omega

end LCT.BigInt
