import Verif.Lemmas.BigInt.Ops
import Verif.Spec.Numerals

namespace LCT.BigInt
open LCT.Spec
variable {ε : Type}

theorem digitBits_eq (n : Nat) : digitBits n = bitLength n := rfl

theorem bitLen_eq (m : Build) {w : Nat} {x : BInt} (hx : WF w x) :
    (x.bitLen m w : Out ε _) = .ok (bitLength (toInt w x).natAbs) := by
  simp only [BInt.bitLen, asDigits_eq m hx, Out.bind_ok, bitLenDigits_eq m (wf_valid hx), natAbs_toInt]; rfl

/-! ## Bit sequence -/

theorem digitLeBits_eq (n d : Nat) : BInt.digitLeBits n d = (List.range n).map d.testBit := by
  induction n generalizing d with
  | zero => rfl
  | succ n ih =>
    rw [BInt.digitLeBits, ih, List.range_succ_eq_map, List.map_cons, List.map_map]
    congr 1
    · rw [Nat.testBit_zero, Nat.and_one_is_mod]; rfl
    · apply List.map_congr_left
      intro i _
      simp [Nat.testBit_shiftRight, Nat.add_comm 1 i]

theorem map_testBit_add {A lo : Nat} (hi B : Nat) (hlo : lo < 2 ^ A) :
    (List.range (A + B)).map (lo + 2 ^ A * hi).testBit = (List.range A).map lo.testBit ++ (List.range B).map hi.testBit := by
  rw [List.range_add, List.map_append, List.map_map]
  congr 1
  · apply List.map_congr_left
    intro i hi'
    rw [Nat.add_comm, Nat.testBit_two_pow_mul_add _ hlo, if_pos (List.mem_range.mp hi')]
  · apply List.map_congr_left
    intro i hi'
    simp only [Function.comp_apply]
    rw [Nat.add_comm lo, Nat.testBit_two_pow_mul_add _ hlo, if_neg (by omega), Nat.add_sub_cancel_left]

theorem flatMap_bits {w : Nat} (ds : List Nat) (h : DigitsOk w ds) :
    ds.flatMap (BInt.digitLeBits w) = (List.range (w * ds.length)).map (val w ds).testBit := by
  induction ds with
  | nil => simp
  | cons d ds ih =>
    rw [digitsOk_cons] at h
    rw [List.flatMap_cons, ih h.2, digitLeBits_eq, val_cons, List.length_cons, Nat.mul_succ, Nat.add_comm (w * ds.length),
      map_testBit_add _ _ h.1]

theorem leBits_eq (m : Build) {w : Nat} {x : BInt} (hx : WF w x) :
    (x.leBits m w : Out ε _) = .ok ((List.range (bitLength (toInt w x).natAbs)).map (toInt w x).natAbs.testBit) := by
  simp only [BInt.leBits, isZero_eq m hx, Out.bind_ok, asDigits_eq m hx, bitLen_eq m hx]
  by_cases h0 : toInt w x = 0
  · simp [h0, bitLength]
  · simp only [h0, decide_false, Bool.false_eq_true, if_false]
    have hv := wf_valid hx
    have hm : (toInt w x).natAbs = val w (x.storage.take x.len) := natAbs_toInt w x
    have hnz : val w (x.storage.take x.len) ≠ 0 := by rw [← hm]; omega
    rw [hm]
    obtain ⟨i, d, hid⟩ := exists_concat hv.ne_nil
    rw [hid] at hv hnz ⊢
    obtain ⟨h1, h2, h3⟩ := valid_concat_iff.mp hv
    have hd : d ≠ 0 := by
      rintro rfl
      rcases h3 with rfl | h3
      · simp at hnz
      · exact h3 rfl
    have hle : digitBits d ≤ w := (digitBits_le_iff d w).mpr h2
    have hbl : w - leadingZeros w d = digitBits d := by rw [leadingZeros]; omega
    have hbits : (i ++ [d]).dropLast.flatMap (BInt.digitLeBits w) ++ BInt.digitLeBits (w - leadingZeros w d) d =
        (List.range (bitLength (val w (i ++ [d])))).map (val w (i ++ [d])).testBit := by
      rw [List.dropLast_concat, flatMap_bits i h1, hbl, digitLeBits_eq]
      have : bitLength (val w (i ++ [d])) = w * i.length + digitBits d := digitBits_append w i d h1 hd
      rw [this, val_append]
      simp only [val_cons, val_nil, Nat.mul_zero, Nat.add_zero]
      rw [map_testBit_add _ _ (val_lt h1)]
    simp only [List.getLast?_concat, hbits, List.length_map, List.length_range, beq_self_eq_true, dassert_true, Out.bind_ok, Out.pure_def]

/-! ## Parity and trailing zeros -/

theorem isEven_eq {w : Nat} (hw : 1 ≤ w) {x : BInt} (hx : WF w x) :
    (x.isEven : Out ε _) = .ok (decide (2 ∣ toInt w x)) := by
  obtain ⟨h1, h2, h3⟩ := wf_iff.mp hx
  obtain ⟨d, ds, hst⟩ := List.exists_cons_of_ne_nil h1
  simp only [BInt.isEven, hst, List.head?_cons, unwrap_some, Out.bind_ok, Out.pure_def]
  congr 1
  rw [Nat.and_one_is_mod, Bool.eq_iff_iff, beq_iff_eq, decide_eq_true_iff, ← Int.dvd_natAbs, natAbs_toInt, mag_eq hx, hst, val_cons]
  obtain ⟨w', rfl⟩ : ∃ w', w = w' + 1 := ⟨w - 1, by omega⟩
  rw [Nat.pow_succ, Nat.mul_comm (2 ^ w'), Nat.mul_assoc]
  generalize 2 ^ w' * val (w' + 1) ds = q
  omega

theorem isOdd_eq {w : Nat} (hw : 1 ≤ w) {x : BInt} (hx : WF w x) :
    (x.isOdd : Out ε _) = .ok (decide (¬ 2 ∣ toInt w x)) := by
  simp only [BInt.isOdd, isEven_eq hw hx, Out.bind_ok, Out.pure_def, decide_not]

theorem digitTrailingZeros_spec (n d : Nat) (h : d < 2 ^ n) (h0 : d ≠ 0) :
    BInt.digitTrailingZeros n d < n ∧ ∃ o, d = 2 ^ BInt.digitTrailingZeros n d * (2 * o + 1) := by
  induction n generalizing d with
  | zero => simp at h; omega
  | succ n ih =>
    rw [BInt.digitTrailingZeros, BInt.digitLeBits, List.takeWhile_cons, Nat.and_one_is_mod]
    by_cases hp : d % 2 = 1
    · simp only [hp]
      refine ⟨by simp, d / 2, ?_⟩
      simp; omega
    · have hp0 : d % 2 = 0 := by omega
      simp only [hp0]
      rw [show ((((0 : Nat) == 1) : Bool) == false) = true from rfl]
      simp only [if_true, List.length_cons]
      have hs : d >>> 1 = d / 2 := Nat.shiftRight_eq_div_pow d 1
      obtain ⟨i1, o, i2⟩ := ih (d >>> 1) (by rw [hs, Nat.div_lt_iff_lt_mul (by decide), ← Nat.pow_succ]; exact h) (by rw [hs]; omega)
      rw [BInt.digitTrailingZeros] at i1 i2
      refine ⟨by omega, o, ?_⟩
      rw [Nat.pow_succ, Nat.mul_assoc, Nat.mul_comm 2, ← Nat.mul_assoc]
      generalize (List.takeWhile (fun x => x == false) (BInt.digitLeBits n (d >>> 1))).length = t at *
      rw [← i2, hs]; omega

theorem trailingZeros_spec (m : Build) {w : Nat} {x : BInt} (hx : WF w x) (h0 : toInt w x ≠ 0) :
    ∃ t o, (x.trailingZeros m w : Out ε _) = .ok t ∧ (toInt w x).natAbs = 2 ^ t * (2 * o + 1) := by
  simp only [BInt.trailingZeros, isZero_eq m hx, Out.bind_ok, h0, decide_false, Bool.not_false, rassert_true, asDigits_eq m hx]
  have hv := wf_valid hx
  have hm : (toInt w x).natAbs = val w (x.storage.take x.len) := natAbs_toInt w x
  have hnz : val w (x.storage.take x.len) ≠ 0 := by rw [← hm]; omega
  have hdk := hv.digits
  rw [hm]
  have hget : ∀ i, i < (x.storage.take x.len).length → x.storage[i]? = (x.storage.take x.len)[i]? := by
    intro i hi
    rw [List.length_take] at hi
    rw [List.getElem?_take_of_lt (by omega)]
  generalize x.storage.take x.len = ds at *
  have key : ∀ ds : List Nat, DigitsOk w ds → val w ds ≠ 0 → ∃ i d t o, ds.findIdx? (· != 0) = some i ∧ ds[i]? = some d ∧
      BInt.digitTrailingZeros w d = t ∧ val w ds = 2 ^ (i * w + t) * (2 * o + 1) := by
    intro ds
    induction ds with
    | nil => simp
    | cons d ds ih =>
      intro hd hn
      rw [digitsOk_cons] at hd
      by_cases hd0 : d = 0
      · subst hd0
        have hn' : val w ds ≠ 0 := by intro h; apply hn; simp [h]
        obtain ⟨i, d, t, o, e1, e2, e3, e4⟩ := ih hd.2 hn'
        refine ⟨i + 1, d, t, o, by simp [List.findIdx?_cons, e1], by simpa using e2, e3, ?_⟩
        rw [val_cons, e4, Nat.zero_add, ← Nat.mul_assoc, ← Nat.pow_add]
        congr 2; ring
      · obtain ⟨t1, o, e⟩ := digitTrailingZeros_spec w d hd.1 hd0
        generalize ht : BInt.digitTrailingZeros w d = t at *
        refine ⟨0, d, t, o + 2 ^ (w - t - 1) * val w ds, by simp [List.findIdx?_cons, hd0], by simp, ht, ?_⟩
        rw [val_cons]
        have hww : 2 ^ w = 2 ^ t * (2 * 2 ^ (w - t - 1)) := by
          rw [Nat.mul_comm 2, ← Nat.pow_succ, ← Nat.pow_add]; congr 1; omega
        rw [hww, Nat.zero_mul, Nat.zero_add]
        conv_lhs => rw [e]
        ring
  obtain ⟨i, d, t, o, e1, e2, e3, e4⟩ := key ds hdk hnz
  have hi : i < ds.length := by
    apply Classical.byContradiction
    intro hc
    rw [List.getElem?_eq_none (by omega)] at e2; cases e2
  refine ⟨i * w + t, o, ?_, e4⟩
  simp only [e1, hget i hi, e2, unwrap_some, Out.bind_ok, e3, Out.pure_def]

/-! ## Bytes -/

theorem minBE_length (n : Nat) : (minBE n).length = (bitLength n + 7) / 8 := by
  have h1 : ∀ k, (minBE n).length ≤ k ↔ n < 256 ^ k := fun k =>
    ⟨lt_of_minBE_length_le n k, minBE_length_le n k⟩
  have h2 : ∀ k, (bitLength n + 7) / 8 ≤ k ↔ n < 256 ^ k := by
    intro k
    rw [show (256 : Nat) = 2 ^ 8 from rfl, ← Nat.pow_mul, ← digitBits_le_iff, digitBits_eq]
    omega
  have a := (h2 _).mpr ((h1 _).mp (Nat.le_refl (minBE n).length))
  have b := (h1 _).mpr ((h2 _).mp (Nat.le_refl ((bitLength n + 7) / 8)))
  omega

theorem byteLen_eq (m : Build) {w : Nat} {x : BInt} (hx : WF w x) :
    (x.byteLen m w : Out ε _) = .ok ((bitLength (toInt w x).natAbs + 7) / 8) := by
  simp only [BInt.byteLen, isZero_eq m hx, Out.bind_ok, bitLen_eq m hx, Out.pure_def]
  by_cases h0 : toInt w x = 0
  · simp [h0, bitLength]
  · simp [h0]

theorem flatMap_toBEk {k : Nat} (D : List Nat) (h : DigitsOk (8 * k) D) :
    (D.flatMap (toBEk k)).length = k * D.length ∧ ofBE (D.flatMap (toBEk k)) = val (8 * k) D.reverse := by
  induction D with
  | nil => exact ⟨by simp, rfl⟩
  | cons d D ih =>
    rw [digitsOk_cons] at h
    obtain ⟨i1, i2⟩ := ih h.2
    rw [List.flatMap_cons, List.length_append, toBEk_length, i1, ofBE_append, i1, i2, ofBE_toBEk, List.reverse_cons, val_append,
      List.length_reverse]
    refine ⟨by simp [Nat.mul_succ]; omega, ?_⟩
    have hd : d % 256 ^ k = d := Nat.mod_eq_of_lt (by rw [show (256 : Nat) = 2 ^ 8 from rfl, ← Nat.pow_mul]; exact h.1)
    rw [hd, show (256 : Nat) = 2 ^ 8 from rfl, ← Nat.pow_mul]
    simp only [val_cons, val_nil, Nat.mul_zero, Nat.add_zero]
    rw [show 8 * (k * D.length) = 8 * k * D.length by ring]; ring

theorem beDigitsToBeBytes_eq {k : Nat} {ds : List Nat} (hv : Valid (8 * k) ds) :
    beDigitsToBeBytes (8 * k) ds.reverse = minBE (val (8 * k) ds) := by
  obtain ⟨i, d, rfl⟩ := exists_concat hv.ne_nil
  obtain ⟨h1, h2, h3⟩ := valid_concat_iff.mp hv
  have h8 : 8 * k / 8 = k := by omega
  have hle : digitBits d ≤ 8 * k := (digitBits_le_iff d _).mpr h2
  have hD : DigitsOk (8 * k) (d :: i.reverse) := by rw [digitsOk_cons]; exact ⟨h2, by simpa using h1⟩
  obtain ⟨f1, f2⟩ := flatMap_toBEk _ hD
  rw [List.flatMap_cons, List.reverse_cons, List.reverse_reverse] at f2
  rw [List.flatMap_cons] at f1
  simp only [List.reverse_append, List.reverse_singleton, List.singleton_append, beDigitsToBeBytes, h8]
  generalize hF : toBEk k d ++ i.reverse.flatMap (toBEk k) = full at *
  have hlz : leadingZeros (8 * k) d / 8 ≤ k := by rw [leadingZeros]; omega
  have hres : (toBEk k d).drop (leadingZeros (8 * k) d / 8) ++ i.reverse.flatMap (toBEk k) = full.drop (leadingZeros (8 * k) d / 8) := by
    rw [← hF, List.drop_append_of_le_length (by simpa using hlz)]
  rw [hres]
  have hs1 : full.drop (leadingZeros (8 * k) d / 8) <:+ full := List.drop_suffix _ _
  have hs2 : stripLeadingZeros full <:+ full := List.dropWhile_suffix _
  rw [← f2, ← strip_eq_minBE]
  have hlen : (full.drop (leadingZeros (8 * k) d / 8)).length = (stripLeadingZeros full).length := by
    rw [strip_eq_minBE, f2, minBE_length, List.length_drop, f1, List.length_cons, List.length_reverse, leadingZeros]
    by_cases hd : d = 0
    · subst hd
      rcases h3 with rfl | h3
      · simp [bitLength, digitBits]
      · exact absurd rfl h3
    · have : bitLength (val (8 * k) (i ++ [d])) = 8 * k * i.length + digitBits d := digitBits_append _ i d h1 hd
      rw [this, Nat.mul_succ, Nat.mul_assoc]
      generalize k * i.length = q
      omega
  rw [List.suffix_iff_eq_drop] at hs1 hs2
  rw [hs1, hs2, hlen]

theorem toBeBytes_eq (m : Build) {k : Nat} {x : BInt} (hx : WF (8 * k) x) :
    (x.toBeBytes m (8 * k) : Out ε _) = .ok (minBE (toInt (8 * k) x).natAbs) := by
  simp only [BInt.toBeBytes, asDigits_eq m hx, Out.bind_ok, Out.pure_def, beDigitsToBeBytes_eq (wf_valid hx), natAbs_toInt]; rfl

theorem toLowerHex_eq (m : Build) {k : Nat} {x : BInt} (hx : WF (8 * k) x) :
    (x.toLowerHex m (8 * k) : Out ε _) = .ok (hexText (toInt (8 * k) x)) := by
  simp only [BInt.toLowerHex, isZero_eq m hx, Out.bind_ok, toBeBytes_eq m hx]
  by_cases h0 : toInt (8 * k) x = 0
  · simp [h0, hexText]
  · simp only [h0, decide_false, Bool.false_eq_true, if_false, hexText, Codecs.bytesToLowerHex_eq]
    have hsg : (toInt (8 * k) x < 0) ↔ x.sign = .negative := by
      rw [toInt_eq] at h0 ⊢
      revert h0
      cases x.sign <;> simp <;> omega
    cases hx2 : x.sign with
    | positive => rw [if_neg (by rw [hsg, hx2]; simp)]; rfl
    | negative => rw [if_pos (by rw [hsg, hx2])]; rfl

end LCT.BigInt
