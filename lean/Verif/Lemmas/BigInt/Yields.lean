import Verif.Lemmas.Yields
import Verif.Lemmas.BigInt.GcdSpec
import Verif.Lemmas.BigInt.Bits
import Verif.Lemmas.BigInt.Parse
import Verif.Model.Math.Modular

/-!
# Big integer operations, restated for symbolic execution
-/

namespace LCT.BigInt
open LCT.Spec LCT.Out
variable {ε : Type} {w : Nat} [hw : DigitWidth w] {x y : BInt} {a b : Int} (m : Build)

theorem width_pos (w : Nat) [hw : DigitWidth w] : 1 ≤ w := by
  obtain ⟨k, hk, rfl⟩ := hw; omega

theorem add_y (hx : Denotes w x a) (hy : Denotes w y b) : (BInt.add m w x y : Out ε _).Yields (Denotes w · (a + b)) := by
  obtain ⟨k, hk, rfl⟩ := hw
  obtain ⟨hx, rfl⟩ := hx; obtain ⟨hy, rfl⟩ := hy
  exact add_spec m hk hx hy

theorem sub_y (hx : Denotes w x a) (hy : Denotes w y b) : (BInt.sub m w x y : Out ε _).Yields (Denotes w · (a - b)) := by
  obtain ⟨k, hk, rfl⟩ := hw
  obtain ⟨hx, rfl⟩ := hx; obtain ⟨hy, rfl⟩ := hy
  exact sub_spec m hk hx hy

omit hw in
theorem mul_y (hx : Denotes w x a) (hy : Denotes w y b) : (BInt.mul m w x y : Out ε _).Yields (Denotes w · (a * b)) := by
  obtain ⟨hx, rfl⟩ := hx; obtain ⟨hy, rfl⟩ := hy
  exact mul_spec m hx hy

omit hw in
theorem neg_d (hx : Denotes w x a) : Denotes w x.neg (-a) := by
  obtain ⟨hx, rfl⟩ := hx
  exact neg_spec hx

theorem shr_y (hx : Denotes w x a) (n : Nat) : (BInt.shr m w x n : Out ε _).Yields (Denotes w · (a.tdiv (2 ^ n))) := by
  obtain ⟨hx, rfl⟩ := hx
  exact shr_spec m (width_pos w) hx n

theorem div_y (hx : Denotes w x a) (hy : Denotes w y b) (hb : b ≠ 0) :
    (BInt.div m w x y : Out ε _).Yields (Denotes w · (a.tdiv b)) := by
  obtain ⟨hx, rfl⟩ := hx; obtain ⟨hy, rfl⟩ := hy
  obtain ⟨q, r, e, hq, hr⟩ := divRem_spec (ε := ε) m (width_pos w) hx hy hb
  exact ⟨q, by simp only [BInt.div, e]; rfl, hq⟩

theorem rem_y (hx : Denotes w x a) (hy : Denotes w y b) (hb : b ≠ 0) :
    (BInt.rem m w x y : Out ε _).Yields (Denotes w · (a.tmod b)) := by
  obtain ⟨hx, rfl⟩ := hx; obtain ⟨hy, rfl⟩ := hy
  obtain ⟨q, r, e, hq, hr⟩ := divRem_spec (ε := ε) m (width_pos w) hx hy hb
  exact ⟨r, by simp only [BInt.rem, e]; rfl, hr⟩

theorem zero_y (w : Nat) [hw : DigitWidth w] : (BInt.zero w : Out ε _).Yields (Denotes w · 0) := by
  obtain ⟨k, hk, rfl⟩ := hw
  obtain ⟨x, e, d, _⟩ := zero_spec (ε := ε) hk
  exact ⟨x, e, d⟩

theorem ofInt_y (w : Nat) [hw : DigitWidth w] (i : Int) (h1 : -2 ^ 127 ≤ i) (h2 : i < 2 ^ 127) :
    (BInt.ofInt w i : Out ε _).Yields (Denotes w · i) := by
  obtain ⟨k, hk, rfl⟩ := hw
  exact fromI128_spec hk i h1 h2

theorem one_y (w : Nat) [hw : DigitWidth w] : (BInt.one w : Out ε _).Yields (Denotes w · 1) :=
  ofInt_y w 1 (by norm_num) (by norm_num)

omit hw in
theorem cmp_y (hx : Denotes w x a) (hy : Denotes w y b) : (BInt.cmp m x y : Out ε _).Yields (· = compare a b) := by
  obtain ⟨hx, rfl⟩ := hx; obtain ⟨hy, rfl⟩ := hy
  exact ⟨_, cmp_spec m hx hy, rfl⟩

omit hw in
theorem lt_y (hx : Denotes w x a) (hy : Denotes w y b) : (BInt.lt m x y : Out ε _).Yields (· = decide (a < b)) := by
  run (cmp_y m hx hy) with _ rfl
  refine .pure ?_
  rcases lt_trichotomy a b with h | h | h
  · rw [compare_lt_iff_lt.mpr h]; simp [h]
  · subst h; simp
  · rw [compare_gt_iff_gt.mpr h]; simp [Int.le_of_lt h]

omit hw in
theorem gt_y (hx : Denotes w x a) (hy : Denotes w y b) : (BInt.gt m x y : Out ε _).Yields (· = decide (a > b)) := by
  run (cmp_y m hx hy) with _ rfl
  refine .pure ?_
  rcases lt_trichotomy a b with h | h | h
  · rw [compare_lt_iff_lt.mpr h]; simp [Int.le_of_lt h]
  · subst h; simp
  · rw [compare_gt_iff_gt.mpr h]; simp [h]

omit hw in
theorem le_y (hx : Denotes w x a) (hy : Denotes w y b) : (BInt.le m x y : Out ε _).Yields (· = decide (a ≤ b)) := by
  run (cmp_y m hx hy) with _ rfl
  refine .pure ?_
  rcases lt_trichotomy a b with h | h | h
  · rw [compare_lt_iff_lt.mpr h]; simp [Int.le_of_lt h]
  · subst h; simp
  · rw [compare_gt_iff_gt.mpr h]; simp [h]

omit hw in
theorem ge_y (hx : Denotes w x a) (hy : Denotes w y b) : (BInt.ge m x y : Out ε _).Yields (· = decide (a ≥ b)) := by
  run (cmp_y m hx hy) with _ rfl
  refine .pure ?_
  rcases lt_trichotomy a b with h | h | h
  · rw [compare_lt_iff_lt.mpr h]; simp [h]
  · subst h; simp
  · rw [compare_gt_iff_gt.mpr h]; simp [Int.le_of_lt h]

omit hw in
theorem beq_y (hx : Denotes w x a) (hy : Denotes w y b) : (BInt.beq m x y : Out ε _).Yields (· = decide (a = b)) := by
  obtain ⟨hx, rfl⟩ := hx; obtain ⟨hy, rfl⟩ := hy
  exact ⟨_, beq_spec m hx hy, rfl⟩

omit hw in
theorem isZero_y (hx : Denotes w x a) : (BInt.isZero m x : Out ε _).Yields (· = decide (a = 0)) := by
  obtain ⟨hx, rfl⟩ := hx
  exact ⟨_, isZero_eq m hx, rfl⟩

theorem isOdd_y (hx : Denotes w x a) : (BInt.isOdd x : Out ε _).Yields (· = decide (¬ 2 ∣ a)) := by
  obtain ⟨hx, rfl⟩ := hx
  exact ⟨_, isOdd_eq (width_pos w) hx, rfl⟩

theorem isEven_y (hx : Denotes w x a) : (BInt.isEven x : Out ε _).Yields (· = decide (2 ∣ a)) := by
  obtain ⟨hx, rfl⟩ := hx
  exact ⟨_, isEven_eq (width_pos w) hx, rfl⟩

omit hw in
theorem bitLen_y (hx : Denotes w x a) : (BInt.bitLen m w x : Out ε _).Yields (· = bitLength a.natAbs) := by
  obtain ⟨hx, rfl⟩ := hx
  exact ⟨_, bitLen_eq m hx, rfl⟩

omit hw in
theorem byteLen_y (hx : Denotes w x a) : (BInt.byteLen m w x : Out ε _).Yields (· = (bitLength a.natAbs + 7) / 8) := by
  obtain ⟨hx, rfl⟩ := hx
  exact ⟨_, byteLen_eq m hx, rfl⟩

theorem toBeBytes_y (hx : Denotes w x a) : (BInt.toBeBytes m w x : Out ε _).Yields (· = minBE a.natAbs) := by
  obtain ⟨k, hk, rfl⟩ := hw
  obtain ⟨hx, rfl⟩ := hx
  exact ⟨_, toBeBytes_eq m hx, rfl⟩

theorem toLowerHex_y (hx : Denotes w x a) : (BInt.toLowerHex m w x : Out ε _).Yields (· = hexText a) := by
  obtain ⟨k, hk, rfl⟩ := hw
  obtain ⟨hx, rfl⟩ := hx
  exact ⟨_, toLowerHex_eq m hx, rfl⟩

omit hw in
theorem leBits_y (hx : Denotes w x a) :
    (BInt.leBits m w x : Out ε _).Yields (· = (List.range (bitLength a.natAbs)).map a.natAbs.testBit) := by
  obtain ⟨hx, rfl⟩ := hx
  exact ⟨_, leBits_eq m hx, rfl⟩

omit hw in
theorem trailingZeros_y (hx : Denotes w x a) (h0 : a ≠ 0) :
    (BInt.trailingZeros m w x : Out ε _).Yields (fun t => ∃ o, a.natAbs = 2 ^ t * (2 * o + 1)) := by
  obtain ⟨hx, rfl⟩ := hx
  obtain ⟨t, o, e, h⟩ := trailingZeros_spec (ε := ε) m hx h0
  exact ⟨t, e, o, h⟩

theorem fromBeBytes_y (w : Nat) [hw : DigitWidth w] (bs : List UInt8) (h : bs ≠ []) :
    (BInt.fromBeBytes w bs .positive : Out ε _).Yields (Denotes w · (ofBE bs)) := by
  obtain ⟨k, hk, rfl⟩ := hw
  obtain ⟨x, e, wf, mg, sg⟩ := fromBeBytes_spec (ε := ε) hk bs h .positive
  exact ⟨x, e, wf, by rw [toInt_pos sg, mg]⟩

theorem oneShl_y (w : Nat) [hw : DigitWidth w] (n : Nat) : (Modular.oneShl w n : Out ε _).Yields (Denotes w · (2 ^ n)) := by
  run (one_y w) with o ho
  obtain ⟨ho, h1⟩ := ho
  obtain ⟨z, e, d⟩ := shl_spec (ε := ε) (width_pos w) ho n (Or.inl (by rw [h1]; decide))
  rw [h1, Int.one_mul] at d
  exact ⟨z, e, d⟩

omit hw in
/-- The storage is large enough for the number. -/
theorem natAbs_lt_storage (hx : Denotes w x a) : a.natAbs < 2 ^ BInt.storageBits w x := by
  obtain ⟨hx, rfl⟩ := hx
  have hv := wf_valid hx
  rw [natAbs_toInt]
  have h1 := val_lt hv.digits
  refine Nat.lt_of_lt_of_le h1 (Nat.pow_le_pow_right (by decide) (Nat.mul_le_mul_left _ ?_))
  simp [List.length_take]

end LCT.BigInt
