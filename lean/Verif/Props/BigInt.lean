import Verif.Lemmas.BigInt.Parse

/-!
# C01, C02, C04-C10, C12: big integer arithmetic, order, conversions

Every theorem is about an arbitrary digit size of `k ≥ 1` bytes (`k = 8` for the normal build, `k = 1` under `cfg(u8_digit)`) and both
build profiles `m`.  `Denotes w x z` (`Verif/Spec/BigInt.lean`) says that the stored number `x` is canonical and denotes the
integer `z`.  `… = .ok _` also says that no `assert!`, `debug_assert!`, overflow check or slice bound fails.
-/

namespace LCT.Props
open LCT.Spec LCT.BigInt
variable {ε : Type}

/-! ## C01 -/

/-- C01: addition. -/
theorem C01_add (m : Build) (k : Nat) (hk : 1 ≤ k) (x y : BInt) (a b : Int) (hx : Denotes (8 * k) x a) (hy : Denotes (8 * k) y b) :
    ∃ z, (BInt.add m (8 * k) x y : Out ε _) = .ok z ∧ Denotes (8 * k) z (a + b) := by
  obtain ⟨z, e, d⟩ := add_spec (ε := ε) m hk hx.1 hy.1
  exact ⟨z, e, by rw [← hx.2, ← hy.2]; exact d⟩

/-- C01: subtraction. -/
theorem C01_sub (m : Build) (k : Nat) (hk : 1 ≤ k) (x y : BInt) (a b : Int) (hx : Denotes (8 * k) x a) (hy : Denotes (8 * k) y b) :
    ∃ z, (BInt.sub m (8 * k) x y : Out ε _) = .ok z ∧ Denotes (8 * k) z (a - b) := by
  obtain ⟨z, e, d⟩ := sub_spec (ε := ε) m hk hx.1 hy.1
  exact ⟨z, e, by rw [← hx.2, ← hy.2]; exact d⟩

/-- C01: negation. -/
theorem C01_neg (k : Nat) (x : BInt) (a : Int) (hx : Denotes (8 * k) x a) : Denotes (8 * k) x.neg (-a) := by
  rw [← hx.2]; exact neg_spec hx.1

/-! ## C02 -/

/-- C02: multiplication. -/
theorem C02_mul (m : Build) (k : Nat) (x y : BInt) (a b : Int) (hx : Denotes (8 * k) x a) (hy : Denotes (8 * k) y b) :
    ∃ z, (BInt.mul m (8 * k) x y : Out ε _) = .ok z ∧ Denotes (8 * k) z (a * b) := by
  obtain ⟨z, e, d⟩ := mul_spec (ε := ε) m hx.1 hy.1
  exact ⟨z, e, by rw [← hx.2, ← hy.2]; exact d⟩

/-! ## C04 -/

/-- C04: right shift by any amount divides the absolute value by `2^n`, rounding towards zero. -/
theorem C04_shr (m : Build) (k : Nat) (hk : 1 ≤ k) (x : BInt) (a : Int) (hx : Denotes (8 * k) x a) (n : Nat) :
    ∃ z, (BInt.shr m (8 * k) x n : Out ε _) = .ok z ∧ Denotes (8 * k) z (a.sign * ((a.natAbs / 2 ^ n : Nat) : Int)) := by
  obtain ⟨z, e, d⟩ := shr_spec (ε := ε) m (by omega) hx.1 n
  refine ⟨z, e, ?_⟩
  rw [hx.2] at d
  have : a.tdiv (2 ^ n) = a.sign * ((a.natAbs / 2 ^ n : Nat) : Int) := by
    have key : ∀ t : Nat, ((t : Int)).tdiv (2 ^ n) = ((t / 2 ^ n : Nat) : Int) := by
      intro t; rw [Int.tdiv_eq_ediv_of_nonneg (by omega)]; push_cast; rfl
    rcases Int.lt_trichotomy a 0 with h | h | h
    · rw [Int.sign_eq_neg_one_of_neg h, ← key, show a = -(a.natAbs : Int) by omega, Int.neg_tdiv]; simp
    · subst h; simp
    · rw [Int.sign_eq_one_of_pos h, ← key, show a = (a.natAbs : Int) by omega]; simp
  rw [← this]; exact d

/-- C04: left shift by any amount yields the right value. -/
theorem C04_shl_value (k : Nat) (hk : 1 ≤ k) (x : BInt) (a : Int) (hx : Denotes (8 * k) x a) (n : Nat) :
    ∃ z, (BInt.shl (8 * k) x n : Out ε _) = .ok z ∧ toInt (8 * k) z = a * 2 ^ n := by
  obtain ⟨z, e, d⟩ := shl_value (ε := ε) (w := 8 * k) (by omega) hx.1 n
  exact ⟨z, e, by rw [d, hx.2]⟩

/-- C04, partial: the result of a left shift is canonical unless zero is shifted by a positive multiple of the digit size (missing:
that case, where the claim is false, see `C04_shl_zero_violated`). -/
theorem C04_shl_partial (k : Nat) (hk : 1 ≤ k) (x : BInt) (a : Int) (hx : Denotes (8 * k) x a) (n : Nat)
    (h : a ≠ 0 ∨ n % (8 * k) ≠ 0 ∨ n = 0) :
    ∃ z, (BInt.shl (8 * k) x n : Out ε _) = .ok z ∧ Denotes (8 * k) z (a * 2 ^ n) := by
  obtain ⟨z, e, d⟩ := shl_spec (ε := ε) (w := 8 * k) (by omega) hx.1 n (by rw [hx.2]; exact h)
  exact ⟨z, e, by rw [← hx.2]; exact d⟩

/-- C04 is violated for every representation of zero and every positive multiple of the digit size. -/
theorem C04_shl_zero_violated (k : Nat) (hk : 1 ≤ k) (x : BInt) (hx : Denotes (8 * k) x 0) (j : Nat) (hj : 1 ≤ j) :
    ∃ z, (BInt.shl (8 * k) x (8 * k * j) : Out ε _) = .ok z ∧ ¬ WF (8 * k) z := by
  obtain ⟨z, e, h1, h2⟩ := shl_zero_len (ε := ε) (w := 8 * k) (by omega) hx.1 hx.2 j
  refine ⟨z, e, ?_⟩
  intro hw
  rcases hw.top with h | h
  · omega
  · apply h
    have hlt : z.len - 1 < z.storage.length := by have := hw.len_le; have := hw.len_pos; omega
    rw [List.getD_eq_getElem?_getD, List.getElem?_eq_getElem hlt]
    exact h2 _ (List.getElem_mem hlt)

/-- Observable effect of the violation: `(BigInt::zero() << 64).is_zero()` is `false` in release builds and panics in debug builds. -/
theorem C04_shl_zero_effect :
    (do let z ← BInt.zero 64; let z ← z.shl 64 64; z.isZero .release : Out Unit Bool) = .ok false ∧
    (do let z ← BInt.zero 64; let z ← z.shl 64 64; z.isZero .debug : Out Unit Bool) = .panic := by decide +kernel

/-! ## C05 -/

/-- C05: the ordering is that of the integers. -/
theorem C05_cmp (m : Build) (w : Nat) (x y : BInt) (a b : Int) (hx : Denotes w x a) (hy : Denotes w y b) :
    (BInt.cmp m x y : Out ε _) = .ok (if a < b then .lt else if a = b then .eq else .gt) := by
  rw [cmp_spec m hx.1 hy.1, hx.2, hy.2]
  rfl

/-- C05: equality is equality of the integers, whatever their representation (sign of zero, spare storage). -/
theorem C05_eq (m : Build) (w : Nat) (x y : BInt) (a b : Int) (hx : Denotes w x a) (hy : Denotes w y b) :
    (BInt.beq m x y : Out ε _) = .ok (decide (a = b)) := by
  rw [beq_spec m hx.1 hy.1, hx.2, hy.2]

/-- C05: zero test. -/
theorem C05_is_zero (m : Build) (w : Nat) (x : BInt) (a : Int) (hx : Denotes w x a) :
    (x.isZero m : Out ε _) = .ok (decide (a = 0)) := by
  rw [isZero_eq m hx.1, hx.2]

/-! ## C06 -/

/-- C06: `to_be_bytes` is the shortest big-endian form of the absolute value. -/
theorem C06_to_be_bytes (m : Build) (k : Nat) (x : BInt) (a : Int) (hx : Denotes (8 * k) x a) :
    (x.toBeBytes m (8 * k) : Out ε _) = .ok (minBE a.natAbs) := by
  rw [toBeBytes_eq m hx.1, hx.2]

/-- C06: `from_be_bytes` of any non-empty byte string. -/
theorem C06_from_be_bytes (k : Nat) (hk : 1 ≤ k) (bs : List UInt8) (hne : bs ≠ []) :
    (∃ x, (BInt.fromBeBytes (8 * k) bs .positive : Out ε _) = .ok x ∧ Denotes (8 * k) x (ofBE bs)) ∧
    (∃ x, (BInt.fromBeBytes (8 * k) bs .negative : Out ε _) = .ok x ∧ Denotes (8 * k) x (-(ofBE bs : Int))) := by
  constructor
  · obtain ⟨x, e, wf, mg, sg⟩ := fromBeBytes_spec (ε := ε) hk bs hne .positive
    exact ⟨x, e, wf, by rw [toInt_pos sg, mg]⟩
  · obtain ⟨x, e, wf, mg, sg⟩ := fromBeBytes_spec (ε := ε) hk bs hne .negative
    exact ⟨x, e, wf, by rw [toInt_neg sg, mg]⟩

/-- C06: round trip for every non-zero number. -/
theorem C06_round_trip (m : Build) (k : Nat) (hk : 1 ≤ k) (x : BInt) (a : Int) (hx : Denotes (8 * k) x a) (h0 : a ≠ 0) :
    ∃ bs y, (x.toBeBytes m (8 * k) : Out ε _) = .ok bs ∧ bs.head? ≠ some 0 ∧
      (BInt.fromBeBytes (8 * k) bs .positive : Out ε _) = .ok y ∧ Denotes (8 * k) y a.natAbs := by
  have hne : minBE a.natAbs ≠ [] := by intro h; rw [minBE_eq_nil] at h; omega
  obtain ⟨y, e, d⟩ := (C06_from_be_bytes (ε := ε) k hk _ hne).1
  refine ⟨_, y, C06_to_be_bytes m k x a hx, ?_, e, ?_⟩
  · cases hb : minBE a.natAbs with
    | nil => simp
    | cons b bs => have := minBE_head_ne_zero _ b bs hb; simpa using this
  · rw [ofBE_minBE] at d; exact d

/-- C06: `from_be_bytes` panics for the empty byte string (in both builds), so the round trip fails for zero. -/
theorem C06_empty_panics (w : Nat) (s : Sign) : (BInt.fromBeBytes w [] s : Out ε _) = .panic := rfl

/-! ## C07 -/

/-- C07: `to_lower_hex` prints the canonical hex text. -/
theorem C07_print (m : Build) (k : Nat) (x : BInt) (a : Int) (hx : Denotes (8 * k) x a) :
    (x.toLowerHex m (8 * k) : Out ε _) = .ok (hexText a) := by
  rw [toLowerHex_eq m hx.1, hx.2]

/-- C07: `Display` is `0x` (48, 120) followed by the hex text. -/
theorem C07_display (m : Build) (k : Nat) (x : BInt) (a : Int) (hx : Denotes (8 * k) x a) :
    (x.display m (8 * k) : Out ε _) = .ok ([48, 120] ++ hexText a) := by
  simp [BInt.display, C07_print m k x a hx]

/-- C07: `from_hex` accepts exactly the empty text (zero) and an optional sign followed by a positive even number of hex digits, and
returns the denoted integer. -/
theorem C07_parse_iff (k : Nat) (hk : 1 ≤ k) (s : List UInt8) (z : Int) :
    (∃ x, BInt.fromHex (8 * k) s = .ok x ∧ Denotes (8 * k) x z) ↔ (s = [] ∧ z = 0) ∨ HexNumeral s z :=
  fromHex_iff hk s z

/-- C07: `from_hex` yields a canonical number or an error for every text; it never panics. -/
theorem C07_parse_total (k : Nat) (hk : 1 ≤ k) (s : List UInt8) :
    (∃ x z, BInt.fromHex (8 * k) s = .ok x ∧ Denotes (8 * k) x z) ∨ ∃ e, BInt.fromHex (8 * k) s = .err e := by
  rcases fromHex_wf hk s with ⟨x, e, w⟩ | h
  · exact Or.inl ⟨x, _, e, w, rfl⟩
  · exact Or.inr h

/-- C07: parsing what was printed. -/
theorem C07_round_trip (m : Build) (k : Nat) (hk : 1 ≤ k) (x : BInt) (a : Int) (hx : Denotes (8 * k) x a) :
    ∃ t y, (x.toLowerHex m (8 * k) : Out ε _) = .ok t ∧ BInt.fromHex (8 * k) t = .ok y ∧ Denotes (8 * k) y a := by
  obtain ⟨y, e, d⟩ := (fromHex_iff hk (hexText a) a).mpr (Or.inr (hexText_numeral a))
  exact ⟨_, y, C07_print m k x a hx, e, d⟩

/-! ## C08 -/

/-- C08, what the code does: `from_str_radix` accepts exactly the empty text (zero) and an optional sign followed by at least one digit
of value at most (not: below) the radix, and returns the integer obtained by Horner's rule. -/
theorem C08_accepts_iff (m : Build) (k : Nat) (hk : 1 ≤ k) (s : List UInt8) (radix : Nat) (h2 : 2 ≤ radix) (h36 : radix ≤ 36) (z : Int) :
    (∃ x, BInt.fromStrRadix m (8 * k) s radix = .ok x ∧ Denotes (8 * k) x z) ↔
      (s = [] ∧ z = 0) ∨ SignedNumeral radix (radix + 1) s z :=
  fromStrRadix_iff m hk s radix h2 h36 z

/-- C08, partial: every numeral of the radix is accepted with the right value (missing: texts with a digit equal to the radix are not
rejected, see `C08_violated`). -/
theorem C08_numerals_partial (m : Build) (k : Nat) (hk : 1 ≤ k) (s : List UInt8) (radix : Nat) (h2 : 2 ≤ radix) (h36 : radix ≤ 36)
    (z : Int) (h : SignedNumeral radix radix s z) :
    ∃ x, BInt.fromStrRadix m (8 * k) s radix = .ok x ∧ Denotes (8 * k) x z := by
  refine (fromStrRadix_iff m hk s radix h2 h36 z).mpr (Or.inr ?_)
  obtain ⟨pre, body, ds, sg, e, hs, ⟨d1, d2, d3⟩, hz⟩ := h
  exact ⟨pre, body, ds, sg, e, hs, ⟨d1, d2, fun d hd => Nat.lt_succ_of_lt (d3 d hd)⟩, hz⟩

/-- C08, partial: a text with a character that is no digit, or a digit above the radix, is rejected with an error. -/
theorem C08_rejects_partial (m : Build) (k : Nat) (hk : 1 ≤ k) (s : List UInt8) (radix : Nat) (h2 : 2 ≤ radix) (h36 : radix ≤ 36)
    (hne : s ≠ []) (h : ∀ z, ¬ SignedNumeral radix (radix + 1) s z) :
    BInt.fromStrRadix m (8 * k) s radix = .err .InvalidInput := by
  rcases fromStrRadix_wf m hk s radix h2 h36 with ⟨x, e, w⟩ | h'
  · rcases (fromStrRadix_iff m hk s radix h2 h36 _).mp ⟨x, e, w, rfl⟩ with ⟨h0, _⟩ | hn
    · exact absurd h0 hne
    · exact absurd hn (h _)
  · exact h'

/-- C08: no panic for any text and any radix in `2..=36`. -/
theorem C08_total (m : Build) (k : Nat) (hk : 1 ≤ k) (s : List UInt8) (radix : Nat) (h2 : 2 ≤ radix) (h36 : radix ≤ 36) :
    (BInt.fromStrRadix m (8 * k) s radix).Returns := by
  rcases fromStrRadix_wf m hk s radix h2 h36 with ⟨x, e, w⟩ | h'
  · rw [e]; exact Out.Returns.ok _
  · rw [h']; exact Out.Returns.err _

/-- C08 is violated for every radix below 36: the digit of value `radix` is accepted, and its value is `radix`.
(`from_str_radix("2", 2)` is `Ok(2)`, `from_str_radix("a", 10)` is `Ok(10)`.) -/
theorem C08_violated (m : Build) (k : Nat) (hk : 1 ≤ k) (radix : Nat) (h2 : 2 ≤ radix) (h36 : radix < 36) :
    ∃ (c : UInt8) (x : BInt), digitVal c = some radix ∧ BInt.fromStrRadix m (8 * k) [c] radix = .ok x ∧
      Denotes (8 * k) x radix ∧ ∀ z, ¬ SignedNumeral radix radix [c] z := by
  have hc : ∃ c, digitVal c = some radix ∧ c ≠ 43 ∧ c ≠ 45 := by
    have : ∀ r : Fin 36, ∃ c ∈ (List.range 256).map UInt8.ofNat, digitVal c = some r.val ∧ c ≠ 43 ∧ c ≠ 45 := by decide +kernel
    obtain ⟨c, _, h⟩ := this ⟨radix, h36⟩
    exact ⟨c, h⟩
  obtain ⟨c, hc, h43, h45⟩ := hc
  obtain ⟨x, e, d⟩ := (fromStrRadix_iff m hk [c] radix h2 (by omega) radix).mpr (Or.inr
    ⟨[], [c], [radix], 1, rfl, .none, ⟨by simp, by simp [hc], by simp⟩, by simp [horner]⟩)
  refine ⟨c, x, hc, e, d, ?_⟩
  rintro z ⟨pre, body, ds, sg, e, hs, hd, _⟩
  have hb : body = [c] := by
    cases hs
    · simpa using e.symm
    · simp at e; exact absurd e.1 h43
    · simp at e; exact absurd e.1 h45
  subst hb
  obtain ⟨d', h1, h2'⟩ := digitText_mem hd c (by simp)
  rw [hc] at h1
  cases h1
  omega

/-! ## C09 -/

/-- C09: `From` for unsigned types (all are widened to `u128`). -/
theorem C09_from_unsigned (k : Nat) (hk : 1 ≤ k) (n : Nat) (hn : n < 2 ^ 128) :
    ∃ x, (BInt.ofNat (8 * k) n : Out ε _) = .ok x ∧ Denotes (8 * k) x n := by
  obtain ⟨x, e, wf, mg, sg⟩ := fromU128_spec (ε := ε) hk n hn .positive
  exact ⟨x, e, wf, by rw [toInt_pos sg, mg]⟩

/-- C09: `From` for signed types (all are widened to `i128`), including `i128::MIN`. -/
theorem C09_from_signed (k : Nat) (hk : 1 ≤ k) (i : Int) (h1 : -2 ^ 127 ≤ i) (h2 : i < 2 ^ 127) :
    ∃ x, (BInt.ofInt (8 * k) i : Out ε _) = .ok x ∧ Denotes (8 * k) x i := fromI128_spec hk i h1 h2

/-! ## C10 -/

/-- C10: bit length. -/
theorem C10_bit_len (m : Build) (k : Nat) (x : BInt) (a : Int) (hx : Denotes (8 * k) x a) :
    ∃ n, (x.bitLen m (8 * k) : Out ε _) = .ok n ∧ (a = 0 → n = 0) ∧ (a ≠ 0 → 1 ≤ n ∧ 2 ^ (n - 1) ≤ a.natAbs ∧ a.natAbs < 2 ^ n) := by
  refine ⟨_, bitLen_eq m hx.1, ?_, ?_⟩
  · rw [hx.2]; rintro rfl; rfl
  · rw [hx.2]
    intro h0
    have h1 : digitBits a.natAbs ≠ 0 := by unfold digitBits; rw [if_neg (by omega)]; omega
    have h2 := (digitBits_le_iff a.natAbs (digitBits a.natAbs)).mp (Nat.le_refl _)
    have h3 := (not_congr (digitBits_le_iff a.natAbs (digitBits a.natAbs - 1))).mp (by omega)
    rw [← digitBits_eq]
    exact ⟨by omega, by omega, h2⟩

/-- C10: byte length is the bit length in bytes, rounded up, and the length of the minimal big-endian form. -/
theorem C10_byte_len (m : Build) (k : Nat) (x : BInt) (a : Int) (hx : Denotes (8 * k) x a) :
    (x.byteLen m (8 * k) : Out ε _) = .ok ((bitLength a.natAbs + 7) / 8) ∧ (bitLength a.natAbs + 7) / 8 = (minBE a.natAbs).length := by
  rw [byteLen_eq m hx.1, hx.2]
  exact ⟨rfl, (minBE_length _).symm⟩

/-- C10: parity. -/
theorem C10_parity (k : Nat) (hk : 1 ≤ k) (x : BInt) (a : Int) (hx : Denotes (8 * k) x a) :
    (x.isEven : Out ε _) = .ok (decide (2 ∣ a)) ∧ (x.isOdd : Out ε _) = .ok (decide (¬ 2 ∣ a)) := by
  rw [isEven_eq (w := 8 * k) (by omega) hx.1, isOdd_eq (w := 8 * k) (by omega) hx.1, hx.2]
  exact ⟨rfl, rfl⟩

/-- C10: trailing zeros of a non-zero number: the exponent of the largest power of two dividing it. -/
theorem C10_trailing_zeros (m : Build) (k : Nat) (x : BInt) (a : Int) (hx : Denotes (8 * k) x a) (h0 : a ≠ 0) :
    ∃ t, (x.trailingZeros m (8 * k) : Out ε _) = .ok t ∧ (2 : Int) ^ t ∣ a ∧ ¬ (2 : Int) ^ (t + 1) ∣ a := by
  obtain ⟨t, o, e, h⟩ := trailingZeros_spec (ε := ε) m hx.1 (by rw [hx.2]; exact h0)
  rw [hx.2] at h
  refine ⟨t, e, ?_, ?_⟩
  · rw [← Int.dvd_natAbs, h]; push_cast; exact Dvd.intro _ rfl
  · rw [← Int.dvd_natAbs, h]
    intro hd
    have hd' : 2 ^ (t + 1) ∣ 2 ^ t * (2 * o + 1) := by
      have : ((2 ^ (t + 1) : Nat) : Int) ∣ ((2 ^ t * (2 * o + 1) : Nat) : Int) := by push_cast at hd ⊢; exact hd
      exact Int.natCast_dvd_natCast.mp this
    rw [Nat.pow_succ] at hd'
    have := Nat.dvd_of_mul_dvd_mul_left (Nat.two_pow_pos t) hd'
    omega

/-- C10: trailing zeros of zero panics. -/
theorem C10_trailing_zeros_zero (m : Build) (k : Nat) (x : BInt) (hx : Denotes (8 * k) x 0) :
    (x.trailingZeros m (8 * k) : Out ε _) = .panic := by
  simp [BInt.trailingZeros, isZero_eq m hx.1, hx.2]

/-- C10: the bit sequence, least significant first, has exactly `bit_len` elements, and element `i` is bit `i` of the absolute
value. -/
theorem C10_le_bits (m : Build) (k : Nat) (x : BInt) (a : Int) (hx : Denotes (8 * k) x a) :
    (x.leBits m (8 * k) : Out ε _) = .ok ((List.range (bitLength a.natAbs)).map (fun i => decide (a.natAbs / 2 ^ i % 2 = 1))) := by
  rw [leBits_eq m hx.1, hx.2]
  congr 1
  apply List.map_congr_left
  intro i _
  rw [Nat.testBit_eq_decide_div_mod_eq]

/-! ## C12 -/

/-- The values of type `BigUint` that a program can obtain.  With `guarded = true` only: radix texts do not start with `-` (45), and
nothing is subtracted from a smaller number. -/
inductive BUReach (m : Build) (k : Nat) (guarded : Bool) : BInt → Prop where
  | ofNat (n : Nat) (x : BInt) : n < 2 ^ 128 → (BUint.ofNat (8 * k) n : Out ParseIntError _) = .ok x → BUReach m k guarded x
  | hex (s : List UInt8) (x : BInt) : BUint.fromHex (8 * k) s = .ok x → BUReach m k guarded x
  | radix (s : List UInt8) (r : Nat) (x : BInt) : 2 ≤ r → r ≤ 36 → (guarded = true → s.head? ≠ some 45) →
      BUint.fromStrRadix m (8 * k) s r = .ok x → BUReach m k guarded x
  | text (s : List UInt8) (x : BInt) : (guarded = true → s.head? ≠ some 45) → BUint.tryFromStr m (8 * k) s = .ok x →
      BUReach m k guarded x
  | add (x y z : BInt) : BUReach m k guarded x → BUReach m k guarded y →
      (BInt.add m (8 * k) x y : Out ParseIntError _) = .ok z → BUReach m k guarded z
  | sub (x y z : BInt) : BUReach m k guarded x → BUReach m k guarded y → (guarded = true → toInt (8 * k) y ≤ toInt (8 * k) x) →
      (BInt.sub m (8 * k) x y : Out ParseIntError _) = .ok z → BUReach m k guarded z
  | mul (x y z : BInt) : BUReach m k guarded x → BUReach m k guarded y →
      (BInt.mul m (8 * k) x y : Out ParseIntError _) = .ok z → BUReach m k guarded z
  | shr (x z : BInt) (n : Nat) : BUReach m k guarded x → (BInt.shr m (8 * k) x n : Out ParseIntError _) = .ok z →
      BUReach m k guarded z

theorem radix_nonneg (m : Build) {k : Nat} (hk : 1 ≤ k) {s : List UInt8} {r : Nat} (h2 : 2 ≤ r) (h36 : r ≤ 36) (hs : s.head? ≠ some 45)
    {x : BInt} (h : BInt.fromStrRadix m (8 * k) s r = .ok x) : WF (8 * k) x ∧ 0 ≤ toInt (8 * k) x := by
  rcases fromStrRadix_wf m hk s r h2 h36 with ⟨y, e, w⟩ | h'
  · rw [h] at e; cases e
    refine ⟨w, ?_⟩
    rcases (fromStrRadix_iff m hk s r h2 h36 _).mp ⟨x, h, w, rfl⟩ with ⟨_, h0⟩ | ⟨pre, body, ds, sg, e, hsg, hd, hz⟩
    · rw [h0]
    · rw [hz]
      cases hsg
      · simp
      · simp
      · subst e; simp at hs
  · rw [h] at h'; cases h'

theorem hex_nonneg {k : Nat} (hk : 1 ≤ k) {s : List UInt8} {x : BInt} (h : BUint.fromHex (8 * k) s = .ok x) :
    WF (8 * k) x ∧ 0 ≤ toInt (8 * k) x := by
  unfold BUint.fromHex at h
  rcases fromHex_wf hk s with ⟨y, e, w⟩ | ⟨e, h'⟩
  · rw [e, Out.bind_ok] at h
    split at h
    · cases h
    · rename_i hn
      cases h
      refine ⟨w, ?_⟩
      have : x.sign = .positive := by
        simp only [BInt.isSignNegative, Bool.not_eq_true, beq_eq_false_iff_ne] at hn
        cases hx : x.sign
        · rfl
        · exact absurd hx hn
      rw [toInt_pos this]; omega
  · rw [h'] at h; cases h

/-- C12, partial: no reachable `BigUint` is negative, over all histories in which radix texts carry no minus sign and no number is
subtracted from a smaller one (missing: those two cases, for which the claim is false, see `C12_violated`). -/
theorem C12_nonneg_partial (m : Build) (k : Nat) (hk : 1 ≤ k) (x : BInt) (h : BUReach m k true x) :
    WF (8 * k) x ∧ 0 ≤ toInt (8 * k) x := by
  induction h with
  | ofNat n x hn e =>
    obtain ⟨y, e', wf, mg, sg⟩ := fromU128_spec (ε := ParseIntError) hk n hn .positive
    rw [BUint.ofNat, e'] at e; cases e
    exact ⟨wf, by rw [toInt_pos sg]; omega⟩
  | hex s x e => exact hex_nonneg hk e
  | radix s r x h2 h36 hs e => exact radix_nonneg m hk h2 h36 (hs rfl) e
  | text s x hs e =>
    unfold BUint.tryFromStr at e
    split at e
    · exact hex_nonneg hk e
    · exact radix_nonneg m hk (by decide) (by decide) (hs rfl) e
  | add x y z _ _ e ihx ihy =>
    obtain ⟨z', e', d⟩ := add_spec (ε := ParseIntError) m hk ihx.1 ihy.1
    rw [e'] at e; cases e
    exact ⟨d.1, by rw [d.2]; have := ihx.2; have := ihy.2; omega⟩
  | sub x y z _ _ hg e ihx ihy =>
    obtain ⟨z', e', d⟩ := sub_spec (ε := ParseIntError) m hk ihx.1 ihy.1
    rw [e'] at e; cases e
    exact ⟨d.1, by rw [d.2]; have := hg rfl; omega⟩
  | mul x y z _ _ e ihx ihy =>
    obtain ⟨z', e', d⟩ := mul_spec (ε := ParseIntError) m ihx.1 ihy.1
    rw [e'] at e; cases e
    exact ⟨d.1, by rw [d.2]; exact Int.mul_nonneg ihx.2 ihy.2⟩
  | shr x z n _ e ihx =>
    obtain ⟨z', e', d⟩ := shr_spec (ε := ParseIntError) m (w := 8 * k) (by omega) ihx.1 n
    rw [e'] at e; cases e
    exact ⟨d.1, by rw [d.2]; exact Int.tdiv_nonneg ihx.2 (by positivity)⟩

/-- C12 is violated, by parsing and by subtraction: `BigUint::from_str_radix("-5", 10)`, the documented-as-rejected
`BigUint::try_from("-5")`, and `BigUint::from(3) - BigUint::from(5)` are negative. -/
theorem C12_violated (m : Build) :
    (∃ x, BUReach m 8 false x ∧ BUint.fromStrRadix m 64 [45, 53] 10 = .ok x ∧ toInt 64 x = -5) ∧
    (∃ x, BUReach m 8 false x ∧ BUint.tryFromStr m 64 [45, 53] = .ok x ∧ toInt 64 x = -5) ∧
    (∃ x y z, BUReach m 8 false x ∧ BUReach m 8 false y ∧ BUReach m 8 false z ∧
      (BInt.sub m 64 x y : Out ParseIntError _) = .ok z ∧ toInt 64 z = -2) := by
  have e1 : BUint.fromStrRadix m 64 [45, 53] 10 = .ok ⟨[5, 0], 1, .negative⟩ := by cases m <;> decide +kernel
  have e3 : (BUint.ofNat 64 3 : Out ParseIntError _) = .ok ⟨[3, 0, 0], 1, .positive⟩ := by decide +kernel
  have e5 : (BUint.ofNat 64 5 : Out ParseIntError _) = .ok ⟨[5, 0, 0], 1, .positive⟩ := by decide +kernel
  have es : (BInt.sub m 64 ⟨[3, 0, 0], 1, .positive⟩ ⟨[5, 0, 0], 1, .positive⟩ : Out ParseIntError _) = .ok ⟨[2], 1, .negative⟩ := by
    cases m <;> decide +kernel
  have r3 : BUReach m 8 false ⟨[3, 0, 0], 1, .positive⟩ := .ofNat 3 _ (by decide) e3
  have r5 : BUReach m 8 false ⟨[5, 0, 0], 1, .positive⟩ := .ofNat 5 _ (by decide) e5
  exact ⟨⟨_, .radix [45, 53] 10 _ (by decide) (by decide) (by simp) e1, e1, by decide⟩,
    ⟨_, .text [45, 53] _ (by simp) e1, e1, by decide⟩, _, _, _, r3, r5, .sub _ _ _ r3 r5 (by simp) es, es, by decide⟩

/-! ## Non-vacuity -/

/-- `2^64 + 5`, with spare storage, and `-7`. -/
example : Denotes 64 ⟨[5, 1, 0], 2, .positive⟩ (2 ^ 64 + 5) ∧ Denotes 64 ⟨[7, 0, 0], 1, .negative⟩ (-7) ∧
    Denotes 64 ⟨[0], 1, .negative⟩ 0 := by
  refine ⟨⟨⟨by decide, by decide, by decide, by decide, by decide⟩, by decide⟩,
    ⟨⟨by decide, by decide, by decide, by decide, by decide⟩, by decide⟩, ⟨⟨by decide, by decide, by decide, by decide, by decide⟩, by decide⟩⟩

-- the model computes: carries, borrows, products and shifts across digits
example : (BInt.add .debug 64 ⟨[2 ^ 64 - 1], 1, .positive⟩ ⟨[1], 1, .positive⟩ : Out Unit _) = .ok ⟨[0, 1], 2, .positive⟩ := by
  decide +kernel
example : (BInt.sub .debug 64 ⟨[0, 1], 2, .positive⟩ ⟨[1], 1, .positive⟩ : Out Unit _) = .ok ⟨[2 ^ 64 - 1, 0], 1, .positive⟩ := by
  decide +kernel
example : (BInt.mul .debug 64 ⟨[2 ^ 64 - 1], 1, .negative⟩ ⟨[2 ^ 64 - 1], 1, .positive⟩ : Out Unit _) =
    .ok ⟨[1, 2 ^ 64 - 2], 2, .negative⟩ := by decide +kernel
example : (BInt.shl 64 ⟨[3], 1, .positive⟩ 127 : Out Unit _) = .ok ⟨[0, 2 ^ 63, 1], 3, .positive⟩ := by decide +kernel
-- texts: `-1F` (hex) and `-101` (binary)
example : HexNumeral [45, 49, 70] (-31) :=
  ⟨[45], [49, 70], [1, 15], -1, rfl, .minus, ⟨by simp, by decide, by simp⟩, rfl, by decide⟩
example : SignedNumeral 2 2 [45, 49, 48, 49] (-5) :=
  ⟨[45], [49, 48, 49], [1, 0, 1], -1, rfl, .minus, ⟨by simp, by decide, by simp⟩, by decide⟩
example : BInt.fromStrRadix .debug 64 [50] 2 = .ok ⟨[2, 0], 1, .positive⟩ := by decide +kernel

end LCT.Props
