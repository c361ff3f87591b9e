import Verif.Lemmas.RandomTests
import Verif.Props.Texts
import Verif.Props.Gcd
import Verif.Props.Codecs
import Verif.Props.Rlp
import Verif.Lemmas.Hash.Sha2

/-!
# The project's random tests pass whatever they draw, with exceptions (C86)

Each theorem is about one random test of the crate: it says for which inputs the test passes.  Those that do not pass for every input have
`_partial` and `_violated` theorems.
-/

namespace LCT.Props
open LCT.Spec LCT.Out LCT.BigInt LCT.RandomTests LCT.Hash
variable {ε : Type} (m : Build) (w : Nat) [hw : DigitWidth w]

/-- C86: `byte_len_compare_as_bytes`. -/
theorem C86_byte_len (hex : List UInt8) (h : DrawnSignedHex hex) : (byteLenAsBytes m w hex : Out ε _) = .ok true := by
  apply Yields.eq_ok
  unfold byteLenAsBytes
  run (fromHex_y (numeral_of_signed h)) with a ha
  run (byteLen_y m ha) with _ rfl
  run (toBeBytes_y m ha) with _ rfl
  refine .pure ?_
  obtain ⟨k, hk, rfl⟩ := hw
  rw [beq_iff_eq]
  exact (C10_byte_len (ε := ε) m k a _ ha).2

/-- C86: `from_hex_and_to_hex_double_conversion`. -/
theorem C86_hex (hex : List UInt8) (h : DrawnSignedHex hex) : (hexDoubleConversion m w hex : Out ε _) = .ok true := by
  apply Yields.eq_ok
  unfold hexDoubleConversion
  run (fromHex_y (numeral_of_signed h)) with n1 h1
  run (toLowerHex_y m h1) with _ rfl
  run (fromHex_y (hexText_numeral _)) with n2 h2
  exact (beq_y m h1 h2).mono fun _ h => by rw [h]; exact decide_eq_true rfl

/-- C86: `from_str_radix_16_eq_from_hex`. -/
theorem C86_radix_16 (hex : List UInt8) (h : DrawnHex hex) : (radix16EqHex m w hex : Out ε _) = .ok true := by
  apply Yields.eq_ok
  unfold radix16EqHex
  run (fromHex_y (numeral_of_hex h)) with a ha
  run (fromStrRadix_y m (by decide) (by decide) (signed_of_hexNumeral (numeral_of_hex h))) with b hb
  exact (beq_y m ha hb).mono fun _ h => by rw [h]; exact decide_eq_true rfl

/-- C86: `from_str_radix_double_conversion`, whatever numerals of the number the other crate prints. -/
theorem C86_radix (hex : List UInt8) (h : DrawnSignedHex hex) (print : Nat → List UInt8)
    (hp : ∀ r, 2 ≤ r → r ≤ 36 → SignedNumeral r r (print r) (drawnSigned hex)) : (radixDoubleConversion m w hex print : Out ε _) = .ok true := by
  have go : ∀ rs : List Nat, (∀ r ∈ rs, 2 ≤ r ∧ r ≤ 36) → (radixLoop m w hex print rs : Out ε _).Yields (· = true) := by
    intro rs
    induction rs with
    | nil => intro _; exact .ok rfl
    | cons r rs ih =>
      intro hr
      have h1 := hr r List.mem_cons_self
      unfold radixLoop
      run (fromStrRadix_y m h1.1 h1.2 (hp r h1.1 h1.2)) with b hb
      run (fromHex_y (numeral_of_signed h)) with a ha
      run (beq_y m hb ha) with _ rfl
      rw [decide_eq_true rfl, Bool.not_true, if_neg Bool.false_ne_true]
      exact ih fun r h => hr r (List.mem_cons_of_mem _ h)
  refine (go _ ?_).eq_ok
  intro r hr
  obtain ⟨i, hi, rfl⟩ := List.mem_map.mp hr
  have := List.mem_range.mp hi
  omega

/-- C86: `test_devrem_with_muladd`. -/
theorem C86_div_rem (hex hex' : List UInt8) (h : DrawnSignedHex hex) (h' : DrawnSignedHex hex') : (divRemMulAdd m w hex hex' : Out ε _) = .ok true := by
  apply Yields.eq_ok
  unfold divRemMulAdd
  run (fromHex_y (numeral_of_signed h)) with a ha
  run (fromHex_y (numeral_of_signed h')) with b hb
  run (ofInt_y w 0 (by decide) (by decide)) with z hz
  run (beq_y m hb hz) with _ rfl
  by_cases h0 : drawnSigned hex' = 0
  · rw [decide_eq_true h0, if_pos rfl]
    exact .pure rfl
  · rw [decide_eq_false h0, if_neg Bool.false_ne_true]
    run (div_y m ha hb h0) with q hq
    run (rem_y m ha hb h0) with r hr
    run (mul_y m hq hb) with t ht
    run (add_y m ht hr) with t2 ht2
    refine (beq_y m ha ht2).mono fun _ h => ?_
    rw [h]
    refine decide_eq_true ?_
    have := Int.tmod_add_mul_tdiv (drawnSigned hex) (drawnSigned hex')
    linarith [Int.mul_comm (drawnSigned hex') ((drawnSigned hex).tdiv (drawnSigned hex'))]

private theorem std_digits (s : List UInt8) (ds : List Nat) (h : s.map digitVal = ds.map some) (hd : ∀ d ∈ ds, d < 16) :
    (s.mapM fun c => if 48 ≤ c ∧ c ≤ 57 then some (c.toNat - 48) else if 97 ≤ c ∧ c ≤ 102 then some (c.toNat - 87)
      else if 65 ≤ c ∧ c ≤ 70 then some (c.toNat - 55) else none : Option (List Nat)) = some ds := by
  induction s generalizing ds with
  | nil =>
    cases ds with
    | nil => rfl
    | cons _ _ => cases h
  | cons c s ih =>
    cases ds with
    | nil => cases h
    | cons d ds =>
      rw [List.map_cons, List.map_cons] at h
      obtain ⟨h1, h2⟩ := List.cons.inj h
      have hd1 := hd d List.mem_cons_self
      have : (if 48 ≤ c ∧ c ≤ 57 then some (c.toNat - 48) else if 97 ≤ c ∧ c ≤ 102 then some (c.toNat - 87)
          else if 65 ≤ c ∧ c ≤ 70 then some (c.toNat - 55) else none : Option Nat) = some d := by
        unfold digitVal at h1
        simp only [UInt8.le_iff_toNat_le]
        repeat' split at h1
        all_goals simp at h1
        all_goals (repeat' split)
        all_goals simp_all
        all_goals omega
      rw [List.mapM_cons, this, Option.bind_eq_bind, Option.bind_some, ih ds h2 fun d h => hd d (List.mem_cons_of_mem _ h)]
      rfl

/-- C86: the ten tests `test_from_*`, for the types of the standard library that have up to 128 bits. -/
theorem C86_from_int (lo hi n : Int) (ht : lo = 0 ∧ hi ≤ 2 ^ 128 ∨ -2 ^ 127 ≤ lo ∧ lo < 0 ∧ hi ≤ 2 ^ 127) (hn : lo ≤ n) (hn' : n < hi) :
    (fromInt m w lo hi n : Out ε _) = .ok true := by
  have hstd : stdParseHex lo hi (hexText n) = some n := by
    obtain ⟨pre, body, ds, sg, e, hs, ⟨hne, hd, hlt⟩, hev, hz⟩ := hexText_numeral n
    have hgo := std_digits body ds hd hlt
    have hhead : ∀ c rest, body = c :: rest → c ≠ 43 ∧ c ≠ 45 := by
      rintro c rest rfl
      cases ds with
      | nil => cases hd
      | cons d ds =>
        have := (List.cons.inj hd).1
        constructor <;> rintro rfl <;> exact absurd this (by unfold digitVal; simp)
    unfold stdParseHex
    rw [e]
    cases hs with
    | none =>
      obtain ⟨c, rest, rfl⟩ := List.exists_cons_of_ne_nil hne
      have := hhead c rest rfl
      rw [List.nil_append]
      dsimp only
      split
      · rename_i heq; exact absurd (List.cons.inj heq).1 this.1
      · rename_i heq; exact absurd (List.cons.inj heq).1 this.2
      · rw [if_neg hne, hgo]
        dsimp only
        rw [show (1 : Int) * ((ds.foldl (fun acc d => acc * 16 + d) 0 : Nat) : Int) = n from hz.symm, if_pos ⟨hn, hn'⟩]
    | plus =>
      rw [List.singleton_append]
      show (if body = [] then none else _) = _
      rw [if_neg hne, hgo]
      dsimp only
      rw [show (1 : Int) * ((ds.foldl (fun acc d => acc * 16 + d) 0 : Nat) : Int) = n from hz.symm, if_pos ⟨hn, hn'⟩]
    | minus =>
      have hlo : lo < 0 := by
        rcases ht with ⟨rfl, _⟩ | h
        · exfalso
          obtain ⟨k, rfl⟩ := Int.eq_ofNat_of_zero_le hn
          exact hexText_nat_head k ((congrArg List.head? e).trans rfl)
        · exact h.2.1
      rw [List.singleton_append]
      show (if lo < 0 then (if body = [] then none else _) else none) = _
      rw [if_pos hlo, if_neg hne, hgo]
      dsimp only
      rw [show (-1 : Int) * ((ds.foldl (fun acc d => acc * 16 + d) 0 : Nat) : Int) = n from hz.symm, if_pos ⟨hn, hn'⟩]
  apply Yields.eq_ok
  unfold fromInt
  refine Yields.bind (P := (Denotes w · n)) ?_ ?_
  · rcases ht with ⟨rfl, h⟩ | h
    · rw [if_pos (le_refl _)]
      refine (ofNat_y (by omega)).mono fun x hx => ?_
      rwa [Int.toNat_of_nonneg hn] at hx
    · rw [if_neg (by omega)]
      exact ofInt_y w n (by omega) (by omega)
  intro a ha
  run (toLowerHex_y m ha) with _ rfl
  rw [hstd]
  exact .pure (beq_self_eq_true n)

/-- C86: `test_gcd_with_multiple_implementations`: the extended gcd and the two textbook algorithms that the test contains all end, and agree. -/
theorem C86_gcd (hex hex' : List UInt8) (h : DrawnHex hex) (h' : DrawnHex hex') (fuel : Nat)
    (hf : 2 * (w + drawnValue hex + drawnValue hex') + 1 ≤ fuel) : (gcdImplementations m w fuel hex hex' : Out ε _) = .ok true := by
  apply Yields.eq_ok
  unfold gcdImplementations
  run (fromHex_y (numeral_of_hex h)) with a ha
  run (fromHex_y (numeral_of_hex h')) with b hb
  run (beq_y m ha hb) with _ rfl
  by_cases hab : drawnValue hex = drawnValue hex'
  · rw [decide_eq_true (by exact_mod_cast hab), if_pos rfl]
    exact .pure rfl
  rw [decide_eq_false (by exact_mod_cast hab), if_neg Bool.false_ne_true]
  run (lt_y m ha hb) with _ rfl
  have go : ∀ (xa xb : BInt) (a b : Nat), Denotes w xa a → Denotes w xb b → b < a → 2 * (w + a + b) + 1 ≤ fuel →
      (do let z ← BInt.isZero m xb
          if z then return true
          else do
            let (x, y, v) ← BInt.gcd m w fuel xa xb
            let r1 ← gcdEuclidExtended m w fuel xa xb
            let r2 ← gcdBinaryExtended m w fuel xa xb
            let xa ← BInt.mul m w x xa
            let yb ← BInt.mul m w y xb
            let t ← BInt.add m w xa yb
            (BInt.beq m t v).andAlso ((BInt.beq m r1.2.2 v).andAlso (BInt.beq m r2.2.2 v)) : Out ε Bool).Yields (· = true) := by
    intro xa xb a b ha hb hlt hf
    run (isZero_y m hb) with _ rfl
    by_cases h0 : b = 0
    · rw [decide_eq_true (by exact_mod_cast h0), if_pos rfl]
      exact .pure rfl
    rw [decide_eq_false (by exact_mod_cast h0), if_neg Bool.false_ne_true]
    have hgcd : (BInt.gcd m w fuel xa xb : Out ε _).Yields (fun r => ∃ x y : Int, Denotes w r.1 x ∧ Denotes w r.2.1 y ∧
        Denotes w r.2.2 (Nat.gcd a b : Nat) ∧ x * a + y * b = (Nat.gcd a b : Nat)) := by
      obtain ⟨k, hk, rfl⟩ := hw
      obtain ⟨zx, zy, zv, x, y, e, h1, h2, h3, h4⟩ := C11_gcd (ε := ε) m k hk xa xb a b ha hb (by omega) (by omega) a
        (by exact_mod_cast Nat.lt_two_pow_self) fuel (by omega)
      exact ⟨_, e, x, y, h1, h2, h3, h4⟩
    run hgcd with ⟨x, y, v⟩ ⟨cx, cy, hx, hy, hv, hbez⟩
    dsimp only at hx hy hv ⊢
    run (gcdEuclidExtended_y m ha hb hlt (by omega)) with r1 h1
    run (gcdBinaryExtended_y m ha hb (by omega) (by omega) (by omega)) with r2 h2
    run (mul_y m hx ha) with p1 hp1
    run (mul_y m hy hb) with p2 hp2
    run (add_y m hp1 hp2) with t ht
    rw [hbez] at ht
    exact (andAlso_y (beq_y m ht hv) (andAlso_y (beq_y m h1 hv) (beq_y m h2 hv))).mono fun _ h => by rw [h]; simp
  by_cases hlt : drawnValue hex < drawnValue hex'
  · rw [decide_eq_true (by exact_mod_cast hlt)]
    exact go b a _ _ hb ha hlt (by omega)
  · rw [decide_eq_false (by exact_mod_cast hlt)]
    exact go a b _ _ ha hb (by omega) (by omega)

/-- C86: `shift_right_compare_with_div`. -/
theorem C86_shift_right (hex : List UInt8) (h : DrawnSignedHex hex) (n : UInt8) : (shiftRightDiv m w hex n : Out ε _) = .ok true := by
  have hn : (n &&& 0x0f).toNat < 16 := by
    rw [UInt8.toNat_and]
    exact Nat.lt_of_le_of_lt Nat.and_le_right (by decide)
  apply Yields.eq_ok
  unfold shiftRightDiv
  run (fromHex_y (numeral_of_signed h)) with a ha
  dsimp only
  have hp : 2 ^ (n &&& 0x0f).toNat < 2 ^ 16 := Nat.pow_lt_pow_right (by decide) hn
  run (ofNat_y (n := 2 ^ (n &&& 0x0f).toNat) (Nat.lt_trans hp (by decide))) with d hd
  have hp0 : ((2 ^ (n &&& 0x0f).toNat : Nat) : Int) ≠ 0 := by exact_mod_cast (Nat.two_pow_pos _).ne'
  run (div_y m ha hd hp0) with b hb
  run (shr_y m ha _) with s hs
  refine (beq_y m hs hb).mono fun _ h => ?_
  rw [h]
  exact decide_eq_true (by push_cast; rfl)

/-- C86, partial: `shift_left_compare_with_mul` passes unless it draws zero and a shift by whole digits, not none (missing: that draw, see
`C86_shift_left_violated`; with 64-bit digits it is impossible). -/
theorem C86_shift_left_partial (hex : List UInt8) (h : DrawnSignedHex hex) (n : UInt8)
    (hz : drawnSigned hex ≠ 0 ∨ (n &&& 0x0f).toNat % w ≠ 0 ∨ (n &&& 0x0f).toNat = 0) : (shiftLeftMul m w hex n : Out ε _) = .ok true := by
  have hn : (n &&& 0x0f).toNat < 16 := by
    rw [UInt8.toNat_and]
    exact Nat.lt_of_le_of_lt Nat.and_le_right (by decide)
  apply Yields.eq_ok
  unfold shiftLeftMul
  run (fromHex_y (numeral_of_signed h)) with a ha
  dsimp only
  have hp : 2 ^ (n &&& 0x0f).toNat < 2 ^ 16 := Nat.pow_lt_pow_right (by decide) hn
  run (ofNat_y (n := 2 ^ (n &&& 0x0f).toNat) (Nat.lt_trans hp (by decide))) with d hd
  run (mul_y m ha hd) with b hb
  have hs : (BInt.shl w a (n &&& 0x0f).toNat : Out ε _).Yields (Denotes w · (drawnSigned hex * 2 ^ (n &&& 0x0f).toNat)) := by
    obtain ⟨k, hk, rfl⟩ := hw
    exact C04_shl_partial k hk a _ ha _ hz
  run hs with s hs
  refine (beq_y m hs hb).mono fun _ h => ?_
  rw [h]
  exact decide_eq_true (by push_cast; rfl)

omit hw in
/-- C86: with 64-bit digits `shift_left_compare_with_mul` passes for every draw. -/
theorem C86_shift_left_64 (hex : List UInt8) (h : DrawnSignedHex hex) (n : UInt8) : (shiftLeftMul m 64 hex n : Out ε _) = .ok true := by
  refine C86_shift_left_partial m 64 hex h n (.inr ?_)
  have hn : (n &&& 0x0f).toNat < 16 := by
    rw [UInt8.toNat_and]
    exact Nat.lt_of_le_of_lt Nat.and_le_right (by decide)
  omega

omit hw in
/-- C86 is violated with 8-bit digits (the configuration `u8_digit`, which the project tests as well): if `shift_left_compare_with_mul` draws zero
and a shift by 8 it fails, in release builds because the two numbers differ, in debug builds by a panic. -/
theorem C86_shift_left_violated : DrawnSignedHex [43, 48, 48] ∧ (shiftLeftMul .release 8 [43, 48, 48] 8 : Out ε _) = .ok false ∧
    (shiftLeftMul .debug 8 [43, 48, 48] 8 : Out ε _) = .panic := by
  refine ⟨⟨[48, 48], ⟨by decide, by decide, by decide⟩, .inl rfl⟩, ?_, ?_⟩
  · rfl
  · rfl

omit hw in
/-- C86: the three random tests of SHA-2, if the other implementation computes the functions of FIPS 180-4: they pass for every message shorter
than `2^61` bytes. -/
theorem C86_sha2 (H : Hasher) (h : List UInt8 → List UInt8)
    (hH : (H, h) ∈ [(Sha2.Sha256, Sha2.sha256), (Sha2.Sha384, Sha2.sha384), (Sha2.Sha512, Sha2.sha512)]) (bytes : List UInt8)
    (hl : bytes.length < 2 ^ 61) : (againstAnother m H h bytes : Out ε _) = .ok true := by
  have go : Computes H h (2 ^ 61) := by
    simp only [List.mem_cons, Prod.mk.injEq, List.not_mem_nil, or_false] at hH
    rcases hH with ⟨rfl, rfl⟩ | ⟨rfl, rfl⟩ | ⟨rfl, rfl⟩
    · exact Sha2.computes256
    · exact Sha2.computes384
    · exact Sha2.computes512
  obtain ⟨st, e⟩ := go.digest ε m H.fresh bytes hl
  unfold againstAnother
  rw [e]
  show Out.ok (_ == _) = _
  rw [beq_self_eq_true]

omit hw in
/-- C86: `hex_to_bytes_double_conversion`. -/
theorem C86_codecs (hex : List UInt8) (h : DrawnHex hex) : (codecsDoubleConversion hex : Out ε _) = .ok true := by
  have hr : ∃ bs, Codecs.hexToBytes hex = .ok bs := by
    rcases C17_total hex with ⟨bs, e⟩ | ⟨er, e⟩
    · exact ⟨bs, e⟩
    · exfalso
      cases er with
      | NotByteAligned => have := (C17_not_aligned_iff hex).mp e; have := h.2.1; omega
      | InvalidCharFound =>
        obtain ⟨_, c, hc, hn⟩ := (C17_invalid_char_iff hex).mp e
        exact hn (h.2.2 c hc)
  obtain ⟨bs, e⟩ := hr
  obtain ⟨_, _, h3⟩ := (C17_decode_ok_iff hex bs).mp e
  unfold codecsDoubleConversion
  rw [e]
  show Out.ok (_ == _) = _
  rw [C17_encode_spec, ← h3, show lowerChar = fun c => if 65 ≤ c ∧ c ≤ 90 then c + 32 else c from ?_, beq_self_eq_true]
  funext c
  unfold lowerChar
  simp only [UInt8.le_iff_toNat_le]
  rfl

-- Non-vacuity: texts that the tests draw.
example : DrawnHex [48, 97, 70, 102] ∧ DrawnSignedHex [45, 48, 97] := ⟨⟨by decide, by decide, by decide⟩, [48, 97], ⟨by decide, by decide, by decide⟩, .inr rfl⟩

end LCT.Props
