import Verif.Lemmas.BigInt.Parse
import Verif.Lemmas.Ethereum.Transaction
import Verif.Model.Ethereum.Types
import Verif.Spec.Texts

/-!
# Texts of numbers: C58

`UnsignedText s n` (in `Verif.Spec.Texts`) says that `s` is `0x` and an even number of hex digits of `n`, or decimal digits of `n`.
-/

namespace LCT.Props
open LCT.BigInt LCT.Spec LCT.Out LCT.Ethereum
variable {ε : Type}

private theorem fromHex_sign {k : Nat} (hk : 1 ≤ k) (s : List UInt8) (x : BInt) (h : BInt.fromHex (8 * k) s = .ok x) :
    x.sign = if s.head? = some 45 then .negative else .positive := by
  unfold BInt.fromHex at h
  cases s with
  | nil =>
    obtain ⟨x0, e0, _, sg⟩ := zero_spec (ε := ParseIntError) hk
    simp only [List.isEmpty_nil, if_true] at h
    rw [e0] at h; cases h; simp [sg]
  | cons c cs =>
    have hs : (splitSign (c :: cs)).1 = if (c :: cs).head? = some 45 then Sign.negative else .positive := by
      simp only [splitSign, List.head?_cons, Option.some.injEq]
      split
      · rfl
      · split <;> rfl
    rw [← hs]
    simp only [List.isEmpty_cons, Bool.false_eq_true, if_false] at h
    generalize splitSign (c :: cs) = sp at *
    obtain ⟨sgn, body⟩ := sp
    by_cases hb : body = []
    · subst hb; cases h
    · simp only [isEmpty_false_of_ne hb, Bool.false_eq_true, if_false] at h
      cases hh : Codecs.hexToBytes body with
      | ok bs =>
        rw [hh] at h
        obtain ⟨hbs, _⟩ := hexToBytes_digits hb hh
        obtain ⟨y, e', _, _, sg⟩ := fromBeBytes_spec (ε := ParseIntError) hk bs hbs sgn
        simp only at h
        rw [e'] at h; cases h; exact sg
      | err e => rw [hh] at h; cases h
      | panic => rw [hh] at h; cases h
      | hang => rw [hh] at h; cases h

/-- C58, hex: `Wei::from_hex` (and `BigUint::from_hex`) accept exactly the empty text, as zero, and an even, positive number of hex digits
after an optional `+`; the value is the number written. -/
theorem C58_from_hex_iff (k : Nat) (hk : 1 ≤ k) (s : List UInt8) (z : Int) :
    (∃ x, Wei.fromHex (8 * k) s = .ok x ∧ Denotes (8 * k) x z) ↔ (s = [] ∧ z = 0) ∨ (HexNumeral s z ∧ s.head? ≠ some 45) := by
  simp only [Wei.fromHex, BUint.fromHex]
  constructor
  · rintro ⟨x, e, d⟩
    obtain ⟨y, e1, e2⟩ := bind_eq_ok.mp e
    have sg := fromHex_sign hk s y e1
    split at e2
    · cases e2
    · rename_i hn
      cases e2
      rcases (fromHex_iff hk s z).mp ⟨_, e1, d⟩ with h | h
      · exact .inl h
      · refine .inr ⟨h, fun h45 => hn ?_⟩
        rw [if_pos h45] at sg
        simp [BInt.isSignNegative, sg]
  · intro h
    have h' : (s = [] ∧ z = 0) ∨ HexNumeral s z := h.imp_right And.left
    obtain ⟨x, e, d⟩ := (fromHex_iff hk s z).mpr h'
    have sg := fromHex_sign hk s x e
    have h45 : s.head? ≠ some 45 := by
      rcases h with ⟨rfl, _⟩ | h
      · simp
      · exact h.2
    rw [if_neg h45] at sg
    exact ⟨x, by simp [e, BInt.isSignNegative, sg], d⟩

/-- C58, what the code does: `Wei::try_from` (and `BigUint::try_from`) of a text. -/
theorem C58_accepts_iff (m : Build) (k : Nat) (hk : 1 ≤ k) (s : List UInt8) (z : Int) :
    (∃ x, Wei.tryFromStr m (8 * k) s = .ok x ∧ Denotes (8 * k) x z) ↔
      (∃ t, s = 48 :: 120 :: t ∧ ((t = [] ∧ z = 0) ∨ (HexNumeral t z ∧ t.head? ≠ some 45))) ∨ (s = [] ∧ z = 0) ∨
        SignedNumeral 10 11 s z := by
  by_cases hx : ∃ t, s = 48 :: 120 :: t
  · obtain ⟨t, rfl⟩ := hx
    have hno : ¬ SignedNumeral 10 11 (48 :: 120 :: t) z := by
      rintro ⟨pre, body, ds, sg, e, hs, hd, _⟩
      have hm : (120 : UInt8) ∈ body := by
        cases hs
        · simp only [List.nil_append] at e; rw [← e]; simp
        · simp at e
        · simp at e
      obtain ⟨d, h1, h2⟩ := digitText_mem hd 120 hm
      have : digitVal 120 = some 33 := by decide
      rw [this] at h1; cases h1; omega
    have := C58_from_hex_iff k hk t z
    simp only [Wei.tryFromStr, BUint.tryFromStr, Wei.fromHex] at *
    rw [this]
    simp [hno]
  · have e : Wei.tryFromStr m (8 * k) s = BInt.fromStrRadix m (8 * k) s 10 := by
      rw [Wei.tryFromStr, BUint.tryFromStr, BUint.fromStrRadix]
      intro rest h
      exact absurd ⟨rest, h⟩ hx
    rw [e, fromStrRadix_iff m hk s 10 (by decide) (by decide) z]
    have : ¬ ∃ t, s = 48 :: 120 :: t ∧ ((t = [] ∧ z = 0) ∨ (HexNumeral t z ∧ t.head? ≠ some 45)) := fun ⟨t, h, _⟩ => hx ⟨t, h⟩
    simp [this]

private theorem head_digit {b : Nat} {s : List UInt8} {ds : List Nat} (h : DigitText b s ds) : s.head? ≠ some 45 := by
  intro hh
  obtain ⟨d, h1, _⟩ := digitText_mem h 45 (List.mem_of_mem_head? hh)
  have : digitVal 45 = none := by decide
  rw [this] at h1; cases h1

/-- C58, partial: every unsigned numeral is read as the number that it writes (missing: other texts are not all rejected, see
`C58_violated`). -/
theorem C58_numerals_partial (m : Build) (k : Nat) (hk : 1 ≤ k) (s : List UInt8) (n : Nat) (h : UnsignedText s n) :
    ∃ x, Wei.tryFromStr m (8 * k) s = .ok x ∧ Denotes (8 * k) x n := by
  rw [C58_accepts_iff m k hk]
  rcases h with ⟨body, ds, rfl, h1, h2, h3⟩ | ⟨ds, h1, h2⟩
  · exact .inl ⟨body, rfl, .inr ⟨⟨[], body, ds, 1, rfl, .none, h1, h2, by simp [h3]⟩, head_digit h1⟩⟩
  · exact .inr (.inr ⟨[], s, ds, 1, rfl, .none, ⟨h1.1, h1.2.1, fun d hd => Nat.lt_succ_of_lt (h1.2.2 d hd)⟩, by simp [h2]⟩)

/-- C58: `from_decimal` reads every decimal numeral as the number that it writes. -/
theorem C58_decimal_partial (m : Build) (k : Nat) (hk : 1 ≤ k) (s : List UInt8) (ds : List Nat) (h : DigitText 10 s ds) :
    ∃ x, Wei.fromDecimal m (8 * k) s = .ok x ∧ Denotes (8 * k) x (horner 10 ds) :=
  (fromStrRadix_iff m hk s 10 (by decide) (by decide) _).mpr
    (.inr ⟨[], s, ds, 1, rfl, .none, ⟨h.1, h.2.1, fun d hd => Nat.lt_succ_of_lt (h.2.2 d hd)⟩, by simp⟩)

/-- C58: any text yields a value or an error; there is no panic. -/
theorem C58_total (m : Build) (k : Nat) (hk : 1 ≤ k) (s : List UInt8) : (Wei.tryFromStr m (8 * k) s).Returns := by
  by_cases hx : ∃ t, s = 48 :: 120 :: t
  · obtain ⟨t, rfl⟩ := hx
    simp only [Wei.tryFromStr, BUint.tryFromStr, BUint.fromHex]
    rcases fromHex_wf hk t with ⟨x, e, _⟩ | ⟨e', e⟩
    · rw [e, bind_ok]
      split
      · exact Returns.err _
      · exact Returns.ok _
    · rw [e]; exact Returns.err _
  · have e : Wei.tryFromStr m (8 * k) s = BInt.fromStrRadix m (8 * k) s 10 := by
      rw [Wei.tryFromStr, BUint.tryFromStr, BUint.fromStrRadix]
      intro rest h
      exact absurd ⟨rest, h⟩ hx
    rw [e]
    rcases fromStrRadix_wf m hk s 10 (by decide) (by decide) with ⟨x, e, _⟩ | e
    · rw [e]; exact Returns.ok _
    · rw [e]; exact Returns.err _

private theorem no_unsigned {s : List UInt8} (h0 : s.head? ≠ some 48) {c : UInt8} (hc : c ∈ s) (hd : ∀ d, digitVal c = some d → 10 ≤ d) (n : Nat) :
    ¬ UnsignedText s n := by
  rintro (⟨body, ds, rfl, _⟩ | ⟨ds, h, _⟩)
  · simp at h0
  · obtain ⟨d, h1, h2⟩ := digitText_mem h c hc
    have := hd d h1; omega

/-- C58 is violated: an amount of −5 wei can be made from the text `-5`, by `try_from` and by `from_decimal`. -/
theorem C58_violated_negative (m : Build) (k : Nat) (hk : 1 ≤ k) :
    (∃ x, Wei.tryFromStr m (8 * k) [45, 53] = .ok x ∧ Denotes (8 * k) x (-5)) ∧
      (∃ x, Wei.fromDecimal m (8 * k) [45, 53] = .ok x ∧ Denotes (8 * k) x (-5)) ∧ ∀ n, ¬ UnsignedText [45, 53] n := by
  have h : SignedNumeral 10 11 [45, 53] (-5) := ⟨[45], [53], [5], -1, rfl, .minus, ⟨by simp, by decide, by simp⟩, by simp [horner]⟩
  refine ⟨(C58_accepts_iff m k hk _ _).mpr (.inr (.inr h)),
    (fromStrRadix_iff m hk _ 10 (by decide) (by decide) _).mpr (.inr h), no_unsigned (c := 45) (by simp) (by simp) ?_⟩
  intro d hd
  have : digitVal 45 = none := by decide
  rw [this] at hd; cases hd

/-- C58, what follows from it: an amount of −n wei is encoded in a transaction as n wei is. -/
theorem C58_violated_encoding (m : Build) (k : Nat) (x y : Wei) (n : Nat) (hx : Denotes (8 * k) x (-n)) (hy : Denotes (8 * k) y n)
    (e : Rlp.EncItem) : (encBig m (8 * k) x e : Out ε _) = encBig m (8 * k) y e := by
  simp [encBig, toBeBytes_eq m hx.1, toBeBytes_eq m hy.1, hx.2, hy.2]

/-- C58 is violated: the text `a` is read as ten, the empty text and `0x` as zero, and `0x+12` as eighteen. -/
theorem C58_violated (m : Build) (k : Nat) (hk : 1 ≤ k) :
    ((∃ x, Wei.tryFromStr m (8 * k) [97] = .ok x ∧ Denotes (8 * k) x 10) ∧ ∀ n, ¬ UnsignedText [97] n) ∧
      ((∃ x, Wei.tryFromStr m (8 * k) [] = .ok x ∧ Denotes (8 * k) x 0) ∧ ∀ n, ¬ UnsignedText [] n) ∧
      ((∃ x, Wei.tryFromStr m (8 * k) [48, 120] = .ok x ∧ Denotes (8 * k) x 0) ∧ ∀ n, ¬ UnsignedText [48, 120] n) ∧
      (∃ x, Wei.tryFromStr m (8 * k) [48, 120, 43, 49, 50] = .ok x ∧ Denotes (8 * k) x 18) ∧
        ∀ n, ¬ UnsignedText [48, 120, 43, 49, 50] n := by
  have ha : digitVal 97 = some 10 := by decide
  have hx : digitVal 120 = some 33 := by decide
  have hp : digitVal 43 = none := by decide
  refine ⟨⟨(C58_accepts_iff m k hk _ _).mpr (.inr (.inr ⟨[], [97], [10], 1, rfl, .none, ⟨by simp, by decide, by simp⟩, by simp [horner]⟩)),
      no_unsigned (c := 97) (by simp) (by simp) ?_⟩,
    ⟨(C58_accepts_iff m k hk _ _).mpr (.inr (.inl ⟨rfl, rfl⟩)), ?_⟩,
    ⟨(C58_accepts_iff m k hk _ _).mpr (.inl ⟨[], rfl, .inl ⟨rfl, rfl⟩⟩), ?_⟩,
    (C58_accepts_iff m k hk _ _).mpr (.inl ⟨_, rfl, .inr ⟨⟨[43], [49, 50], [1, 2], 1, rfl, .plus, ⟨by simp, by decide, by simp⟩, rfl, by simp [horner]⟩,
      by simp⟩⟩), ?_⟩
  · intro d hd; rw [ha] at hd; cases hd; omega
  · rintro n (⟨_, _, h, _⟩ | ⟨_, h, _⟩)
    · cases h
    · exact h.1 rfl
  · rintro n (⟨body, _, h, hd, _⟩ | ⟨_, h, _⟩)
    · have : body = [] := by simpa using h.symm
      exact hd.1 this
    · obtain ⟨d, h1, h2⟩ := digitText_mem h 120 (by simp)
      rw [hx] at h1; cases h1; omega
  · rintro n (⟨body, _, h, hd, _⟩ | ⟨_, h, _⟩)
    · have : body = [43, 49, 50] := by simpa using h.symm
      subst this
      obtain ⟨d, h1, _⟩ := digitText_mem hd 43 (by simp)
      rw [hp] at h1; cases h1
    · obtain ⟨d, h1, h2⟩ := digitText_mem h 120 (by simp)
      rw [hx] at h1; cases h1; omega

/-- C58: what `Display` writes, for an amount or a chain id, is `0x` and the canonical hex text. -/
theorem C58_display (m : Build) (k : Nat) (x : BInt) (n : Nat) (hx : Denotes (8 * k) x n) :
    (Wei.display m (8 * k) x : Out ε _) = .ok (48 :: 120 :: hexText n) ∧ (x.display m (8 * k) : Out ε _) = .ok (48 :: 120 :: hexText n) := by
  simp [Wei.display, BInt.display, toLowerHex_eq m hx.1, hx.2]

theorem hexText_nat_head (n : Nat) : (hexText n).head? ≠ some 45 := by
  obtain ⟨pre, body, ds, sg, e, hs, hd, _, hz⟩ := hexText_numeral n
  intro hh
  cases hs
  · exact head_digit hd (by rw [← hh, e, List.nil_append])
  · rw [e] at hh; simp at hh
  · have hb : (hexText (n : Int)).head? ≠ some 45 := by
      unfold hexText
      split
      · simp
      · rw [if_neg (by omega)]
        cases minBE (n : Int).natAbs with
        | nil => simp [hexOf]
        | cons b bs =>
          have : ∀ v : Fin 16, hexDigit v.val ≠ 45 := by decide
          have := this ⟨b.toNat / 16, by have := b.toNat_lt; omega⟩
          simpa [hexOf] using this
    exact hb hh

/-- C58: what is printed is an unsigned numeral of the same number, and reading it back gives that number. -/
theorem C58_round_trip (m : Build) (k : Nat) (hk : 1 ≤ k) (x : Wei) (n : Nat) (hx : Denotes (8 * k) x n) :
    ∃ t y, (Wei.display m (8 * k) x : Out ε _) = .ok t ∧ UnsignedText t n ∧ Wei.tryFromStr m (8 * k) t = .ok y ∧ Denotes (8 * k) y n := by
  have hu : UnsignedText (48 :: 120 :: hexText n) n := by
    obtain ⟨pre, body, ds, sg, e, hs, hd, hev, hz⟩ := hexText_numeral n
    have hp : pre = [] ∧ sg = 1 := by
      cases hs with
      | none => exact ⟨rfl, rfl⟩
      | plus =>
        exfalso
        have h43 : (hexText (n : Int)).head? = some 43 := by rw [e]; rfl
        have : ∀ v : Fin 16, hexDigit v.val ≠ 43 := by decide
        unfold hexText at h43
        split at h43
        · simp at h43
        · rw [if_neg (by omega)] at h43
          cases hb : minBE (n : Int).natAbs with
          | nil => rw [hb] at h43; simp [hexOf] at h43
          | cons b bs =>
            rw [hb] at h43
            exact this ⟨b.toNat / 16, by have := b.toNat_lt; omega⟩ (by simpa [hexOf] using h43)
      | minus => exact absurd (by rw [e]; rfl) (hexText_nat_head n)
    obtain ⟨rfl, rfl⟩ := hp
    refine .inl ⟨body, ds, by rw [e]; rfl, hd, hev, ?_⟩
    have : (n : Int) = horner 16 ds := by simpa using hz
    exact_mod_cast this
  obtain ⟨y, e, d⟩ := C58_numerals_partial m k hk _ n hu
  exact ⟨_, y, (C58_display m k x n hx).1, hu, e, d⟩

/-- C58: an unsigned numeral writes one number only. -/
theorem C58_one_value (s : List UInt8) (n n' : Nat) (h : UnsignedText s n) (h' : UnsignedText s n') : n = n' := by
  obtain ⟨x, e, d⟩ := C58_numerals_partial .release 8 (by decide) s n h
  obtain ⟨y, e', d'⟩ := C58_numerals_partial .release 8 (by decide) s n' h'
  rw [e] at e'; cases e'
  exact_mod_cast d.2.symm.trans d'.2

/-- C58: the named chains have the registered ids, in the order of their declaration. -/
theorem C58_chains (w : Nat) [DigitWidth w] (c : Chain) :
    ∃ i : Fin 7, c = [Chain.EthereumMainnet, .ExpanseMainnet, .Ropsten, .Rinkeby, .Goerli, .Kovan, .GethPrivateChains][i] ∧
      ∃ x, (c.chainId w : Out ε _) = .ok x ∧ Denotes w x (registeredIds.getD i 0) := by
  have h : ∃ i : Fin 7, c = [Chain.EthereumMainnet, .ExpanseMainnet, .Ropsten, .Rinkeby, .Goerli, .Kovan, .GethPrivateChains][i] ∧
      c.toU64.toNat = registeredIds.getD i 0 := by
    cases c
    · exact ⟨0, by decide⟩
    · exact ⟨1, by decide⟩
    · exact ⟨2, by decide⟩
    · exact ⟨3, by decide⟩
    · exact ⟨4, by decide⟩
    · exact ⟨5, by decide⟩
    · exact ⟨6, by decide⟩
  obtain ⟨i, h1, h2⟩ := h
  refine ⟨i, h1, ?_⟩
  obtain ⟨x, e, d⟩ := ofNat_u (ε := ε) (w := w) (k := c.toU64.toNat) (Nat.lt_trans c.toU64.toNat_lt (by decide))
  exact ⟨x, e, h2 ▸ d⟩

/-- C58: a chain id made from a `u64` is that number. -/
theorem C58_chain_id (w : Nat) [DigitWidth w] (n : UInt64) : ∃ x, (ChainId.fromU64 w n : Out ε _) = .ok x ∧ Denotes w x n.toNat :=
  ofNat_u (ε := ε) (w := w) (k := n.toNat) (Nat.lt_trans n.toNat_lt (by decide))

/-- C58: a nonce is admitted exactly below 2^64 − 1, and is the number given. -/
theorem C58_nonce_iff (n : UInt64) (x : EoaNonce) : EoaNonce.fromU64 n = some x ↔ n.toNat < 2 ^ 64 - 1 ∧ x.value = n := by
  have h : n = 0xffffffffffffffff ↔ n.toNat = 2 ^ 64 - 1 := by
    rw [← UInt64.toNat_inj]; rfl
  have hl := n.toNat_lt
  unfold EoaNonce.fromU64
  split
  · rename_i hn
    have := h.mp hn
    constructor
    · intro h; cases h
    · rintro ⟨h1, _⟩; omega
  · rename_i hn
    have : n.toNat ≠ 2 ^ 64 - 1 := fun e => hn (h.mpr e)
    constructor
    · intro e; cases e; exact ⟨by omega, rfl⟩
    · rintro ⟨_, rfl⟩; rfl

private theorem lowerHex_digits (n : Nat) : ∃ ds, DigitText 16 (lowerHexU64 n) ds ∧ horner 16 ds = n ∧ (n ≠ 0 → ds.head? ≠ some 0) ∧
    (n = 0 → lowerHexU64 n = [48]) ∧ ∀ c ∈ lowerHexU64 n, c.toNat < 65 ∨ 90 < c.toNat := by
  have hd : ∀ v : Fin 16, digitVal (if v.val < 10 then 48 + UInt8.ofNat v.val else 87 + UInt8.ofNat v.val) = some v.val ∧
      ((if v.val < 10 then 48 + UInt8.ofNat v.val else 87 + UInt8.ofNat v.val).toNat < 65 ∨
        90 < (if v.val < 10 then 48 + UInt8.ofNat v.val else 87 + UInt8.ofNat v.val).toNat) ∧
      (v.val = 0 → (if v.val < 10 then 48 + UInt8.ofNat v.val else 87 + UInt8.ofNat v.val) = 48) := by decide
  induction n using Nat.strongRecOn with
  | ind n ih =>
    have hn := hd ⟨n % 16, by omega⟩
    simp only at hn
    rw [lowerHexU64]
    generalize (if n % 16 < 10 then 48 + UInt8.ofNat (n % 16) else 87 + UInt8.ofNat (n % 16)) = c at *
    split
    · rename_i h16
      have hm : n % 16 = n := Nat.mod_eq_of_lt h16
      rw [hm] at hn
      refine ⟨[n], ⟨by simp, by simp [hn.1], by simpa using h16⟩, by simp [horner], by simp, ?_, by simpa using hn.2.1⟩
      intro h0
      rw [hn.2.2 h0]
    · rename_i h16
      obtain ⟨ds, ⟨a1, a2, a3⟩, a4, a5, _, a6⟩ := ih (n / 16) (by omega)
      refine ⟨ds ++ [n % 16], ⟨by simp, by simp [a2, hn.1], ?_⟩, ?_, ?_, by omega, ?_⟩
      · intro d hd
        rcases List.mem_append.mp hd with h | h
        · exact a3 d h
        · simp at h; omega
      · rw [horner, List.foldl_append]
        show horner 16 ds * 16 + n % 16 = n
        omega
      · intro _
        have hne : ds ≠ [] := by
          rintro rfl
          simp at a2; exact a1 a2
        rw [List.head?_append_of_ne_nil _ hne]
        exact a5 (by omega)
      · intro c' hc
        rcases List.mem_append.mp hc with h | h
        · exact a6 c' h
        · simp at h; rw [h]; exact hn.2.1

/-- C58: a nonce prints as `0x` and the lower-case hex numeral of its value, without leading zeros. -/
theorem C58_nonce_display (x : EoaNonce) :
    ∃ body ds, x.display = 48 :: 120 :: body ∧ DigitText 16 body ds ∧ horner 16 ds = x.value.toNat ∧
      (x.value ≠ 0 → ds.head? ≠ some 0) ∧ (x.value = 0 → body = [48]) ∧ ∀ c ∈ body, c.toNat < 65 ∨ 90 < c.toNat := by
  obtain ⟨ds, h1, h2, h3, h4, h5⟩ := lowerHex_digits x.value.toNat
  have h0 : x.value = 0 ↔ x.value.toNat = 0 := by rw [← UInt64.toNat_inj]; rfl
  exact ⟨_, ds, rfl, h1, h2, fun h => h3 (fun e => h (h0.mpr e)), fun h => h4 (h0.mp h), h5⟩

/-! Concrete cases. -/

/-- `0x12ef` and `4847` are texts of one number. -/
example : UnsignedText [48, 120, 49, 50, 101, 102] 4847 ∧ UnsignedText [52, 56, 52, 55] 4847 :=
  ⟨.inl ⟨_, [1, 2, 14, 15], rfl, ⟨by simp, by decide, by decide⟩, rfl, by decide⟩, .inr ⟨[4, 8, 4, 7], ⟨by simp, by decide, by decide⟩, by decide⟩⟩

example : ∃ x, Wei.tryFromStr .debug 64 [52, 56, 52, 55] = .ok x ∧ Denotes 64 x 4847 :=
  C58_numerals_partial .debug 8 (by decide) _ 4847 (.inr ⟨[4, 8, 4, 7], ⟨by simp, by decide, by decide⟩, by decide⟩)

example : (EoaNonce.mk 0x12ef).display = [48, 120, 49, 50, 101, 102] := by
  simp [EoaNonce.display, lowerHexU64]

example : EoaNonce.fromU64 0xfffffffffffffffe = some ⟨0xfffffffffffffffe⟩ ∧ EoaNonce.fromU64 0xffffffffffffffff = none := by decide

end LCT.Props
