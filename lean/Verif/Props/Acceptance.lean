import Verif.Lemmas.Ethereum.Normal
import Verif.Lemmas.Ethereum.Total
import Verif.Props.Transactions

/-!
# What the transaction decoders accept: C56, C57, C59, and more on C46

`IsListOf kinds data` (in `Verif.Spec.Ethereum`) says that `data` is an RLP list, with headers of any of the forms that the RLP decoder
accepts, whose items have the given kinds: `LaxU64 n` for a byte string of at most eight bytes that denotes `n`, `LaxNum n` for a byte string
that denotes `n`, and equations for byte strings and access lists.
-/

namespace LCT.Props
open LCT.BigInt LCT.Rlp LCT.Spec LCT.Spec.Eth LCT.Out LCT.Crypto LCT.Ethereum
variable {ε : Type} (m : Build) (w : Nat) [DigitWidth w]

private theorem den_unique {x : BInt} {a b : Nat} (h1 : Denotes w x a) (h2 : Denotes w x b) : a = b := by
  exact_mod_cast h1.2.symm.trans h2.2

private theorem legacy_unique {p : PayloadLegacy} {t t' : Legacy} (h : LegacyOf w p t) (h' : LegacyOf w p t') : t = t' := by
  obtain ⟨a1, -, a3, a4, a5, a6, a7⟩ := h
  obtain ⟨b1, -, b3, b4, b5, b6, b7⟩ := h'
  cases t; cases t'
  simp only at *
  simp only [← a1, ← b1, ← a4, ← b4, ← a5, ← b5, ← a7, ← b7, den_unique w a3 b3, den_unique w a6 b6]

private theorem eip155_unique {p : PayloadEip155} {t t' : Eip155} (h : Eip155Of w p t) (h' : Eip155Of w p t') : t = t' := by
  obtain ⟨a0, a1, -, a3, a4, a5, a6, a7⟩ := h
  obtain ⟨b0, b1, -, b3, b4, b5, b6, b7⟩ := h'
  cases t; cases t'
  simp only at *
  simp only [← a1, ← b1, ← a4, ← b4, ← a5, ← b5, ← a7, ← b7, den_unique w a3 b3, den_unique w a6 b6, den_unique w a0 b0]

private theorem eip2930_unique {p : PayloadEip2930} {t t' : Eip2930} (h : Eip2930Of w p t) (h' : Eip2930Of w p t') : t = t' := by
  obtain ⟨a0, a1, -, a3, a4, a5, a6, a7, a8⟩ := h
  obtain ⟨b0, b1, -, b3, b4, b5, b6, b7, b8⟩ := h'
  cases t; cases t'
  simp only at *
  simp only [← a1, ← b1, ← a4, ← b4, ← a5, ← b5, ← a7, ← b7, ← a8, ← b8, den_unique w a3 b3, den_unique w a6 b6, den_unique w a0 b0]

private theorem eip1559_unique {p : PayloadEip1559} {t t' : Eip1559} (h : Eip1559Of w p t) (h' : Eip1559Of w p t') : t = t' := by
  obtain ⟨a0, a1, -, a2, a3, a4, a5, a6, a7, a8⟩ := h
  obtain ⟨b0, b1, -, b2, b3, b4, b5, b6, b7, b8⟩ := h'
  cases t; cases t'
  simp only at *
  simp only [← a1, ← b1, ← a4, ← b4, ← a5, ← b5, ← a7, ← b7, ← a8, ← b8, den_unique w a2 b2, den_unique w a3 b3, den_unique w a6 b6,
    den_unique w a0 b0]

/-! ## C56: no panics on arbitrary bytes

False as stated: `C56_panics` gives a byte string on which every decoder panics in every build (the headers of C36), and
`C56_debug_panics` one without such a header on which the decoders of typed transactions panic in debug builds. -/

/-- C56 (negation): ten bytes that make all four decoders panic, in both builds. -/
theorem C56_panics : let data : List UInt8 := [0xc9, 0xbf, 0xff, 0xff, 0xff, 0xff, 0xff, 0xff, 0xff, 0xff]
    decode m (decTransactionLegacy m w) data = .panic ∧ decode m (decTransactionEip155 m w) data = .panic ∧
    decode m (decTransactionEip2930 m w) data = .panic ∧ decode m (decTransactionEip1559 m w) data = .panic := by
  have e : (DecItem.newFromData m [0xc9, 0xbf, 0xff, 0xff, 0xff, 0xff, 0xff, 0xff, 0xff, 0xff]) =
      .ok ⟨.List, [0xbf, 0xff, 0xff, 0xff, 0xff, 0xff, 0xff, 0xff, 0xff]⟩ := by cases m <;> decide
  have e2 : DecItem.decodeAsItems m ⟨.List, [0xbf, 0xff, 0xff, 0xff, 0xff, 0xff, 0xff, 0xff, 0xff]⟩ = .panic := by cases m <;> decide
  refine ⟨?_, ?_, ?_, ?_⟩ <;> unfold decode <;> rw [e]
  · simp only [out_bind_ok, decTransactionLegacy, e2]; rfl
  · simp only [out_bind_ok, decTransactionEip155, e2]; rfl
  · simp only [out_bind_ok, decTransactionEip2930, e2]; rfl
  · simp only [out_bind_ok, decTransactionEip1559, e2]; rfl

/-- An EIP-2930 transaction whose access list has an entry with the single value 5 in the place of the list of keys. -/
def badAccessList : List UInt8 :=
  [0xf6, 1, 2, 3, 4, 0x94, 1, 2, 3, 4, 5, 6, 7, 8, 9, 10, 11, 12, 13, 14, 15, 16, 17, 18, 19, 20, 6, 0x80,
    0xd7, 0xd6, 0x94, 1, 2, 3, 4, 5, 6, 7, 8, 9, 10, 11, 12, 13, 14, 15, 16, 17, 18, 19, 20, 5, 1, 7, 8]

/-- C56 (negation): it is rejected in release builds and makes the decoder panic in debug builds. -/
theorem C56_debug_panics :
    (decode .debug (decTransactionEip2930 .debug 64) badAccessList).bind (fun _ => .ok ()) = .panic ∧
    (decode .release (decTransactionEip2930 .release 64) badAccessList).bind (fun _ => .ok ()) = .err .InvalidFormat := by
  decide +kernel

/-- C56: no decoder runs for ever, on any byte string. -/
theorem C56_terminates (data : List UInt8) :
    decode m (decTransactionLegacy m w) data ≠ .hang ∧ decode m (decTransactionEip155 m w) data ≠ .hang ∧
    decode m (decTransactionEip2930 m w) data ≠ .hang ∧ decode m (decTransactionEip1559 m w) data ≠ .hang :=
  ⟨nh_decode m data (nh_legacy m), nh_decode m data (nh_eip155 m), nh_decode m data (nh_eip2930 m), nh_decode m data (nh_eip1559 m)⟩

/-- C56, what holds: the decoders of legacy and EIP-155 transactions return a transaction or an error, in both builds, on every byte string
no suffix of which begins with a header that declares a length of `2^64 - 9` or more.  Missing: those byte strings. -/
theorem C56_untyped_partial (data : List UInt8) (h : ∀ s, s <:+ data → ¬ DeclaresHugeLength s) (hl : data.length < 2 ^ 64) :
    (decode m (decTransactionLegacy m w) data).Returns ∧ (decode m (decTransactionEip155 m w) data).Returns := by
  refine ⟨?_, decode_returns_huge m data h fun d hd => eip155_returns m d hd⟩
  have := agr_decode data hl h fun d hd1 hd2 => agr_legacy (w := w) d hd1 hd2
  rcases this with ⟨e, r⟩ | ⟨hf, -⟩
  · cases m
    · rw [e]; exact r
    · exact r
  · exact hf.elim

/-- C56, what holds: for the same byte strings the decoders of EIP-2930 and EIP-1559 transactions return a transaction or an error in
release builds; debug builds return the same, except that they can panic where release builds report a malformed input.  Missing: those
byte strings, and that exception. -/
theorem C56_typed_partial (data : List UInt8) (h : ∀ s, s <:+ data → ¬ DeclaresHugeLength s) (hl : data.length < 2 ^ 64) :
    (decode .release (decTransactionEip2930 .release w) data).Returns ∧
    (decode .debug (decTransactionEip2930 .debug w) data = decode .release (decTransactionEip2930 .release w) data ∨
      decode .debug (decTransactionEip2930 .debug w) data = .panic ∧
      decode .release (decTransactionEip2930 .release w) data = .err .InvalidFormat) ∧
    (decode .release (decTransactionEip1559 .release w) data).Returns ∧
    (decode .debug (decTransactionEip1559 .debug w) data = decode .release (decTransactionEip1559 .release w) data ∨
      decode .debug (decTransactionEip1559 .debug w) data = .panic ∧
      decode .release (decTransactionEip1559 .release w) data = .err .InvalidFormat) := by
  have h1 := agr_decode data hl h fun d hd1 hd2 => agr_eip2930 (w := w) d hd1 hd2
  have h2 := agr_decode data hl h fun d hd1 hd2 => agr_eip1559 (w := w) d hd1 hd2
  refine ⟨?_, ?_, ?_, ?_⟩
  · rcases h1 with ⟨-, r⟩ | ⟨-, -, r⟩
    · exact r
    · rw [r]; exact .err _
  · rcases h1 with ⟨e, -⟩ | ⟨-, e⟩
    · exact Or.inl e
    · exact Or.inr e
  · rcases h2 with ⟨-, r⟩ | ⟨-, -, r⟩
    · exact r
    · rw [r]; exact .err _
  · rcases h2 with ⟨e, -⟩ | ⟨-, e⟩
    · exact Or.inl e
    · exact Or.inr e

/-- The hypothesis is met by every byte string without a byte `0xbf` or `0xff`, for instance the one above. -/
example : ∀ s, s <:+ badAccessList → ¬ DeclaresHugeLength s := by
  intro s hs hd
  match s, hd with
  | b :: rest, ⟨hb, _⟩ =>
    have hm : b ∈ badAccessList := hs.subset (by simp)
    have : ∀ c ∈ badAccessList, c ≠ 0xbf ∧ c ≠ 0xff := by decide
    rcases hb with rfl | rfl
    · exact (this _ hm).1 rfl
    · exact (this _ hm).2 rfl

/-! ## C57 -/

/-- C57: the legacy decoder accepts a byte string as the transaction with fields `t` and signature `v`, `r`, `s` exactly if these are
admissible values and the byte string is a list of nine items that denote them in order. -/
theorem C57_legacy_iff (data : List UInt8) (hl : data.length < 2 ^ 64) (t : Legacy) (v r s : Nat) :
    (∃ x, decode m (decTransactionLegacy m w) data = .ok x ∧ LegacyOf w x.payload t ∧ x.v.toNat = v ∧ Denotes w x.r r ∧ Denotes w x.s s) ↔
      t.Valid ∧ v < 256 ∧ IsListOf (t.kinds v r s) data := by
  constructor
  · rintro ⟨x, e, h1, rfl, h3, h4⟩
    obtain ⟨t', r', s', a1, a2, a3, a4⟩ := legacy_accept m hl e
    rw [legacy_unique w h1 a1, den_unique w h3 a2, den_unique w h4 a3]
    exact ⟨LegacyOf.valid a1, x.v.toNat_lt, a4⟩
  · rintro ⟨h1, h2, h3⟩
    exact legacy_accepts m hl h1 h2 h3

/-- C57: and every result of the legacy decoder is one of these. -/
theorem C57_legacy_meaning (data : List UInt8) (hl : data.length < 2 ^ 64) (x : TransactionLegacy)
    (h : decode m (decTransactionLegacy m w) data = .ok x) :
    ∃ t r s : _, LegacyOf w x.payload t ∧ Denotes w x.r (r : Nat) ∧ Denotes w x.s (s : Nat) :=
  let ⟨t, r, s, h1, h2, h3, _⟩ := legacy_accept m hl h
  ⟨t, r, s, h1, h2, h3⟩

/-- C57: the EIP-155 decoder accepts a byte string as the transaction with fields `t` and signature `v`, `r`, `s` exactly if these are
admissible values, `v ≥ 35` and the byte string is a list of nine items that denote them in order; the chain id is computed from `v`
(wrongly, see C41). -/
theorem C57_eip155_iff (data : List UInt8) (hl : data.length < 2 ^ 64) (t : Eip155) (v r s : Nat) :
    (∃ x, decode m (decTransactionEip155 m w) data = .ok x ∧ Eip155Of w x.payload t ∧ Denotes w x.v v ∧ Denotes w x.r r ∧
      Denotes w x.s s) ↔ t.Valid ∧ 35 ≤ v ∧ t.chainId = (v - 35) / 4 ∧ IsListOf (t.kinds v r s) data := by
  constructor
  · rintro ⟨x, e, h1, h2, h3, h4⟩
    obtain ⟨t', v', r', s', a1, a2, a3, a4, a5, a6, a7⟩ := eip155_accept m hl e
    rw [eip155_unique w h1 a3, den_unique w h2 a4, den_unique w h3 a5, den_unique w h4 a6]
    exact ⟨Eip155Of.valid a3, a1, a2, a7⟩
  · rintro ⟨h1, h2, h3, h4⟩
    have := (eip155_accepts (w := w) m hl h1 h4).1 h2
    rw [← h3] at this
    exact this

/-- C57: and every result of the EIP-155 decoder is one of these. -/
theorem C57_eip155_meaning (data : List UInt8) (hl : data.length < 2 ^ 64) (x : TransactionEip155)
    (h : decode m (decTransactionEip155 m w) data = .ok x) :
    ∃ t v r s : _, Eip155Of w x.payload t ∧ Denotes w x.v (v : Nat) ∧ Denotes w x.r (r : Nat) ∧ Denotes w x.s (s : Nat) :=
  let ⟨t, v, r, s, _, _, h1, h2, h3, h4, _⟩ := eip155_accept m hl h
  ⟨t, v, r, s, h1, h2, h3, h4⟩

private theorem parity_iff {y : Nat} : y ≤ 1 ↔ ∃ q : YParity, q.toU8.toNat = y := by
  constructor
  · intro h
    have : y = 0 ∨ y = 1 := by omega
    rcases this with rfl | rfl
    · exact ⟨.Even, rfl⟩
    · exact ⟨.Odd, rfl⟩
  · rintro ⟨q, rfl⟩
    cases q <;> decide

/-- C57: the EIP-2930 decoder accepts a byte string (without the type byte) as the transaction with fields `t` and signature `y`, `r`, `s`
exactly if these are admissible values and the byte string is a list of eleven items that denote them in order. -/
theorem C57_eip2930_iff (data : List UInt8) (hl : data.length < 2 ^ 64) (t : Eip2930) (y r s : Nat) :
    (∃ x, decode m (decTransactionEip2930 m w) data = .ok x ∧ Eip2930Of w x.payload t ∧ x.yParity.toU8.toNat = y ∧ Denotes w x.r r ∧
      Denotes w x.s s) ↔ t.Valid ∧ y ≤ 1 ∧ IsListOf (t.kinds y r s) data := by
  constructor
  · rintro ⟨x, e, h1, rfl, h3, h4⟩
    obtain ⟨t', r', s', a1, a2, a3, a4⟩ := eip2930_accept m hl e
    rw [eip2930_unique w h1 a1, den_unique w h3 a2, den_unique w h4 a3]
    exact ⟨Eip2930Of.valid a1, parity_iff.mpr ⟨_, rfl⟩, a4⟩
  · rintro ⟨h1, h2, h3⟩
    obtain ⟨q, rfl⟩ := parity_iff.mp h2
    obtain ⟨x, e, a1, rfl, a3⟩ := eip2930_accepts (w := w) m hl h1 h3
    exact ⟨x, e, a1, rfl, a3⟩

/-- C57: and every result of the EIP-2930 decoder is one of these. -/
theorem C57_eip2930_meaning (data : List UInt8) (hl : data.length < 2 ^ 64) (x : TransactionEip2930)
    (h : decode m (decTransactionEip2930 m w) data = .ok x) :
    ∃ t r s : _, Eip2930Of w x.payload t ∧ Denotes w x.r (r : Nat) ∧ Denotes w x.s (s : Nat) :=
  let ⟨t, r, s, h1, h2, h3, _⟩ := eip2930_accept m hl h
  ⟨t, r, s, h1, h2, h3⟩

/-- C57: the EIP-1559 decoder accepts a byte string (without the type byte) as the transaction with fields `t` and signature `y`, `r`, `s`
exactly if these are admissible values and the byte string is a list of twelve items that denote them in order. -/
theorem C57_eip1559_iff (data : List UInt8) (hl : data.length < 2 ^ 64) (t : Eip1559) (y r s : Nat) :
    (∃ x, decode m (decTransactionEip1559 m w) data = .ok x ∧ Eip1559Of w x.payload t ∧ x.yParity.toU8.toNat = y ∧ Denotes w x.r r ∧
      Denotes w x.s s) ↔ t.Valid ∧ y ≤ 1 ∧ IsListOf (t.kinds y r s) data := by
  constructor
  · rintro ⟨x, e, h1, rfl, h3, h4⟩
    obtain ⟨t', r', s', a1, a2, a3, a4⟩ := eip1559_accept m hl e
    rw [eip1559_unique w h1 a1, den_unique w h3 a2, den_unique w h4 a3]
    exact ⟨Eip1559Of.valid a1, parity_iff.mpr ⟨_, rfl⟩, a4⟩
  · rintro ⟨h1, h2, h3⟩
    obtain ⟨q, rfl⟩ := parity_iff.mp h2
    obtain ⟨x, e, a1, rfl, a3⟩ := eip1559_accepts (w := w) m hl h1 h3
    exact ⟨x, e, a1, rfl, a3⟩

/-- C57: and every result of the EIP-1559 decoder is one of these. -/
theorem C57_eip1559_meaning (data : List UInt8) (hl : data.length < 2 ^ 64) (x : TransactionEip1559)
    (h : decode m (decTransactionEip1559 m w) data = .ok x) :
    ∃ t r s : _, Eip1559Of w x.payload t ∧ Denotes w x.r (r : Nat) ∧ Denotes w x.s (s : Nat) :=
  let ⟨t, r, s, h1, h2, h3, _⟩ := eip1559_accept m hl h
  ⟨t, r, s, h1, h2, h3⟩

/-! ## C46 for arbitrary bytes -/

/-- C46: for every byte string, the EIP-155 decoder reports a type mismatch exactly if it is a list of nine items of the right kinds with
`v < 35`. -/
theorem C46_mismatch_iff (data : List UInt8) (hl : data.length < 2 ^ 64) :
    decode m (decTransactionEip155 m w) data = .err .TransactionTypeMismatch ↔
      ∃ (t : Eip155) (v r s : Nat), t.Valid ∧ v < 35 ∧ IsListOf (t.kinds v r s) data := by
  constructor
  · intro h
    obtain ⟨t, v, r, s, a1, a2, a3⟩ := eip155_mismatch m hl h
    exact ⟨t, v, r, s, a2, a1, a3⟩
  · rintro ⟨t, v, r, s, a1, a2, a3⟩
    exact (eip155_accepts m hl a1 a3).2 a2

/-- A transaction with a nonce and a `v` that are not written minimally, and a long header where a short one suffices: it is accepted. -/
def laxBytes : List UInt8 := [0xf8, 32, 0x82, 0, 7, 1, 2, 0x94, 1, 2, 3, 4, 5, 6, 7, 8, 9, 10, 11, 12, 13, 14, 15, 16, 17, 18, 19, 20, 3, 0x80, 0x81, 27, 4, 5]

example : (decode .debug (decTransactionLegacy .debug 64) laxBytes).bind (fun x => .ok (x.payload.nonce.value, x.v)) = .ok (7, 27) := by
  decide +kernel

example : ∃ t r s, IsListOf (Legacy.kinds t 27 r s) laxBytes := by
  have e : (decode .debug (decTransactionLegacy .debug 64) laxBytes).bind (fun x => .ok x.v) = .ok 27 := by decide +kernel
  match h : decode .debug (decTransactionLegacy .debug 64) laxBytes with
  | .ok x =>
    rw [h] at e
    obtain ⟨t, r, s, -, -, -, a⟩ := legacy_accept .debug (by decide) h
    exact ⟨t, r, s, by rw [show x.v = 27 by injection e] at a; exact a⟩
  | .err _ => rw [h] at e; cases e
  | .panic => rw [h] at e; cases e
  | .hang => rw [h] at e; cases e

/-! ## C59: one encoding per transaction

False: for every transaction there are at least two byte strings that decode to it.  What holds is that re-encoding normalises. -/

/-- C59 (negation): every admissible legacy transaction of less than `2^56` bytes has, besides its encoding, another byte string that the
decoder accepts as the same transaction. -/
theorem C59_legacy_violated (t : Legacy) (v r s : Nat) (ht : t.Valid) (hv : v < 256) (hl : (rlp (signedList t.fields v r s)).length < 2 ^ 56) :
    ∃ d, d ≠ rlp (signedList t.fields v r s) ∧ ∀ data ∈ [d, rlp (signedList t.fields v r s)],
      ∃ x, decode m (decTransactionLegacy m w) data = .ok x ∧ LegacyOf w x.payload t ∧ x.v.toNat = v ∧ Denotes w x.r r ∧ Denotes w x.s s := by
  obtain ⟨h1, d, h2, h3, h4⟩ := other_encoding (legacy_fits ht (r := r) (s := s) (show v < 2 ^ 64 by omega)) hl
  refine ⟨d, h2, ?_⟩
  rintro data hd
  simp only [List.mem_cons, List.not_mem_nil, or_false] at hd
  rcases hd with rfl | rfl
  · exact (C57_legacy_iff m w _ h3 t v r s).mpr ⟨ht, hv, h4⟩
  · exact (C57_legacy_iff m w _ (by omega) t v r s).mpr ⟨ht, hv, h1⟩

/-- C59 (negation), EIP-155. -/
theorem C59_eip155_violated (t : Eip155) (v r s : Nat) (ht : t.Valid) (hv : 35 ≤ v) (hc : t.chainId = (v - 35) / 4)
    (hl : (rlp (signedList t.fields v r s)).length < 2 ^ 56) :
    ∃ d, d ≠ rlp (signedList t.fields v r s) ∧ ∀ data ∈ [d, rlp (signedList t.fields v r s)],
      ∃ x, decode m (decTransactionEip155 m w) data = .ok x ∧ Eip155Of w x.payload t ∧ Denotes w x.v v ∧ Denotes w x.r r ∧ Denotes w x.s s := by
  obtain ⟨h1, d, h2, h3, h4⟩ := other_encoding (eip155_fits ht (v := v) (r := r) (s := s)) hl
  refine ⟨d, h2, ?_⟩
  rintro data hd
  simp only [List.mem_cons, List.not_mem_nil, or_false] at hd
  rcases hd with rfl | rfl
  · exact (C57_eip155_iff m w _ h3 t v r s).mpr ⟨ht, hv, hc, h4⟩
  · exact (C57_eip155_iff m w _ (by omega) t v r s).mpr ⟨ht, hv, hc, h1⟩

/-- C59 (negation), EIP-2930. -/
theorem C59_eip2930_violated (t : Eip2930) (y r s : Nat) (ht : t.Valid) (hy : y ≤ 1) (hl : (rlp (signedList t.fields y r s)).length < 2 ^ 56) :
    ∃ d, d ≠ rlp (signedList t.fields y r s) ∧ ∀ data ∈ [d, rlp (signedList t.fields y r s)],
      ∃ x, decode m (decTransactionEip2930 m w) data = .ok x ∧ Eip2930Of w x.payload t ∧ x.yParity.toU8.toNat = y ∧ Denotes w x.r r ∧
        Denotes w x.s s := by
  obtain ⟨h1, d, h2, h3, h4⟩ := other_encoding (eip2930_fits ht (r := r) (s := s) (show y < 2 ^ 64 by omega)) hl
  refine ⟨d, h2, ?_⟩
  rintro data hd
  simp only [List.mem_cons, List.not_mem_nil, or_false] at hd
  rcases hd with rfl | rfl
  · exact (C57_eip2930_iff m w _ h3 t y r s).mpr ⟨ht, hy, h4⟩
  · exact (C57_eip2930_iff m w _ (by omega) t y r s).mpr ⟨ht, hy, h1⟩

/-- C59 (negation), EIP-1559. -/
theorem C59_eip1559_violated (t : Eip1559) (y r s : Nat) (ht : t.Valid) (hy : y ≤ 1) (hl : (rlp (signedList t.fields y r s)).length < 2 ^ 56) :
    ∃ d, d ≠ rlp (signedList t.fields y r s) ∧ ∀ data ∈ [d, rlp (signedList t.fields y r s)],
      ∃ x, decode m (decTransactionEip1559 m w) data = .ok x ∧ Eip1559Of w x.payload t ∧ x.yParity.toU8.toNat = y ∧ Denotes w x.r r ∧
        Denotes w x.s s := by
  obtain ⟨h1, d, h2, h3, h4⟩ := other_encoding (eip1559_fits ht (r := r) (s := s) (show y < 2 ^ 64 by omega)) hl
  refine ⟨d, h2, ?_⟩
  rintro data hd
  simp only [List.mem_cons, List.not_mem_nil, or_false] at hd
  rcases hd with rfl | rfl
  · exact (C57_eip1559_iff m w _ h3 t y r s).mpr ⟨ht, hy, h4⟩
  · exact (C57_eip1559_iff m w _ (by omega) t y r s).mpr ⟨ht, hy, h1⟩

/-- C59, what holds: whatever the legacy decoder accepts can be encoded again; the result is not longer, it decodes to the same transaction,
and it is the canonical encoding.  Missing: it need not be the byte string that was decoded. -/
theorem C59_legacy_partial (data : List UInt8) (hl : data.length < 2 ^ 64) (x : TransactionLegacy)
    (h : decode m (decTransactionLegacy m w) data = .ok x) :
    ∃ (t : Legacy) (r s : Nat) (bytes : List UInt8) (y : TransactionLegacy), LegacyOf w x.payload t ∧ Denotes w x.r r ∧ Denotes w x.s s ∧
      (x.encode m w : Out ε _) = .ok bytes ∧ bytes = rlp (signedList t.fields x.v.toNat r s) ∧ bytes.length ≤ data.length ∧
      decode m (decTransactionLegacy m w) bytes = .ok y ∧ LegacyOf w y.payload t ∧ y.v = x.v ∧ Denotes w y.r r ∧ Denotes w y.s s := by
  obtain ⟨t, r, s, h1, h2, h3, h4⟩ := legacy_accept m hl h
  obtain ⟨l1, l2⟩ := legacy_le h4 hl
  obtain ⟨e, y, ey, hy⟩ := C40_round_trip (ε := ε) m w x t r s h1 h2 h3 l2
  exact ⟨t, r, s, _, y, h1, h2, h3, e, rfl, l1, ey, hy⟩

/-- C59, what holds, EIP-155. -/
theorem C59_eip155_partial (data : List UInt8) (hl : data.length < 2 ^ 64) (x : TransactionEip155)
    (h : decode m (decTransactionEip155 m w) data = .ok x) :
    ∃ (t : Eip155) (v r s : Nat) (bytes : List UInt8) (y : TransactionEip155), Eip155Of w x.payload t ∧ Denotes w x.v v ∧ Denotes w x.r r ∧
      Denotes w x.s s ∧ (x.encode m w : Out ε _) = .ok bytes ∧ bytes = rlp (signedList t.fields v r s) ∧ bytes.length ≤ data.length ∧
      decode m (decTransactionEip155 m w) bytes = .ok y ∧ Eip155Of w y.payload t ∧ Denotes w y.v v ∧ Denotes w y.r r ∧ Denotes w y.s s := by
  obtain ⟨t, v, r, s, h0, hc, h1, hv, h2, h3, h4⟩ := eip155_accept m hl h
  obtain ⟨l1, l2⟩ := eip155_le h4 hl
  obtain ⟨e, y, ey, hy⟩ := C41_round_trip_partial (ε := ε) m w x t v r s h1 hv h2 h3 h0 l2
  rw [← hc] at hy
  exact ⟨t, v, r, s, _, y, h1, hv, h2, h3, e, rfl, l1, ey, hy⟩

/-- C59, what holds, EIP-2930 (the encoder adds the type byte). -/
theorem C59_eip2930_partial (data : List UInt8) (hl : data.length < 2 ^ 64) (x : TransactionEip2930)
    (h : decode m (decTransactionEip2930 m w) data = .ok x) :
    ∃ (t : Eip2930) (r s : Nat) (bytes : List UInt8) (y : TransactionEip2930), Eip2930Of w x.payload t ∧ Denotes w x.r r ∧ Denotes w x.s s ∧
      (x.encode m w : Out ε _) = .ok (1 :: bytes) ∧ bytes = rlp (signedList t.fields x.yParity.toU8.toNat r s) ∧ bytes.length ≤ data.length ∧
      decode m (decTransactionEip2930 m w) bytes = .ok y ∧ Eip2930Of w y.payload t ∧ y.yParity = x.yParity ∧ Denotes w y.r r ∧
      Denotes w y.s s := by
  obtain ⟨t, r, s, h1, h2, h3, h4⟩ := eip2930_accept m hl h
  obtain ⟨l1, l2⟩ := eip2930_le h4 hl
  obtain ⟨e, y, ey, hy⟩ := C42_eip2930 (ε := ε) m w x t r s h1 h2 h3 l2
  exact ⟨t, r, s, _, y, h1, h2, h3, e, rfl, l1, ey, hy⟩

/-- C59, what holds, EIP-1559. -/
theorem C59_eip1559_partial (data : List UInt8) (hl : data.length < 2 ^ 64) (x : TransactionEip1559)
    (h : decode m (decTransactionEip1559 m w) data = .ok x) :
    ∃ (t : Eip1559) (r s : Nat) (bytes : List UInt8) (y : TransactionEip1559), Eip1559Of w x.payload t ∧ Denotes w x.r r ∧ Denotes w x.s s ∧
      (x.encode m w : Out ε _) = .ok (2 :: bytes) ∧ bytes = rlp (signedList t.fields x.yParity.toU8.toNat r s) ∧ bytes.length ≤ data.length ∧
      decode m (decTransactionEip1559 m w) bytes = .ok y ∧ Eip1559Of w y.payload t ∧ y.yParity = x.yParity ∧ Denotes w y.r r ∧
      Denotes w y.s s := by
  obtain ⟨t, r, s, h1, h2, h3, h4⟩ := eip1559_accept m hl h
  obtain ⟨l1, l2⟩ := eip1559_le h4 hl
  obtain ⟨e, y, ey, hy⟩ := C42_eip1559 (ε := ε) m w x t r s h1 h2 h3 l2
  exact ⟨t, r, s, _, y, h1, h2, h3, e, rfl, l1, ey, hy⟩

/-- `laxBytes` is re-encoded as a shorter byte string. -/
example : ((decode .debug (decTransactionLegacy .debug 64) laxBytes).bind fun x => (x.encode .debug 64 : Out RlpErr _)) =
    .ok [0xdd, 7, 1, 2, 0x94, 1, 2, 3, 4, 5, 6, 7, 8, 9, 10, 11, 12, 13, 14, 15, 16, 17, 18, 19, 20, 3, 0x80, 27, 4, 5] := by
  decide +kernel

end LCT.Props
