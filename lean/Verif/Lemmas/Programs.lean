import Verif.Model.Examples
import Verif.Spec.Programs
import Verif.Props.Codecs
import Verif.Props.Display
import Verif.Props.Acceptance

/-!
# Lemmas about the example programs
-/

namespace LCT.Examples
open LCT.BigInt LCT.Rlp LCT.Codecs LCT.Spec LCT.Spec.Eth LCT.Out LCT.Ethereum LCT.Props
variable {ε : Type}

theorem hexArgument_cases (arg : List UInt8) :
    (∃ h, arg = 48 :: 120 :: h ∧ (hexArgument (some arg) : Out ε _) = .ok h) ∨
    ((∀ h, arg ≠ 48 :: 120 :: h) ∧ (hexArgument (some arg) : Out ε _) = .ok arg) := by
  unfold hexArgument
  simp only [unwrap_some, bind_ok, pure_def]
  split
  · exact .inl ⟨_, rfl, rfl⟩
  · rename_i h
    exact .inr ⟨h, rfl⟩

theorem hexInput_iff {arg bytes : List UInt8} :
    HexInput arg bytes ↔ ∃ s, (hexArgument (some arg) : Out ε _) = .ok s ∧ hexToBytes s = .ok bytes := by
  have h0x : ascii "0x" = [48, 120] := by decide
  have key : ∀ ds : List UInt8, (∀ c ∈ ds, IsHexDigit c) ∧ ds.map lowerChar = hexOf bytes ↔ hexToBytes ds = .ok bytes := by
    intro ds
    rw [C17_decode_ok_iff]
    constructor
    · rintro ⟨h1, h2⟩
      refine ⟨?_, h1, h2⟩
      have := congrArg List.length h2
      rw [List.length_map, hexOf_length] at this
      omega
    · exact fun h => h.2
  unfold HexInput
  rw [h0x]
  rcases hexArgument_cases (ε := ε) arg with ⟨h, rfl, e⟩ | ⟨hn, e⟩
  · rw [e]
    constructor
    · rintro ⟨ds, rfl | hd, hk⟩
      · exact absurd (hk.1 120 (by simp)) (by decide)
      · cases hd
        exact ⟨_, rfl, (key _).mp hk⟩
    · rintro ⟨s, hs, hk⟩
      cases hs
      exact ⟨_, .inr rfl, (key _).mpr hk⟩
  · rw [e]
    constructor
    · rintro ⟨ds, rfl | hd, hk⟩
      · exact ⟨_, rfl, (key _).mp hk⟩
      · exact absurd hd (hn _)
    · rintro ⟨s, hs, hk⟩
      cases hs
      exact ⟨_, .inl rfl, (key _).mpr hk⟩

theorem hexArgument_ok (arg : List UInt8) : ∃ s, (hexArgument (some arg) : Out ε _) = .ok s ∧ s.length ≤ arg.length := by
  rcases hexArgument_cases (ε := ε) arg with ⟨h, rfl, e⟩ | ⟨hn, e⟩
  · exact ⟨_, e, by simp; omega⟩
  · exact ⟨_, e, Nat.le_refl _⟩

theorem hexInput_length {arg bytes : List UInt8} (h : HexInput arg bytes) : bytes.length ≤ arg.length := by
  obtain ⟨ds, h1, -, h3⟩ := h
  have := congrArg List.length h3
  rw [List.length_map, hexOf_length] at this
  rcases h1 with rfl | rfl
  · omega
  · rw [List.length_append]; omega

/-- What the first lines of the programs do: the bytes of a hex argument, a panic for every other argument. -/
theorem input_cases (arg : List UInt8) :
    (∃ bytes, HexInput arg bytes ∧ (hexArgument (some arg) >>= fun s => expect (hexToBytes s) : Out ε _) = .ok bytes) ∨
    ((∀ bytes, ¬ HexInput arg bytes) ∧ (hexArgument (some arg) >>= fun s => expect (hexToBytes s) : Out ε _) = .panic) := by
  obtain ⟨s, e, -⟩ := hexArgument_ok (ε := ε) arg
  rw [e, bind_ok]
  rcases C17_total s with ⟨bs, hb⟩ | ⟨er, hb⟩
  · exact .inl ⟨bs, hexInput_iff.mpr ⟨s, e, hb⟩, by rw [hb]; rfl⟩
  · refine .inr ⟨fun bytes hh => ?_, by rw [hb]; rfl⟩
    obtain ⟨s', e', h'⟩ := (hexInput_iff (ε := ε)).mp hh
    rw [e] at e'
    cases e'
    rw [hb] at h'
    cases h'

theorem hexInput_unique {arg a b : List UInt8} (ha : HexInput arg a) (hb : HexInput arg b) : a = b := by
  obtain ⟨s, e, h⟩ := (hexInput_iff (ε := Unit)).mp ha
  obtain ⟨s', e', h'⟩ := (hexInput_iff (ε := Unit)).mp hb
  rw [e] at e'
  cases e'
  rw [h] at h'
  cases h'
  rfl

theorem isListOf_head {ks : List (Item → Prop)} {data : List UInt8} (h : IsListOf ks data) : ∃ b rest, data = b :: rest ∧ 192 ≤ b.toNat := by
  obtain ⟨p, as, xs, hi, -⟩ := isListOf_iff.mp h
  cases hi with
  | listShort _ h => exact ⟨_, _, rfl, by rw [UInt8.toNat_ofNat']; omega⟩
  | listLong l _ h1 h8 hl => exact ⟨_, _, rfl, by rw [UInt8.toNat_ofNat']; omega⟩

theorem expect_ok {ε' α : Type} {x : Out ε' α} {a : α} : (expect x : Out ε α) = .ok a ↔ x = .ok a := by
  cases x <;> simp [expect]

theorem expect_panic {ε' α : Type} {x : Out ε' α} (h1 : ∀ a, x ≠ .ok a) (h2 : x ≠ .hang) : (expect x : Out ε α) = .panic := by
  cases x with
  | ok a => exact absurd rfl (h1 a)
  | err e => rfl
  | panic => rfl
  | hang => exact absurd rfl h2

/-! ## The transaction decoder -/

section
variable (m : Build) (w : Nat) [DigitWidth w]

theorem legacy_as_eip155 {t : Legacy} {v r s : Nat} {data : List UInt8} (h : IsListOf (t.kinds v r s) data) :
    IsListOf (Eip155.kinds ⟨0, t.nonce, t.gasPrice, t.gasLimit, t.recipient, t.amount, t.data⟩ v r s) data := by
  obtain ⟨xs, h1, h2⟩ := h
  refine ⟨xs, h1, ?_⟩
  match xs, h2 with
  | [_, _, _, _, _, _, _, _, _], ⟨a1, a2, a3, a4, a5, a6, ⟨b, e1, _, e2⟩, a8, a9, _⟩ =>
    exact ⟨a1, a2, a3, a4, a5, a6, ⟨b, e1, e2⟩, a8, a9, trivial⟩

theorem txDecoder_eq (arg data : List UInt8) (h : HexInput arg data) (first : UInt8) (rest : List UInt8) (hd : data = first :: rest) :
    (txDecoder m w (some arg) : Out ε _) =
      if first = 2 then expect (decode m (decTransactionEip1559 m w) rest) >>= fun x => x.display m w >>= fun t => .ok (writeln t)
      else if first = 1 then expect (decode m (decTransactionEip2930 m w) rest) >>= fun x => x.display m w >>= fun t => .ok (writeln t)
      else match decode m (decTransactionEip155 m w) data with
        | .ok x => x.display m w >>= fun t => .ok (writeln t)
        | .err .TransactionTypeMismatch =>
          expect (decode m (decTransactionLegacy m w) data) >>= fun x => x.display m w >>= fun t => .ok (writeln t)
        | .err .InvalidFormat => .panic
        | .panic => .panic
        | .hang => .hang := by
  subst hd
  obtain ⟨s, e1, e2⟩ := (hexInput_iff (ε := ε)).mp h
  unfold txDecoder
  rw [e1, bind_ok, e2]
  rfl

/-- What the transaction decoder does with the bytes of its argument. -/
theorem tx_cases (arg data : List UInt8) (h : HexInput arg data) (hl : data.length < 2 ^ 64) :
    (∃ x : Signed, x.IsEncodedBy data ∧ (txDecoder m w (some arg) : Out ε _) = .ok (x.halved.text ++ [10])) ∨
    (∀ x : Signed, ¬ x.IsEncodedBy data) ∧ (txDecoder m w (some arg) : Out ε _) = .panic := by
  cases data with
  | nil =>
    refine .inr ⟨?_, ?_⟩
    · intro x hx
      cases x with
      | legacy t v r s => obtain ⟨b, rest, h, -⟩ := isListOf_head hx.2.2; cases h
      | eip155 t v r s => obtain ⟨b, rest, h, -⟩ := isListOf_head hx.2.2.2; cases h
      | eip2930 t v r s => obtain ⟨-, -, l, h, -⟩ := hx; cases h
      | eip1559 t v r s => obtain ⟨-, -, l, h, -⟩ := hx; cases h
    · obtain ⟨s, e1, e2⟩ := (hexInput_iff (ε := ε)).mp h
      unfold txDecoder
      rw [e1, bind_ok, e2]
      rfl
  | cons first rest =>
    have hr : rest.length < 2 ^ 64 := by rw [List.length_cons] at hl; omega
    rw [txDecoder_eq m w arg _ h first rest rfl]
    obtain ⟨nh1, nh2, nh3, nh4⟩ := C56_terminates m w rest
    obtain ⟨nh5, nh6, -, -⟩ := C56_terminates m w (first :: rest)
    by_cases h2 : first = 2
    · subst h2
      rw [if_pos rfl]
      by_cases hx : ∃ x, decode m (decTransactionEip1559 m w) rest = .ok x
      · obtain ⟨x, e⟩ := hx
        obtain ⟨t, r, s, a1, a2, a3, a4⟩ := eip1559_accept m hr e
        refine .inl ⟨.eip1559 t x.yParity.toU8.toNat r s, ⟨Eip1559Of.valid a1, by cases x.yParity <;> decide, rest, rfl, a4⟩, ?_⟩
        rw [e]
        simp only [expect, bind_ok, C60_eip1559 m w x t r s a1 a2 a3]
        rfl
      · refine .inr ⟨?_, ?_⟩
        · intro x hx'
          cases x with
          | legacy t v r s => obtain ⟨b, rest, h, hb⟩ := isListOf_head hx'.2.2; cases h; exact absurd hb (by decide)
          | eip155 t v r s => obtain ⟨b, rest, h, hb⟩ := isListOf_head hx'.2.2.2; cases h; exact absurd hb (by decide)
          | eip2930 t v r s => obtain ⟨-, -, l, h, -⟩ := hx'; cases h
          | eip1559 t y r s =>
            obtain ⟨b1, b2, l, h, b3⟩ := hx'
            cases h
            obtain ⟨x, e, -⟩ := (C57_eip1559_iff m w rest hr t y r s).mpr ⟨b1, b2, b3⟩
            exact hx ⟨x, e⟩
        · rw [expect_panic (fun a ha => hx ⟨a, ha⟩) nh4]; rfl
    · rw [if_neg h2]
      by_cases h1 : first = 1
      · subst h1
        rw [if_pos rfl]
        by_cases hx : ∃ x, decode m (decTransactionEip2930 m w) rest = .ok x
        · obtain ⟨x, e⟩ := hx
          obtain ⟨t, r, s, a1, a2, a3, a4⟩ := eip2930_accept m hr e
          refine .inl ⟨.eip2930 t x.yParity.toU8.toNat r s, ⟨Eip2930Of.valid a1, by cases x.yParity <;> decide, rest, rfl, a4⟩, ?_⟩
          rw [e]
          simp only [expect, bind_ok, C60_eip2930 m w x t r s a1 a2 a3]
          rfl
        · refine .inr ⟨?_, ?_⟩
          · intro x hx'
            cases x with
            | legacy t v r s => obtain ⟨b, rest, h, hb⟩ := isListOf_head hx'.2.2; cases h; exact absurd hb (by decide)
            | eip155 t v r s => obtain ⟨b, rest, h, hb⟩ := isListOf_head hx'.2.2.2; cases h; exact absurd hb (by decide)
            | eip1559 t v r s => obtain ⟨-, -, l, h, -⟩ := hx'; cases h
            | eip2930 t y r s =>
              obtain ⟨b1, b2, l, h, b3⟩ := hx'
              cases h
              obtain ⟨x, e, -⟩ := (C57_eip2930_iff m w rest hr t y r s).mpr ⟨b1, b2, b3⟩
              exact hx ⟨x, e⟩
          · rw [expect_panic (fun a ha => hx ⟨a, ha⟩) nh3]; rfl
      · rw [if_neg h1]
        have typed : ∀ (x : Signed), x.IsEncodedBy (first :: rest) →
            (∃ t v r s, x = .legacy t v r s ∧ t.Valid ∧ v < 35 ∧ IsListOf (t.kinds v r s) (first :: rest)) ∨
            (∃ t v r s, x = .eip155 t v r s ∧ t.Valid ∧ 35 ≤ v ∧ IsListOf (t.kinds v r s) (first :: rest)) := by
          intro x hx
          cases x with
          | legacy t v r s => exact .inl ⟨t, v, r, s, rfl, hx⟩
          | eip155 t v r s => exact .inr ⟨t, v, r, s, rfl, hx.1, hx.2.1, hx.2.2.2⟩
          | eip2930 t y r s => obtain ⟨-, -, l, h, -⟩ := hx; cases h; exact absurd rfl h1
          | eip1559 t y r s => obtain ⟨-, -, l, h, -⟩ := hx; cases h; exact absurd rfl h2
        have dec155 : ∀ (x : Signed), x.IsEncodedBy (first :: rest) →
            (decode m (decTransactionEip155 m w) (first :: rest) = .err .TransactionTypeMismatch ∧
              ∃ y, decode m (decTransactionLegacy m w) (first :: rest) = .ok y) ∨
            ∃ y, decode m (decTransactionEip155 m w) (first :: rest) = .ok y := by
          intro x hx
          rcases typed x hx with ⟨t, v, r, s, -, b1, b2, b3⟩ | ⟨t, v, r, s, -, b1, b2, b3⟩
          · refine .inl ⟨(eip155_accepts m hl (t := ⟨0, t.nonce, t.gasPrice, t.gasLimit, t.recipient, t.amount, t.data⟩) b1
              (legacy_as_eip155 b3)).2 b2, ?_⟩
            obtain ⟨y, e, -⟩ := (C57_legacy_iff m w _ hl t v r s).mpr ⟨b1, by omega, b3⟩
            exact ⟨y, e⟩
          · obtain ⟨y, e, -⟩ := (eip155_accepts (w := w) m hl b1 b3).1 b2
            exact .inr ⟨y, e⟩
        match hd : decode m (decTransactionEip155 m w) (first :: rest) with
        | .ok x =>
          obtain ⟨t, v, r, s, a1, a2, a3, a4, a5, a6, a7⟩ := eip155_accept m hl hd
          refine .inl ⟨.eip155 { t with chainId := (v - 35) / 2 } v r s, ⟨(Eip155Of.valid a3 : t.Valid), a1, rfl, a7⟩, ?_⟩
          simp only [C60_eip155 m w x t v r s a3 a4 a5 a6, bind_ok, Signed.halved, ← a2]
          rfl
        | .err .TransactionTypeMismatch =>
          simp only
          obtain ⟨t, v, r, s, c1, c2, c3⟩ := eip155_mismatch m hl hd
          by_cases hx : ∃ x, decode m (decTransactionLegacy m w) (first :: rest) = .ok x
          · obtain ⟨x, e⟩ := hx
            obtain ⟨t', r', s', a1, a2, a3, a4⟩ := legacy_accept m hl e
            by_cases hv : x.v.toNat < 35
            · refine .inl ⟨.legacy t' x.v.toNat r' s', ⟨LegacyOf.valid a1, hv, a4⟩, ?_⟩
              rw [e]
              simp only [expect, bind_ok, C60_legacy m w x t' r' s' a1 a2 a3]
              rfl
            · exfalso
              obtain ⟨y, e', -⟩ := (eip155_accepts (w := w) m hl
                (t := ⟨0, t'.nonce, t'.gasPrice, t'.gasLimit, t'.recipient, t'.amount, t'.data⟩) (LegacyOf.valid a1)
                (legacy_as_eip155 a4)).1 (by omega)
              rw [hd] at e'
              cases e'
          · refine .inr ⟨?_, ?_⟩
            · intro x hx'
              rcases dec155 x hx' with ⟨-, h⟩ | ⟨y, h⟩
              · exact hx h
              · rw [hd] at h; cases h
            · rw [expect_panic (fun a ha => hx ⟨a, ha⟩) nh5]; rfl
        | .err .InvalidFormat =>
          refine .inr ⟨fun x hx' => ?_, rfl⟩
          rcases dec155 x hx' with ⟨h, -⟩ | ⟨y, h⟩ <;> rw [hd] at h <;> cases h
        | .panic =>
          refine .inr ⟨fun x hx' => ?_, rfl⟩
          rcases dec155 x hx' with ⟨h, -⟩ | ⟨y, h⟩ <;> rw [hd] at h <;> cases h
        | .hang => exact absurd hd nh6

theorem tx_not_hex (arg : List UInt8) (h : (hexArgument (some arg) >>= fun s => expect (hexToBytes s) : Out ε _) = .panic) :
    (txDecoder m w (some arg) : Out ε _) = .panic := by
  obtain ⟨s, e, -⟩ := hexArgument_ok (ε := ε) arg
  unfold txDecoder
  rw [e, bind_ok] at h
  rw [e, bind_ok, h]
  rfl

theorem halved_inj {x y : Signed} {data : List UInt8} (hx : x.IsEncodedBy data) (hy : y.IsEncodedBy data) (h : x.halved = y.halved) : x = y := by
  cases x <;> cases y <;> simp only [Signed.halved, reduceCtorEq] at h
  · exact h
  · rename_i t v r s t' v' r' s'
    obtain ⟨-, -, h3, -⟩ := hx
    obtain ⟨-, -, h3', -⟩ := hy
    cases t; cases t'
    simp only [Signed.eip155.injEq, Eip155.mk.injEq] at h h3 h3' ⊢
    obtain ⟨⟨-, a⟩, rfl, b⟩ := h
    exact ⟨⟨by rw [h3, h3'], a⟩, rfl, b⟩
  · exact h
  · exact h

theorem tx_encoded (arg data : List UInt8) (h : HexInput arg data) (hl : data.length < 2 ^ 64) {x : Signed} (hx : x.IsEncodedBy data) :
    (txDecoder m w (some arg) : Out ε _) = .ok (x.halved.text ++ [10]) := by
  have ne : ∀ b : UInt8, 192 ≤ b.toNat → b ≠ 2 ∧ b ≠ 1 := by
    intro b hb
    constructor <;> (rintro rfl; exact absurd hb (by decide))
  cases x with
  | legacy t v r s =>
    obtain ⟨h1, h2, h3⟩ := hx
    obtain ⟨b, rest, rfl, hb⟩ := isListOf_head h3
    rw [txDecoder_eq m w arg _ h b rest rfl, if_neg (ne b hb).1, if_neg (ne b hb).2]
    rw [(eip155_accepts (w := w) m hl (t := ⟨0, t.nonce, t.gasPrice, t.gasLimit, t.recipient, t.amount, t.data⟩) h1 (legacy_as_eip155 h3)).2 h2]
    obtain ⟨y, e, a1, rfl, a3, a4⟩ := (C57_legacy_iff m w _ hl t v r s).mpr ⟨h1, by omega, h3⟩
    simp only [e, expect, bind_ok, C60_legacy m w y t r s a1 a3 a4]
    rfl
  | eip155 t v r s =>
    obtain ⟨h1, h2, h3, h4⟩ := hx
    obtain ⟨b, rest, rfl, hb⟩ := isListOf_head h4
    rw [txDecoder_eq m w arg _ h b rest rfl, if_neg (ne b hb).1, if_neg (ne b hb).2]
    obtain ⟨y, e, a1, a2, a3, a4⟩ := (eip155_accepts (w := w) m hl h1 h4).1 h2
    rw [e]
    simp only [bind_ok, C60_eip155 m w y _ v r s a1 a2 a3 a4]
    rfl
  | eip2930 t y r s =>
    obtain ⟨h1, h2, l, rfl, h3⟩ := hx
    rw [txDecoder_eq m w arg _ h 1 l rfl, if_neg (by decide), if_pos rfl]
    obtain ⟨y, e, a1, rfl, a3, a4⟩ := (C57_eip2930_iff m w l (by rw [List.length_cons] at hl; omega) t y r s).mpr ⟨h1, h2, h3⟩
    simp only [e, expect, bind_ok, C60_eip2930 m w y t r s a1 a3 a4]
    rfl
  | eip1559 t y r s =>
    obtain ⟨h1, h2, l, rfl, h3⟩ := hx
    rw [txDecoder_eq m w arg _ h 2 l rfl, if_pos rfl]
    obtain ⟨y, e, a1, rfl, a3, a4⟩ := (C57_eip1559_iff m w l (by rw [List.length_cons] at hl; omega) t y r s).mpr ⟨h1, h2, h3⟩
    simp only [e, expect, bind_ok, C60_eip1559 m w y t r s a1 a3 a4]
    rfl

theorem tree_rlp (x : Item) (hl : (rlp x).length < 2 ^ 64) : RelaxedTree x (rlp x) := by
  have e := rlp_treeBytes _ hl
  rw [← e] at hl ⊢
  exact relaxed_treeBytes _ hl

theorem isListOf_rlp {ks : List (Item → Prop)} {xs : List Item} (h : Fits ks xs) (hl : (rlp (.list xs)).length < 2 ^ 64) :
    IsListOf ks (rlp (.list xs)) := ⟨xs, tree_rlp _ hl, h⟩

theorem lax_num (n : Nat) : LaxNum n (num n) := ⟨_, rfl, ofBE_minBE n⟩

theorem lax_u64 {n : Nat} (h : n < 2 ^ 64) : LaxU64 n (num n) := ⟨_, rfl, minBE_length_le n 8 h, ofBE_minBE n⟩

theorem encoding_encodes {x : Signed} (hx : x.Valid) (hl : x.encoding.length < 2 ^ 64) : x.IsEncodedBy x.encoding := by
  cases x with
  | legacy t v r s =>
    obtain ⟨h, hv⟩ := hx
    obtain ⟨h1, h2, h3⟩ := id h
    exact ⟨h, hv, isListOf_rlp ⟨lax_u64 (by omega), lax_num _, lax_u64 h2, rfl, lax_num _, rfl, lax_u64 (by omega), lax_num _, lax_num _, trivial⟩ hl⟩
  | eip155 t v r s =>
    obtain ⟨h, hv, hc⟩ := hx
    obtain ⟨h1, h2, h3⟩ := id h
    exact ⟨h, hv, hc, isListOf_rlp ⟨lax_u64 (by omega), lax_num _, lax_u64 h2, rfl, lax_num _, rfl, lax_num _, lax_num _, lax_num _, trivial⟩ hl⟩
  | eip2930 t y r s =>
    obtain ⟨h, hy⟩ := hx
    obtain ⟨h1, h2, h3⟩ := id h
    exact ⟨h, hy, _, rfl, isListOf_rlp ⟨lax_num _, lax_u64 (by omega), lax_num _, lax_u64 h2, rfl, lax_num _, rfl, rfl, lax_u64 (by omega), lax_num _,
      lax_num _, trivial⟩ (by rw [Signed.encoding, List.length_cons] at hl; exact Nat.lt_of_succ_lt hl)⟩
  | eip1559 t y r s =>
    obtain ⟨h, hy⟩ := hx
    obtain ⟨h1, h2, h3⟩ := id h
    exact ⟨h, hy, _, rfl, isListOf_rlp ⟨lax_num _, lax_u64 (by omega), lax_num _, lax_num _, lax_u64 h2, rfl, lax_num _, rfl, rfl, lax_u64 (by omega),
      lax_num _, lax_num _, trivial⟩ (by rw [Signed.encoding, List.length_cons] at hl; exact Nat.lt_of_succ_lt hl)⟩

theorem hexInput_hexOf (data : List UInt8) : HexInput (hexOf data) data := by
  refine ⟨_, .inl rfl, ?_⟩
  have h := C17_round_trip data
  rw [bytesToLowerHex_eq, C17_decode_ok_iff] at h
  exact h.2

theorem signed_unique {x y : Signed} {data : List UInt8} (hx : x.IsEncodedBy data) (hy : y.IsEncodedBy data) (hl : data.length < 2 ^ 64) :
    x = y := by
  have h1 := tx_encoded (ε := Unit) .debug 64 _ data (hexInput_hexOf data) hl hx
  have h2 := tx_encoded (ε := Unit) .debug 64 _ data (hexInput_hexOf data) hl hy
  have h := Out.ok.inj (h1.symm.trans h2)
  exact halved_inj hx hy (C60_injective _ _ (List.append_cancel_right h))

end

/-! ## The RLP decoder -/

theorem jsonsOf_eq (xs : List Item) : jsonsOf xs = xs.map jsonOf := by
  induction xs with
  | nil => rfl
  | cons x xs ih => rw [jsonsOf, ih, List.map_cons]

theorem decAll_map {α β : Type} {f : α → β} {dec : Dec α} {dec' : Dec β} (h : ∀ d, dec' d = (dec d).bind fun x => .ok (f x)) (ds : List DecItem) :
    decAll dec' ds = (decAll dec ds).bind fun xs => .ok (xs.map f) := by
  induction ds with
  | nil => rfl
  | cons d ds ih =>
    rw [decAll, decAll, ih, h]
    cases dec d <;> try rfl
    simp only [Out.bind]
    cases decAll dec ds <;> rfl

theorem decJson_eq (m : Build) (fuel : Nat) (d : DecItem) : decJson m fuel d = (decTree m fuel d).bind fun x => .ok (jsonOf x) := by
  induction fuel generalizing d with
  | zero => rfl
  | succ fuel ih =>
    obtain ⟨t, p⟩ := d
    cases t with
    | SingleValue =>
      simp only [decJson, decTree, DecItem.decodeAsBytes, decVecU8, ne_eq, not_true_eq_false, if_false, Out.bind, jsonOf, bytesText]
      rw [bytesToLowerHex_eq, lit_eq]
    | List =>
      simp only [decJson, decTree, decVec]
      cases dassert m (ItemType.List == ItemType.List) with
      | ok _ =>
        simp only [Out.bind]
        cases DecItem.decodeAsItems m ⟨.List, p⟩ with
        | ok ds =>
          simp only [decAll_map ih]
          cases decAll (decTree m fuel) ds with
          | ok xs => simp only [Out.bind, jsonOf, jsonsOf_eq]
          | err => rfl
          | panic => rfl
          | hang => rfl
        | err => rfl
        | panic => rfl
        | hang => rfl
      | err => rfl
      | panic => rfl
      | hang => rfl

theorem decodeJson_eq (m : Build) (data : List UInt8) :
    decode m (decJson m (data.length + 1)) data = (decodeTree m data).bind fun x => .ok (jsonOf x) := by
  unfold decodeTree decode
  cases DecItem.newFromData m data with
  | ok d => exact decJson_eq m _ d
  | err => rfl
  | panic => rfl
  | hang => rfl

theorem hexOf_inj {a b : List UInt8} (h : hexOf a = hexOf b) : a = b := by
  have ha := C17_round_trip a
  rw [bytesToLowerHex_eq, h, ← bytesToLowerHex_eq, C17_round_trip b] at ha
  exact (Out.ok.inj ha).symm

mutual
theorem jsonOf_inj : {x y : Item} → jsonOf x = jsonOf y → x = y
  | .bytes a, .bytes b, h => by
    simp only [jsonOf, bytesText, Json.string.injEq, List.append_cancel_left_eq] at h
    rw [hexOf_inj h]
  | .list xs, .list ys, h => by
    simp only [jsonOf, Json.array.injEq] at h
    rw [jsonsOf_inj h]
  | .bytes a, .list ys, h => by simp only [jsonOf, reduceCtorEq] at h
  | .list xs, .bytes b, h => by simp only [jsonOf, reduceCtorEq] at h
theorem jsonsOf_inj : {xs ys : List Item} → jsonsOf xs = jsonsOf ys → xs = ys
  | [], [], _ => rfl
  | x :: xs, y :: ys, h => by
    simp only [jsonsOf, List.cons.injEq] at h
    rw [jsonOf_inj h.1, jsonsOf_inj h.2]
  | [], y :: ys, h => by simp only [jsonsOf, reduceCtorEq] at h
  | x :: xs, [], h => by simp only [jsonsOf, reduceCtorEq] at h
end

theorem decTree_nm (m : Build) (fuel : Nat) (d : DecItem) : NoMismatch (decTree m fuel d) := by
  induction fuel generalizing d with
  | zero => simp [decTree, NoMismatch]
  | succ fuel ih =>
    obtain ⟨t, p⟩ := d
    cases t with
    | SingleValue => intro h; cases h
    | List =>
      simp only [decTree]
      refine nm_bind ?_ fun _ => by simp [NoMismatch]
      rw [decVec_list]
      refine nm_bind (decodeListLoop_nm m _ _) fun items => ?_
      generalize items.map _ = ds
      induction ds with
      | nil => simp [decAll, NoMismatch]
      | cons d ds ihd => exact nm_bind (ih d) fun v => nm_bind ihd fun vs => by simp [NoMismatch]

theorem decodeTree_nm (m : Build) (data : List UInt8) : NoMismatch (decodeTree m data) :=
  nm_bind (nm_bind (decodeData_nm m data) fun _ => by simp [NoMismatch]) fun d => decTree_nm m _ d

end LCT.Examples
