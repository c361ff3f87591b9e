import Verif.Spec.WalletClient
import Verif.Props.KeyClient
import Verif.Props.Accounts
import Verif.Props.Builder
import Verif.Props.Display
import Verif.Props.TxPanics
import Verif.Props.Texts
import Verif.Props.EthereumTypes
import Verif.Lemmas.Ethereum.Mismatch

/-!
# Every program that uses Ethereum accounts and transactions sees what the standards answer (C90)
-/

namespace LCT.Props
open LCT.Spec LCT.Spec.Eth LCT.Out LCT.BigInt LCT.Crypto LCT.Random LCT.Hash LCT.Ethereum LCT.Rlp

/-! ## What the library's objects stand for -/

section
variable (w : Nat)

/-- The builder holds the values of the draft. -/
structure DraftOf (b : Builder) (d : Draft) : Prop where
  chainId : Option.Rel (fun (x : ChainId) (n : Nat) => Denotes w x n) b.chainId d.chainId
  nonce : Option.Rel (fun (x : EoaNonce) (n : Nat) => x.value.toNat = n ∧ n < 2 ^ 64 - 1) b.nonce d.nonce
  gasPrice : Option.Rel (fun (x : Wei) (n : Nat) => Denotes w x n) b.gasPrice d.gasPrice
  maxPriorityFee : Option.Rel (fun (x : Wei) (n : Nat) => Denotes w x n) b.maxPriorityFeePerGas d.maxPriorityFee
  maxFee : Option.Rel (fun (x : Wei) (n : Nat) => Denotes w x n) b.maxFeePerGas d.maxFee
  gasLimit : b.gasLimit.map UInt64.toNat = d.gasLimit
  recipient : b.destination.map Address.data = d.recipient
  amount : Option.Rel (fun (x : Wei) (n : Nat) => Denotes w x n) b.amount d.amount
  data : b.data = d.data
  accessList : b.accessList.map accesses = d.accessList

def PayloadOf : AnyPayload → Payload → Prop
  | .legacy p, .legacy t => LegacyOf w p t
  | .eip155 p, .eip155 t => Eip155Of w p t
  | .eip2930 p, .eip2930 t => Eip2930Of w p t
  | .eip1559 p, .eip1559 t => Eip1559Of w p t
  | _, _ => False

def SignedOf : AnyTransaction → Signed → Prop
  | .legacy x, .legacy t v r s => LegacyOf w x.payload t ∧ x.v.toNat = v ∧ Denotes w x.r r ∧ Denotes w x.s s
  | .eip155 x, .eip155 t v r s => Eip155Of w x.payload t ∧ Denotes w x.v v ∧ Denotes w x.r r ∧ Denotes w x.s s
  | .eip2930 x, .eip2930 t y r s => Eip2930Of w x.payload t ∧ x.yParity.toU8.toNat = y ∧ Denotes w x.r r ∧ Denotes w x.s s
  | .eip1559 x, .eip1559 t y r s => Eip1559Of w x.payload t ∧ x.yParity.toU8.toNat = y ∧ Denotes w x.r r ∧ Denotes w x.s s
  | _, _ => False

/-- The library's objects stand for what the client holds. -/
structure WalletMatches (cp : Params) (xs : WalletObjects) (x : Wallet) : Prop where
  keys : KeyMatches w cp Secp256k1.n xs.keys x.keys
  drafts : List.Forall₂ (DraftOf w) xs.drafts x.drafts
  payloads : List.Forall₂ (PayloadOf w) xs.payloads x.payloads
  transactions : List.Forall₂ (SignedOf w) xs.transactions x.transactions

end

theorem set_all {α β : Type} {R : α → β → Prop} {xs : List α} {s : List β} (h : List.Forall₂ R xs s) {x : α} {a : β} (hx : R x a) (i : Nat) :
    List.Forall₂ R (xs.set i x) (s.set i a) := by
  induction h generalizing i with
  | nil => exact .nil
  | cons h1 h2 ih =>
    cases i with
    | zero => exact .cons hx h2
    | succ i => exact .cons h1 (ih i)

/-! ## Parts -/

section Parts
variable (m : Build) {w : Nat} [hw : DigitWidth w]

theorem wei_wf {k : Nat} (hk : 1 ≤ k) (t : List UInt8) : (∃ x, Wei.tryFromStr m (8 * k) t = .ok x ∧ WF (8 * k) x) ∨
    ∃ e, Wei.tryFromStr m (8 * k) t = .err e := by
  by_cases hx : ∃ u, t = 48 :: 120 :: u
  · obtain ⟨u, rfl⟩ := hx
    simp only [Wei.tryFromStr, BUint.tryFromStr, BUint.fromHex]
    rcases fromHex_wf hk u with ⟨x, e, hx⟩ | ⟨e', e⟩
    · rw [e, bind_ok]
      split
      · exact .inr ⟨_, rfl⟩
      · exact .inl ⟨_, rfl, hx⟩
    · rw [e]; exact .inr ⟨_, rfl⟩
  · have e : Wei.tryFromStr m (8 * k) t = BInt.fromStrRadix m (8 * k) t 10 := by
      rw [Wei.tryFromStr, BUint.tryFromStr, BUint.fromStrRadix]
      intro rest h
      exact absurd ⟨rest, h⟩ hx
    rw [e]
    rcases fromStrRadix_wf m hk t 10 (by decide) (by decide) with ⟨x, e, hx⟩ | e
    · exact .inl ⟨x, e, hx⟩
    · exact .inr ⟨_, e⟩

/-- A text as an amount. -/
theorem wei_parse (t : List UInt8) (hpos : ∀ z, WeiText t z → 0 ≤ z) :
    (∃ (n : Nat) (x : Wei), Wei.tryFromStr m w t = .ok x ∧ Denotes w x n ∧ WeiText t n) ∨
    (∃ e, Wei.tryFromStr m w t = .err e) ∧ ∀ z, ¬ WeiText t z := by
  obtain ⟨k, hk, rfl⟩ := hw.bytes
  have hacc := C58_accepts_iff m k hk t
  rcases wei_wf m hk t with ⟨x, e, hx⟩ | ⟨e', e⟩
  · have hz := (hacc _).mp ⟨x, e, hx, rfl⟩
    obtain ⟨n, hn⟩ : ∃ n : Nat, toInt (8 * k) x = n := ⟨_, (Int.toNat_of_nonneg (hpos _ hz)).symm⟩
    exact .inl ⟨n, x, e, ⟨hx, hn⟩, hn ▸ hz⟩
  · refine .inr ⟨⟨e', e⟩, fun z hz => ?_⟩
    obtain ⟨x, e2, -⟩ := (hacc z).mpr hz
    rw [e] at e2
    cases e2

/-- A text as an address. -/
theorem address_parse (t : List UInt8) :
    (∃ a, Address.tryFromStr t = .ok a ∧ AddressText t a.data) ∨ Address.tryFromStr t = .err .InvalidInput ∧ ∀ a, ¬ AddressText t a := by
  rcases C39_address_parse_total t with ⟨a, e⟩ | e
  · exact .inl ⟨a, e, a.len, (C39_address_parse_iff t a).mp e⟩
  · refine .inr ⟨e, fun a ⟨hl, ha⟩ => ?_⟩
    have := (C39_address_parse_iff t ⟨a, hl⟩).mpr ha
    rw [e] at this
    cases this

/-- Taking a payload from a builder. -/
theorem build_any {b : Builder} {d : Draft} (h : DraftOf w b d) (k : Kind) :
    (∃ P p b', (buildAny b k : Out Unit _) = .ok (some p, b') ∧ d.payload k = some P ∧ PayloadOf w p P ∧ DraftOf w b' (d.rest k)) ∨
    (buildAny b k : Out Unit _) = .ok (none, b) ∧ d.payload k = none := by
  obtain ⟨h1, h2, h3, h4, h5, hg, hr, h6, hd, ha⟩ := h
  obtain ⟨b1, b2, b3, b4, b5, g, r, b6, dt, al⟩ := b
  obtain ⟨d1, d2, d3, d4, d5, dg, dr, d6, dd, da⟩ := d
  simp only at h1 h2 h3 h4 h5 hg hr h6 hd ha
  subst hg hr hd ha
  cases k with
  | legacy =>
    cases h2 with
    | none => exact .inr ⟨by simp [buildAny, Builder.takeAndBuildLegacy, Except.toOption], by simp [Draft.payload]⟩
    | some h2 =>
    cases h3 with
    | none => exact .inr ⟨by simp [buildAny, Builder.takeAndBuildLegacy, Except.toOption], by simp [Draft.payload]⟩
    | some h3 =>
    cases g with
    | none => exact .inr ⟨by simp [buildAny, Builder.takeAndBuildLegacy, Except.toOption], by simp [Draft.payload]⟩
    | some g =>
    cases r with
    | none => exact .inr ⟨by simp [buildAny, Builder.takeAndBuildLegacy, Except.toOption], by simp [Draft.payload]⟩
    | some r =>
    cases h6 with
    | none => exact .inr ⟨by simp [buildAny, Builder.takeAndBuildLegacy, Except.toOption], by simp [Draft.payload]⟩
    | some h6 =>
    exact .inl ⟨_, _, _, rfl, rfl, ⟨h2.1, h2.2, h3, rfl, rfl, h6, rfl⟩, ⟨h1, .none, .none, h4, h5, rfl, rfl, .none, rfl, rfl⟩⟩
  | eip155 =>
    cases h1 with
    | none => exact .inr ⟨by simp [buildAny, Builder.takeAndBuildEip155, Except.toOption], by simp [Draft.payload]⟩
    | some h1 =>
    cases h2 with
    | none => exact .inr ⟨by simp [buildAny, Builder.takeAndBuildEip155, Except.toOption], by simp [Draft.payload]⟩
    | some h2 =>
    cases h3 with
    | none => exact .inr ⟨by simp [buildAny, Builder.takeAndBuildEip155, Except.toOption], by simp [Draft.payload]⟩
    | some h3 =>
    cases g with
    | none => exact .inr ⟨by simp [buildAny, Builder.takeAndBuildEip155, Except.toOption], by simp [Draft.payload]⟩
    | some g =>
    cases r with
    | none => exact .inr ⟨by simp [buildAny, Builder.takeAndBuildEip155, Except.toOption], by simp [Draft.payload]⟩
    | some r =>
    cases h6 with
    | none => exact .inr ⟨by simp [buildAny, Builder.takeAndBuildEip155, Except.toOption], by simp [Draft.payload]⟩
    | some h6 =>
    exact .inl ⟨_, _, _, rfl, rfl, ⟨h1, h2.1, h2.2, h3, rfl, rfl, h6, rfl⟩, ⟨.none, .none, .none, h4, h5, rfl, rfl, .none, rfl, rfl⟩⟩
  | eip2930 =>
    cases h1 with
    | none => exact .inr ⟨by simp [buildAny, Builder.takeAndBuildEip2930, Except.toOption], by simp [Draft.payload]⟩
    | some h1 =>
    cases h2 with
    | none => exact .inr ⟨by simp [buildAny, Builder.takeAndBuildEip2930, Except.toOption], by simp [Draft.payload]⟩
    | some h2 =>
    cases h3 with
    | none => exact .inr ⟨by simp [buildAny, Builder.takeAndBuildEip2930, Except.toOption], by simp [Draft.payload]⟩
    | some h3 =>
    cases g with
    | none => exact .inr ⟨by simp [buildAny, Builder.takeAndBuildEip2930, Except.toOption], by simp [Draft.payload]⟩
    | some g =>
    cases r with
    | none => exact .inr ⟨by simp [buildAny, Builder.takeAndBuildEip2930, Except.toOption], by simp [Draft.payload]⟩
    | some r =>
    cases h6 with
    | none => exact .inr ⟨by simp [buildAny, Builder.takeAndBuildEip2930, Except.toOption], by simp [Draft.payload]⟩
    | some h6 =>
    exact .inl ⟨_, _, _, rfl, rfl, ⟨h1, h2.1, h2.2, h3, rfl, rfl, h6, rfl, by cases al <;> rfl⟩, ⟨.none, .none, .none, h4, h5, rfl, rfl, .none, rfl, rfl⟩⟩
  | eip1559 =>
    cases h1 with
    | none => exact .inr ⟨by simp [buildAny, Builder.takeAndBuildEip1559, Except.toOption], by simp [Draft.payload]⟩
    | some h1 =>
    cases h2 with
    | none => exact .inr ⟨by simp [buildAny, Builder.takeAndBuildEip1559, Except.toOption], by simp [Draft.payload]⟩
    | some h2 =>
    cases h4 with
    | none => exact .inr ⟨by simp [buildAny, Builder.takeAndBuildEip1559, Except.toOption], by simp [Draft.payload]⟩
    | some h4 =>
    cases h5 with
    | none => exact .inr ⟨by simp [buildAny, Builder.takeAndBuildEip1559, Except.toOption], by simp [Draft.payload]⟩
    | some h5 =>
    cases g with
    | none => exact .inr ⟨by simp [buildAny, Builder.takeAndBuildEip1559, Except.toOption], by simp [Draft.payload]⟩
    | some g =>
    cases r with
    | none => exact .inr ⟨by simp [buildAny, Builder.takeAndBuildEip1559, Except.toOption], by simp [Draft.payload]⟩
    | some r =>
    cases h6 with
    | none => exact .inr ⟨by simp [buildAny, Builder.takeAndBuildEip1559, Except.toOption], by simp [Draft.payload]⟩
    | some h6 =>
    exact .inl ⟨_, _, _, rfl, rfl, ⟨h1, h2.1, h2.2, h4, h5, rfl, rfl, h6, rfl, by cases al <;> rfl⟩, ⟨.none, .none, h3, .none, .none, rfl, rfl, .none, rfl, rfl⟩⟩

theorem parity_eq (id : RecoveryId) : id.yParity.toU8.toNat = if idOdd id then 1 else 0 := by cases id <;> rfl

/-- Signing a payload. -/
theorem sign_any (d : Nat) (hd0 : 0 < d) (hdn : d < Secp256k1.n) (key : PrivateKey) (hkey : (secp256k1 w : Out Unit _) = .ok key.params)
    (hd : Denotes w key.data d) (o : SigningOptions) (rand : Nat → Out RandomError (List UInt8))
    (hrand : ∀ i bytes, rand i = .ok bytes → bytes.length = 32) (hpanic : ∀ i, rand i ≠ .panic) (f nf : Nat) (p : AnyPayload) (P : Payload)
    (hp : PayloadOf w p P) (hl : P.preimage.length < 2 ^ 64) :
    match signDefault m w f nf rand (Sha3.keccak256 P.preimage) key o with
    | .ok (sig, id) => ∀ r s : Nat, Denotes w sig.r r → Denotes w sig.s s →
        ∃ t, p.sign m w f nf rand key o = .ok t ∧ SignedOf w t (P.signed (if idOdd id then 1 else 0) r s)
    | .err e => p.sign m w f nf rand key o = .err (.SigningError e)
    | .hang => p.sign m w f nf rand key o = .hang
    | .panic => False := by
  cases p <;> cases P <;> first | exact hp.elim | skip
  case legacy.legacy p t =>
    have h := C43_legacy_outcome m w d hd0 hdn key hkey hd o rand hrand f nf p t hp hl hpanic
    cases hs : signDefault m w f nf rand (Sha3.keccak256 (Payload.legacy t).preimage) key o with
    | ok v =>
      obtain ⟨sig, id⟩ := v
      rw [hs] at h
      intro r s hr hs
      obtain ⟨y, e, a1, a2, a3, a5⟩ := h
      refine ⟨.legacy y, by simp only [AnyPayload.sign, e]; rfl, a1 ▸ hp, by rw [a5, parity_eq], a2 ▸ hr, a3 ▸ hs⟩
    | err e => rw [hs] at h; simp only [AnyPayload.sign, h]; rfl
    | hang => rw [hs] at h; simp only [AnyPayload.sign, h]; rfl
    | panic => rw [hs] at h; exact h
  case eip155.eip155 p t =>
    have h := C43_eip155_outcome m w d hd0 hdn key hkey hd o rand hrand f nf p t hp hl hpanic
    cases hs : signDefault m w f nf rand (Sha3.keccak256 (Payload.eip155 t).preimage) key o with
    | ok v =>
      obtain ⟨sig, id⟩ := v
      rw [hs] at h
      intro r s hr hs
      obtain ⟨y, e, a1, a2, a3, a5⟩ := h
      refine ⟨.eip155 y, by simp only [AnyPayload.sign, e]; rfl, a1 ▸ hp, by rw [← parity_eq]; exact a5, a2 ▸ hr, a3 ▸ hs⟩
    | err e => rw [hs] at h; simp only [AnyPayload.sign, h]; rfl
    | hang => rw [hs] at h; simp only [AnyPayload.sign, h]; rfl
    | panic => rw [hs] at h; exact h
  case eip2930.eip2930 p t =>
    have h := C43_eip2930_outcome m w d hd0 hdn key hkey hd o rand hrand f nf p t hp hl hpanic
    cases hs : signDefault m w f nf rand (Sha3.keccak256 (Payload.eip2930 t).preimage) key o with
    | ok v =>
      obtain ⟨sig, id⟩ := v
      rw [hs] at h
      intro r s hr hs
      obtain ⟨y, e, a1, a2, a3, a5⟩ := h
      refine ⟨.eip2930 y, by simp only [AnyPayload.sign, e]; rfl, a1 ▸ hp, by rw [a5, parity_eq], a2 ▸ hr, a3 ▸ hs⟩
    | err e => rw [hs] at h; simp only [AnyPayload.sign, h]; rfl
    | hang => rw [hs] at h; simp only [AnyPayload.sign, h]; rfl
    | panic => rw [hs] at h; exact h
  case eip1559.eip1559 p t =>
    have h := C43_eip1559_outcome m w d hd0 hdn key hkey hd o rand hrand f nf p t hp hl hpanic
    cases hs : signDefault m w f nf rand (Sha3.keccak256 (Payload.eip1559 t).preimage) key o with
    | ok v =>
      obtain ⟨sig, id⟩ := v
      rw [hs] at h
      intro r s hr hs
      obtain ⟨y, e, a1, a2, a3, a5⟩ := h
      refine ⟨.eip1559 y, by simp only [AnyPayload.sign, e]; rfl, a1 ▸ hp, by rw [a5, parity_eq], a2 ▸ hr, a3 ▸ hs⟩
    | err e => rw [hs] at h; simp only [AnyPayload.sign, h]; rfl
    | hang => rw [hs] at h; simp only [AnyPayload.sign, h]; rfl
    | panic => rw [hs] at h; exact h

/-- Encoding a transaction. -/
theorem encode_any {t : AnyTransaction} {T : Signed} (h : SignedOf w t T) (hl : T.wire.length < 2 ^ 64) :
    (t.encode m w : Out Unit _) = .ok T.wire := by
  cases t <;> cases T <;> first | exact h.elim | skip
  case legacy.legacy x t v r s =>
    obtain ⟨h1, rfl, h3, h4⟩ := h
    exact (C40_round_trip m w x t r s h1 h3 h4 hl).1
  case eip155.eip155 x t v r s =>
    obtain ⟨h1, h2, h3, h4⟩ := h
    exact encodeM_eq (eip155_enc m h1 h2 h3 h4) hl
  case eip2930.eip2930 x t y r s =>
    obtain ⟨h1, rfl, h3, h4⟩ := h
    exact (C42_eip2930 m w x t r s h1 h3 h4 (by simp only [Signed.wire, List.length_cons] at hl; omega)).1
  case eip1559.eip1559 x t y r s =>
    obtain ⟨h1, rfl, h3, h4⟩ := h
    exact (C42_eip1559 m w x t r s h1 h3 h4 (by simp only [Signed.wire, List.length_cons] at hl; omega)).1

/-- Printing a transaction. -/
theorem display_any {t : AnyTransaction} {T : Signed} (h : SignedOf w t T) : (t.display m w : Out Unit _) = .ok T.text := by
  cases t <;> cases T <;> first | exact h.elim | skip
  case legacy.legacy x t v r s =>
    obtain ⟨h1, rfl, h3, h4⟩ := h
    exact C60_legacy m w x t r s h1 h3 h4
  case eip155.eip155 x t v r s =>
    obtain ⟨h1, h2, h3, h4⟩ := h
    exact C60_eip155 m w x t v r s h1 h2 h3 h4
  case eip2930.eip2930 x t y r s =>
    obtain ⟨h1, rfl, h3, h4⟩ := h
    exact C60_eip2930 m w x t r s h1 h3 h4
  case eip1559.eip1559 x t y r s =>
    obtain ⟨h1, rfl, h3, h4⟩ := h
    exact C60_eip1559 m w x t r s h1 h3 h4

/-- Decoding a byte string. -/
theorem decode_any (data : List UInt8) (hl : data.length < 2 ^ 64) (k : Kind) :
    (∃ t T, decodeAny m w data k = .ok t ∧ SignedOf w t T ∧ ReadAs data k T) ∨
    (decodeAny m w data k = .err .TransactionTypeMismatch ∧ OtherType data k) ∨
    (decodeAny m w data k = .err .InvalidFormat ∧ (∀ T, ¬ ReadAs data k T) ∧ ¬ OtherType data k ∧ ¬ Chokes m data k) ∨
    (decodeAny m w data k = .panic ∧ Chokes m data k) := by
  obtain ⟨n1, n2, n3, n4⟩ := C56_terminates m w data
  obtain ⟨u1, u2⟩ := C56_untyped_panics_iff m w data hl
  obtain ⟨u3, u4⟩ := C56_typed_panics_iff m w data hl
  cases k with
  | legacy =>
    cases hr : decode m (decTransactionLegacy m w) data with
    | ok x =>
      obtain ⟨t, r, s, a1, a2, a3⟩ := C57_legacy_meaning m w data hl x hr
      exact .inl ⟨.legacy x, .legacy t x.v.toNat r s, by simp only [decodeAny, hr]; rfl, ⟨a1, rfl, a2, a3⟩,
        (C57_legacy_iff m w data hl t _ r s).mp ⟨x, hr, a1, rfl, a2, a3⟩⟩
    | err e =>
      cases e with
      | TransactionTypeMismatch =>
        exact absurd hr (decode_nm m (legacy_nm m) data)
      | InvalidFormat =>
        refine .inr (.inr (.inl ⟨by simp only [decodeAny, hr]; rfl, fun T hT => ?_, nofun, fun h => by
          rw [u1.mpr h] at hr
          cases hr⟩))
        cases T <;> first | exact hT.elim | skip
        obtain ⟨x, e, -⟩ := (C57_legacy_iff m w data hl _ _ _ _).mpr hT
        rw [hr] at e
        cases e
    | panic => exact .inr (.inr (.inr ⟨by simp only [decodeAny, hr]; rfl, u1.mp hr⟩))
    | hang => exact absurd hr n1
  | eip155 =>
    cases hr : decode m (decTransactionEip155 m w) data with
    | ok x =>
      obtain ⟨t, v, r, s, a1, a2, a3, a4⟩ := C57_eip155_meaning m w data hl x hr
      exact .inl ⟨.eip155 x, .eip155 t v r s, by simp only [decodeAny, hr]; rfl, ⟨a1, a2, a3, a4⟩,
        (C57_eip155_iff m w data hl t v r s).mp ⟨x, hr, a1, a2, a3, a4⟩⟩
    | err e =>
      cases e with
      | TransactionTypeMismatch =>
        refine .inr (.inl ⟨by simp only [decodeAny, hr]; rfl, rfl, (C46_mismatch_iff m w data hl).mp hr⟩)
      | InvalidFormat =>
        refine .inr (.inr (.inl ⟨by simp only [decodeAny, hr]; rfl, fun T hT => ?_, (fun ⟨_, h⟩ => by
          have := (C46_mismatch_iff m w data hl).mpr h
          rw [hr] at this
          cases this), fun h => by
          rw [u2.mpr h] at hr
          cases hr⟩))
        cases T <;> first | exact hT.elim | skip
        obtain ⟨x, e, -⟩ := (C57_eip155_iff m w data hl _ _ _ _).mpr hT
        rw [hr] at e
        cases e
    | panic => exact .inr (.inr (.inr ⟨by simp only [decodeAny, hr]; rfl, u2.mp hr⟩))
    | hang => exact absurd hr n2
  | eip2930 =>
    cases hr : decode m (decTransactionEip2930 m w) data with
    | ok x =>
      obtain ⟨t, r, s, a1, a2, a3⟩ := C57_eip2930_meaning m w data hl x hr
      exact .inl ⟨.eip2930 x, .eip2930 t x.yParity.toU8.toNat r s, by simp only [decodeAny, hr]; rfl, ⟨a1, rfl, a2, a3⟩,
        (C57_eip2930_iff m w data hl t _ r s).mp ⟨x, hr, a1, rfl, a2, a3⟩⟩
    | err e =>
      cases e with
      | TransactionTypeMismatch =>
        exact absurd hr (decode_nm m (eip2930_nm m) data)
      | InvalidFormat =>
        refine .inr (.inr (.inl ⟨by simp only [decodeAny, hr]; rfl, fun T hT => ?_, nofun, fun h => by
          rw [u3.mpr h] at hr
          cases hr⟩))
        cases T <;> first | exact hT.elim | skip
        obtain ⟨x, e, -⟩ := (C57_eip2930_iff m w data hl _ _ _ _).mpr hT
        rw [hr] at e
        cases e
    | panic => exact .inr (.inr (.inr ⟨by simp only [decodeAny, hr]; rfl, u3.mp hr⟩))
    | hang => exact absurd hr n3
  | eip1559 =>
    cases hr : decode m (decTransactionEip1559 m w) data with
    | ok x =>
      obtain ⟨t, r, s, a1, a2, a3⟩ := C57_eip1559_meaning m w data hl x hr
      exact .inl ⟨.eip1559 x, .eip1559 t x.yParity.toU8.toNat r s, by simp only [decodeAny, hr]; rfl, ⟨a1, rfl, a2, a3⟩,
        (C57_eip1559_iff m w data hl t _ r s).mp ⟨x, hr, a1, rfl, a2, a3⟩⟩
    | err e =>
      cases e with
      | TransactionTypeMismatch =>
        exact absurd hr (decode_nm m (eip1559_nm m) data)
      | InvalidFormat =>
        refine .inr (.inr (.inl ⟨by simp only [decodeAny, hr]; rfl, fun T hT => ?_, nofun, fun h => by
          rw [u4.mpr h] at hr
          cases hr⟩))
        cases T <;> first | exact hT.elim | skip
        obtain ⟨x, e, -⟩ := (C57_eip1559_iff m w data hl _ _ _ _).mpr hT
        rw [hr] at e
        cases e
    | panic => exact .inr (.inr (.inr ⟨by simp only [decodeAny, hr]; rfl, u4.mp hr⟩))
    | hang => exact absurd hr n4

end Parts

/-- A signing call adds its signature to those held. -/
theorem last_signature {w : Nat} {cp : Params} {xs : Objects} {sig : Signature} {x ks' : Holds Secp256k1.p 0 7} {rand : Nat → Out RandomError (List UInt8)}
    {i : Nat} {hash : List UInt8} {o : SigningOptions} {id : RecoveryId}
    (hm : KeyMatches w cp Secp256k1.n { xs with signatures := xs.signatures ++ [sig] } ks')
    (hi : EthKeyIdeal rand x (.sign i hash o) (.some (.signed id, ks'))) :
    ∃ rs : Nat × Nat, ks'.signatures = x.signatures ++ [rs] ∧ Denotes w sig.r rs.1 ∧ Denotes w sig.s rs.2 := by
  have hf := hm.signatures
  cases hi with
  | sign hd' hco hbad hnon hus hid =>
    refine ⟨_, rfl, ?_⟩
    have hr := List.forall₂_reverse_iff.mpr hf
    simp only [List.reverse_append, List.reverse_cons, List.reverse_nil, List.nil_append, List.cons_append] at hr
    cases hr with
    | cons h1 _ => exact ⟨h1.2.1, h1.2.2.1⟩

/-- More fuel does not change what signing a payload returns. -/
theorem sign_any_upto (m : Build) (w : Nat) {f f' nf nf' : Nat} (h1 : f ≤ f') (h2 : nf ≤ nf') (rand : Nat → Out RandomError (List UInt8))
    (key : PrivateKey) (o : SigningOptions) (p : AnyPayload) : Upto (p.sign m w f nf rand key o) (p.sign m w f' nf' rand key o) := by
  have hs := fun hash => sign_upto m w Sha2.Sha256 h1 h2 Sha2.Sha256.fresh rand hash key o
  cases p <;> refine Upto.bind ?_ fun _ => .refl _
  · exact (Upto.refl _).bind fun _ => (Upto.refl _).bind fun _ => (hs _).mapErr.bind fun _ => .refl _
  · exact (Upto.refl _).bind fun _ => (Upto.refl _).bind fun _ => (hs _).mapErr.bind fun _ => .refl _
  · exact (Upto.refl _).bind fun _ => (Upto.refl _).bind fun _ => (hs _).mapErr.bind fun _ => .refl _
  · exact (Upto.refl _).bind fun _ => (Upto.refl _).bind fun _ => (hs _).mapErr.bind fun _ => .refl _

/-! ## Clients -/

section Clients
variable (m : Build) (w : Nat) [hw : DigitWidth w] (cp : Params) (hcp : (secp256k1 w : Out Unit _) = .ok cp) (f nf : Nat)

/-- A signing call. -/
def WalletRequest.Signs : WalletRequest → Prop
  | .key (.sign _ _ _) | .sign _ _ _ => True
  | _ => False

/-- A call was answered as the standards do; only signing may go on for longer than the fuel. -/
def WalletFaithful (rand : Nat → Out RandomError (List UInt8)) (x : Wallet) (q : WalletRequest) (res : Out Unit (WalletReply × WalletObjects)) : Prop :=
  (∃ r xs' x', res = .ok (r, xs') ∧ WalletIdeal m rand x q (some (r, x')) ∧ WalletMatches w cp xs' x') ∨
  (res = .panic ∧ WalletIdeal m rand x q none) ∨ (res = .hang ∧ WalletRequest.Signs q)

include hcp

/-- The calls of `Spec/KeyClient` on secp256k1. -/
theorem eth_key_call (rand : Nat → Out RandomError (List UInt8)) (hrand : ∀ i, rand i ≠ .panic)
    (hlen : ∀ i bytes, rand i = .ok bytes → bytes.length = 32) (xs : Objects) (x : Holds Secp256k1.p 0 7)
    (hx : KeyMatches w cp Secp256k1.n xs x) (q : KeyRequest) (hq : q.Proper x) :
    Faithful w cp Secp256k1.p Secp256k1.n 0 7 LCT.Secp256k1.G Sha2.Sha256 Sha2.sha256 rand x q
      (keyAnswer m w Sha2.Sha256 f nf Sha2.Sha256.fresh cp rand xs q) := by
  obtain ⟨cp', e, hD, hcof⟩ := secp256k1_y (ε := Unit) w
  rw [hcp] at e
  injection e with e
  subst e
  refine C88_call m w cp Secp256k1.p Secp256k1.n 0 7 LCT.Secp256k1.G hD hcof (by decide +kernel) (by rw [bitLength_n])
    Sha2.Sha256 Sha2.sha256 (2 ^ 61) Hash.Sha2.computes256 (by decide) (by decide) f nf _ rand hrand ?_ ?_ xs x hx q hq
  · intro i bytes hb
    rw [bitLength_n, hlen i bytes hb]
    decide
  · rw [bitLength_n]
    decide

theorem eth_sign_returns (rand : Nat → Out RandomError (List UInt8)) (hlen : ∀ i bytes, rand i = .ok bytes → bytes.length = 32) (xs : Objects)
    (x : Holds Secp256k1.p 0 7) (hx : KeyMatches w cp Secp256k1.n xs x) (i : Nat) (hash : List UInt8) (o : SigningOptions)
    (hprop : (KeyRequest.sign i hash o).Proper x) (an : Option (KeyReply × Holds Secp256k1.p 0 7)) (han : EthKeyIdeal rand x (.sign i hash o) an) :
    ∃ f1, ∀ f nf, f1 ≤ f → f1 ≤ nf → keyAnswer m w Sha2.Sha256 f nf Sha2.Sha256.fresh cp rand xs (.sign i hash o) ≠ .hang := by
  obtain ⟨cp', e, hD, hcof⟩ := secp256k1_y (ε := Unit) w
  rw [hcp] at e
  injection e with e
  subst e
  refine sign_returns m w cp Secp256k1.p Secp256k1.n 0 7 LCT.Secp256k1.G hD hcof (by decide +kernel) (by rw [bitLength_n])
    Sha2.Sha256 Sha2.sha256 (2 ^ 61) Hash.Sha2.computes256 (by decide) (by decide) _ rand ?_ ?_ xs x hx i hash o hprop an han
  · intro i bytes hb
    rw [bitLength_n, hlen i bytes hb]
    decide
  · rw [bitLength_n]
    decide

/-- One call. -/
theorem C90_call (rand : Nat → Out RandomError (List UInt8)) (hrand : ∀ i, rand i ≠ .panic)
    (hlen : ∀ i bytes, rand i = .ok bytes → bytes.length = 32) (xs : WalletObjects) (x : Wallet)
    (hx : WalletMatches w cp xs x) (q : WalletRequest) (hq : q.Proper x) :
    WalletFaithful m w cp rand x q (walletAnswer m w f nf cp rand xs q) := by
  obtain ⟨hk, hdr, hpl, htx⟩ := hx
  cases q with
  | key q =>
    rcases eth_key_call m w cp hcp f nf rand hrand hlen xs.keys x.keys hk q hq with ⟨r, ks, ks', e, hi, hm⟩ | ⟨e, hi⟩ | ⟨e, i, hash, o, rfl⟩
    · refine .inl ⟨_, { xs with keys := ks }, _, ?_, .key hi, ⟨hm, hdr, hpl, htx⟩⟩
      simp only [walletAnswer, e]
      rfl
    · refine .inr (.inl ⟨?_, .keyPanic hi⟩)
      simp only [walletAnswer, e]
      rfl
    · refine .inr (.inr ⟨?_, trivial⟩)
      simp only [walletAnswer, e]
      rfl
  | secret data len =>
    obtain ⟨k, e, hs, hkey⟩ := C47_private_key (ε := Unit) m w data len
    cases k with
    | none =>
      refine .inl ⟨_, _, _, ?_, .noSecret ?_, ⟨hk, hdr, hpl, htx⟩⟩
      · simp only [walletAnswer, e]
        rfl
      · have : ¬ (0 < ofBE data ∧ ofBE data < Secp256k1.n) := fun h => by simpa using hs.mpr h
        omega
    | some key =>
      obtain ⟨h0, hn⟩ := hs.mp rfl
      obtain ⟨hd, hc⟩ := hkey key rfl
      have hpar : key.params = cp := by
        rw [hcp] at hc
        injection hc with hc
        exact hc.symm
      refine .inl ⟨_, { xs with keys := { xs.keys with secrets := xs.keys.secrets ++ [key] } }, _, ?_, .secret h0 hn,
        ⟨⟨hk.numbers, append_all hk.secrets (.cons ⟨hpar, hd, h0, hn⟩ .nil), hk.keys, hk.signatures⟩, hdr, hpl, htx⟩⟩
      simp only [walletAnswer, e]
      rfl
  | address q =>
    obtain ⟨pk, Q, e1, e2, hpar, hQ, hQ0⟩ := at_all hk.keys hq
    obtain ⟨cp', e, hD, hcof⟩ := secp256k1_y (ε := Unit) w
    rw [hcp] at e
    injection e with e
    subst e
    obtain ⟨hX, hY⟩ := point_x hQ
    obtain ⟨hlx, hly⟩ := coord_lt Q
    have h32 : Secp256k1.p < 256 ^ 32 := by decide +kernel
    obtain ⟨a, e3, ha⟩ := address_y (ε := Unit) m (pk := pk) (by rw [hpar]; exact hD.order) bitLength_n hX hY (by omega) (by omega)
    refine .inl ⟨_, _, _, ?_, .address e2, ⟨hk, hdr, hpl, htx⟩⟩
    simp only [walletAnswer, e1, unwrap, Out.bind_ok, e3, address_display, ha]
    rfl
  | draft =>
    exact .inl ⟨_, { xs with drafts := xs.drafts ++ [Builder.new] }, _, rfl, .draft, ⟨hk, append_all hdr (.cons ⟨.none, .none, .none, .none, .none, rfl, rfl, .none, rfl, rfl⟩ .nil),
      hpl, htx⟩⟩
  | setChainId d n =>
    obtain ⟨b, dr, e1, e2, hb⟩ := at_all hdr hq
    obtain ⟨c, e3, hc⟩ := ofNat_u (ε := Unit) (w := w) (show n.toNat < 2 ^ 128 by have := n.toNat_lt; omega)
    refine .inl ⟨_, { xs with drafts := xs.drafts.set d (b.withChainId c) }, _, ?_, .setChainId e2,
      ⟨hk, set_all hdr ?_ d, hpl, htx⟩⟩
    · simp only [walletAnswer, e1, unwrap, Out.bind_ok, ChainId.fromU64, e3]
      rfl
    · exact { hb with chainId := .some hc }
  | setNonce d n =>
    obtain ⟨b, dr, e1, e2, hb⟩ := at_all hdr hq
    by_cases hn : n = 0xffffffffffffffff
    · refine .inl ⟨_, _, _, ?_, .noNonce e2 (by rw [hn]; decide), ⟨hk, hdr, hpl, htx⟩⟩
      simp only [walletAnswer, e1, unwrap, Out.bind_ok, EoaNonce.fromU64, if_pos hn]
      rfl
    · have hlt : n.toNat < 2 ^ 64 - 1 := by
        have h1 := n.toNat_lt
        have h2 : n.toNat ≠ 2 ^ 64 - 1 := fun h => hn (UInt64.toNat_inj.mp (by rw [h]; rfl))
        omega
      refine .inl ⟨_, { xs with drafts := xs.drafts.set d (b.withNonce ⟨n⟩) }, _, ?_, .setNonce e2 hlt,
        ⟨hk, set_all hdr ?_ d, hpl, htx⟩⟩
      · simp only [walletAnswer, e1, unwrap, Out.bind_ok, EoaNonce.fromU64, if_neg hn]
        rfl
      · exact { hb with nonce := .some ⟨rfl, hlt⟩ }
  | setWei d f t =>
    obtain ⟨b, dr, e1, e2, hb⟩ := at_all hdr hq.1
    rcases wei_parse m (w := w) t hq.2 with ⟨n, y, e3, hy, ht⟩ | ⟨⟨er, e3⟩, ht⟩
    · refine .inl ⟨_, { xs with drafts := xs.drafts.set d (withWei b y f) }, _, ?_, .setWei e2 ht, ⟨hk, set_all hdr ?_ d, hpl, htx⟩⟩
      · simp only [walletAnswer, e1, unwrap, Out.bind_ok, e3]
        rfl
      · cases f with
        | gasPrice => exact { hb with gasPrice := .some hy }
        | maxPriorityFee => exact { hb with maxPriorityFee := .some hy }
        | maxFee => exact { hb with maxFee := .some hy }
        | amount => exact { hb with amount := .some hy }
    · refine .inl ⟨_, _, _, ?_, .noWei e2 ht, ⟨hk, hdr, hpl, htx⟩⟩
      simp only [walletAnswer, e1, unwrap, Out.bind_ok, e3]
      rfl
  | setGasLimit d n =>
    obtain ⟨b, dr, e1, e2, hb⟩ := at_all hdr hq
    refine .inl ⟨_, { xs with drafts := xs.drafts.set d (b.withGasLimit n) }, _, ?_, .setGasLimit e2,
      ⟨hk, set_all hdr ?_ d, hpl, htx⟩⟩
    · simp only [walletAnswer, e1, unwrap, Out.bind_ok]
      rfl
    · exact { hb with gasLimit := rfl }
  | setDestination d t =>
    obtain ⟨b, dr, e1, e2, hb⟩ := at_all hdr hq
    rcases address_parse t with ⟨a, e3, ht⟩ | ⟨e3, ht⟩
    · refine .inl ⟨_, { xs with drafts := xs.drafts.set d (b.withDestination a) }, _, ?_, .setDestination e2 ht,
        ⟨hk, set_all hdr ?_ d, hpl, htx⟩⟩
      · simp only [walletAnswer, e1, unwrap, Out.bind_ok, e3]
        rfl
      · exact { hb with recipient := rfl }
    · refine .inl ⟨_, _, _, ?_, .noDestination e2 ht, ⟨hk, hdr, hpl, htx⟩⟩
      simp only [walletAnswer, e1, unwrap, Out.bind_ok, e3]
      rfl
  | setData d data =>
    obtain ⟨b, dr, e1, e2, hb⟩ := at_all hdr hq
    refine .inl ⟨_, { xs with drafts := xs.drafts.set d (b.withData data) }, _, ?_, .setData e2,
      ⟨hk, set_all hdr ?_ d, hpl, htx⟩⟩
    · simp only [walletAnswer, e1, unwrap, Out.bind_ok]
      rfl
    · exact { hb with data := rfl }
  | setAccessList d l =>
    obtain ⟨b, dr, e1, e2, hb⟩ := at_all hdr hq
    refine .inl ⟨_, { xs with drafts := xs.drafts.set d (b.withAccessList l) }, _, ?_, .setAccessList e2,
      ⟨hk, set_all hdr ?_ d, hpl, htx⟩⟩
    · simp only [walletAnswer, e1, unwrap, Out.bind_ok]
      rfl
    · exact { hb with accessList := rfl }
  | build d k =>
    obtain ⟨b, dr, e1, e2, hb⟩ := at_all hdr hq
    rcases build_any hb k with ⟨P, p, b', e3, hP, hp, hb'⟩ | ⟨e3, hP⟩
    · refine .inl ⟨_, { xs with drafts := xs.drafts.set d b', payloads := xs.payloads ++ [p] }, _, ?_, .build e2 hP,
        ⟨hk, set_all hdr hb' d, append_all hpl (.cons hp .nil), htx⟩⟩
      simp only [walletAnswer, e1, unwrap, Out.bind_ok, e3]
      rfl
    · refine .inl ⟨_, { xs with drafts := xs.drafts.set d b }, _, ?_, .missing e2 hP, ⟨hk, ?_, hpl, htx⟩⟩
      · simp only [walletAnswer, e1, unwrap, Out.bind_ok, e3]
        rfl
      · have hself : x.drafts.set d dr = x.drafts := by
          obtain ⟨hlt, rfl⟩ := List.getElem?_eq_some_iff.mp e2
          exact List.set_getElem_self hlt
        have := set_all hdr hb d
        rwa [hself] at this
  | sign p k o =>
    obtain ⟨hkl, P, eP, hPl⟩ := hq
    obtain ⟨y, P', e1, e2, hp⟩ := at_all hpl (List.getElem?_eq_some_iff.mp eP).1
    rw [eP] at e2
    cases e2
    obtain ⟨key, d, e3, e4, hpar, hd, hd0, hdn⟩ := at_all hk.secrets hkl
    have hs := sign_any m d hd0 hdn key (by rw [hpar]; exact hcp) hd o rand hlen hrand f nf y P hp hPl
    have hc := eth_key_call m w cp hcp f nf rand hrand hlen xs.keys x.keys hk (.sign k (Sha3.keccak256 P.preimage) o) hkl
    have ha : walletAnswer m w f nf cp rand xs (.sign p k o) = walletReply (y.sign m w f nf rand key o)
        (fun t => (.done, { xs with transactions := xs.transactions ++ [t] })) (fun e => (signingReply e, xs)) := by
      simp only [walletAnswer, e1, e3, unwrap, Out.bind_ok]
    have hka : keyAnswer m w Sha2.Sha256 f nf Sha2.Sha256.fresh cp rand xs.keys (.sign k (Sha3.keccak256 P.preimage) o) =
        reply (signDefault m w f nf rand (Sha3.keccak256 P.preimage) key o)
          (fun r => (.signed r.2, { xs.keys with signatures := xs.keys.signatures ++ [r.1] })) (fun e => (.notSigned e, xs.keys)) := by
      simp only [keyAnswer, e3, unwrap, Out.bind_ok]
      rfl
    rw [hka] at hc
    rw [ha]
    cases hr : signDefault m w f nf rand (Sha3.keccak256 P.preimage) key o with
    | ok v =>
      obtain ⟨sig, id⟩ := v
      rw [hr] at hs hc
      rcases hc with ⟨r, ks, ks', e, hi, hm⟩ | ⟨e, -⟩ | ⟨e, -⟩
      · cases e
        obtain ⟨rs, hrs, h1, h2⟩ := last_signature hm hi
        obtain ⟨t, et, ht⟩ := hs rs.1 rs.2 h1 h2
        refine .inl ⟨_, { xs with transactions := xs.transactions ++ [t] }, _, by rw [et]; rfl, .sign eP hi hrs,
          ⟨hk, hdr, hpl, append_all htx (.cons ht .nil)⟩⟩
      · cases e
      · cases e
    | err er =>
      rw [hr] at hs hc
      rcases hc with ⟨r, ks, ks', e, hi, hm⟩ | ⟨e, -⟩ | ⟨e, -⟩
      · cases e
        exact .inl ⟨_, _, _, by rw [hs]; rfl, .notSigned eP hi, ⟨hk, hdr, hpl, htx⟩⟩
      · cases e
      · cases e
    | hang =>
      rw [hr] at hs
      exact .inr (.inr ⟨by rw [hs]; rfl, trivial⟩)
    | panic =>
      rw [hr] at hs
      exact hs.elim
  | encode t =>
    obtain ⟨T, eT, hTl⟩ := hq
    obtain ⟨y, T', e1, e2, ht⟩ := at_all htx (List.getElem?_eq_some_iff.mp eT).1
    rw [eT] at e2
    cases e2
    refine .inl ⟨_, _, _, ?_, .encode eT, ⟨hk, hdr, hpl, htx⟩⟩
    simp only [walletAnswer, e1, unwrap, Out.bind_ok, encode_any m ht hTl]
    rfl
  | decode k data =>
    rcases decode_any m (w := w) data hq k with ⟨t, T, e, ht, hT⟩ | ⟨e, hT⟩ | ⟨e, h1, h2, h3⟩ | ⟨e, hT⟩
    · exact .inl ⟨_, { xs with transactions := xs.transactions ++ [t] }, _, by simp only [walletAnswer, e]; rfl, .decode hT,
        ⟨hk, hdr, hpl, append_all htx (.cons ht .nil)⟩⟩
    · exact .inl ⟨_, _, _, by simp only [walletAnswer, e]; rfl, .otherType hT, ⟨hk, hdr, hpl, htx⟩⟩
    · exact .inl ⟨_, _, _, by simp only [walletAnswer, e]; rfl, .malformed h1 h2 h3, ⟨hk, hdr, hpl, htx⟩⟩
    · exact .inr (.inl ⟨by simp only [walletAnswer, e]; rfl, .choke hT⟩)
  | «show» t =>
    obtain ⟨y, T, e1, e2, ht⟩ := at_all htx hq
    refine .inl ⟨_, _, _, ?_, .show e2, ⟨hk, hdr, hpl, htx⟩⟩
    simp only [walletAnswer, e1, unwrap, Out.bind_ok, display_any m ht]
    rfl

variable (env : Nat → Nat → Out RandomError (List UInt8)) (henv : ∀ i j, env i j ≠ .panic)
  (hlen : ∀ i j bytes, env i j = .ok bytes → bytes.length = 32) (c : WalletClient)
  (hfit : ∀ rs x, WalletRun m c env rs x → (c rs).Proper x)

include henv hlen hfit

/-- C90, for any number of calls of any client, on secp256k1 as built in; the operating system delivers 32 random bytes at a time, or an error: the
replies are replies that the standards give, and the objects stand for what they say; or the client panics, at a call where the specification says so;
or signing used up its fuel (see `C90_answered`).

Missing for the full property: the standards would not panic on byte strings (`C90_violated`) or public keys (C88); they would read EIP-155 chain ids
as they are written (C41), read no numbers and headers that are longer than need be (C37, C59) and no amounts with a digit `a` (C58); and nothing is
said about clients that make calls on which numbers deviate (C04, C08) or set a negative amount (C58). -/
theorem C90_client_partial (k : Nat) :
    (∃ rs xs x, walletSession m w f nf cp env c k = .ok (rs, xs) ∧ rs.length = k ∧ WalletRun m c env rs x ∧ WalletMatches w cp xs x) ∨
    (walletSession m w f nf cp env c k = .panic ∧ ∃ rs x, rs.length < k ∧ WalletRun m c env rs x ∧
      WalletIdeal m (env rs.length) x (c rs) none) ∨
    (walletSession m w f nf cp env c k = .hang ∧ ∃ rs x, rs.length < k ∧ WalletRun m c env rs x ∧ WalletRequest.Signs (c rs)) := by
  induction k with
  | zero => exact .inl ⟨[], _, _, rfl, rfl, .start, ⟨⟨.nil, .nil, .nil, .nil⟩, .nil, .nil, .nil⟩⟩
  | succ k ih =>
    rcases ih with ⟨rs, xs, x, e, hk, hrun, hm⟩ | ⟨e, rs, x, hk, hrun, hp⟩ | ⟨e, rs, x, hk, hrun, hp⟩
    · have hcall := C90_call m w cp hcp f nf (env rs.length) (henv _) (hlen _) xs x hm (c rs) (hfit rs x hrun)
      have estep : walletSession m w f nf cp env c (k + 1) = do
          let (r, x) ← walletAnswer m w f nf cp (env rs.length) xs (c rs)
          return (rs ++ [r], x) := by
        show (do let (rs, x) ← walletSession m w f nf cp env c k; _) = _
        rw [e]
        rfl
      rw [estep]
      rcases hcall with ⟨r, xs', x', e', hi, hm'⟩ | ⟨e', hi⟩ | ⟨e', hi⟩
      · exact .inl ⟨rs ++ [r], xs', x', by rw [e']; rfl, by rw [List.length_append, hk]; rfl, .call hrun hi, hm'⟩
      · exact .inr (.inl ⟨by rw [e']; rfl, rs, x, by omega, hrun, hi⟩)
      · exact .inr (.inr ⟨by rw [e']; rfl, rs, x, by omega, hrun, hi⟩)
    · refine .inr (.inl ⟨?_, rs, x, by omega, hrun, hp⟩)
      show (do let (rs, x) ← walletSession m w f nf cp env c k; _) = _
      rw [e]
      rfl
    · refine .inr (.inr ⟨?_, rs, x, by omega, hrun, hp⟩)
      show (do let (rs, x) ← walletSession m w f nf cp env c k; _) = _
      rw [e]
      rfl

/-- If the specification answers every call that the client comes to make, the library does, for all sufficiently large amounts of fuel. -/
theorem C90_answered (k : Nat) (hans : ∀ rs x, WalletRun m c env rs x → rs.length < k → ∃ an, WalletIdeal m (env rs.length) x (c rs) an) :
    ∃ f0, ∀ f nf, f0 ≤ f → f0 ≤ nf → walletSession m w f nf cp env c k ≠ .hang := by
  have mono : ∀ k f f' nf nf', f ≤ f' → nf ≤ nf' → Upto (walletSession m w f nf cp env c k) (walletSession m w f' nf' cp env c k) := by
    intro k f f' nf nf' h1 h2
    induction k with
    | zero => exact .refl _
    | succ k ih =>
      show Upto (do let (rs, x) ← walletSession m w f nf cp env c k; _) (do let (rs, x) ← walletSession m w f' nf' cp env c k; _)
      refine ih.bind fun rx => Upto.bind ?_ fun _ => .refl _
      cases c rx.1 with
      | key q =>
        refine Upto.bind ?_ fun _ => .refl _
        cases q with
        | sign i hash o =>
          refine (Upto.refl _).bind fun key => ?_
          rcases sign_upto m w Sha2.Sha256 h1 h2 Sha2.Sha256.fresh (env rx.1.length) hash key o with e | e
          · rw [e]; exact .inl rfl
          · rw [e]; exact .refl _
        | _ => exact .refl _
      | sign p k o =>
        refine (Upto.refl _).bind fun key => (Upto.refl _).bind fun payload => ?_
        rcases sign_any_upto m w h1 h2 (env rx.1.length) key o payload with e | e
        · rw [e]; exact .inl rfl
        · rw [e]; exact .refl _
      | _ => exact .refl _
  induction k with
  | zero => exact ⟨0, fun _ _ _ _ => nofun⟩
  | succ k ih =>
    obtain ⟨f0, hf0⟩ := ih fun rs x hrun hk => hans rs x hrun (by omega)
    have hsame : ∀ f nf, f0 ≤ f → f0 ≤ nf → walletSession m w f nf cp env c k = walletSession m w f0 f0 cp env c k := by
      intro f nf h1 h2
      rcases mono k f0 f f0 nf h1 h2 with e | e
      · exact absurd e (hf0 f0 f0 (Nat.le_refl _) (Nat.le_refl _))
      · exact e.symm
    have estep : ∀ f nf, f0 ≤ f → f0 ≤ nf → walletSession m w f nf cp env c (k + 1) = do
        let (rs, x) ← walletSession m w f0 f0 cp env c k
        let (r, x) ← walletAnswer m w f nf cp (env rs.length) x (c rs)
        return (rs ++ [r], x) := by
      intro f nf h1 h2
      rw [← hsame f nf h1 h2]
      rfl
    rcases C90_client_partial m w cp hcp f0 f0 env henv hlen c hfit k with ⟨rs, xs, x, e, hk, hrun, hm⟩ | ⟨e, -⟩ | ⟨e, -⟩
    · have key : ∃ f1, ∀ f nf, f1 ≤ f → f1 ≤ nf → walletAnswer m w f nf cp (env rs.length) xs (c rs) ≠ .hang := by
        have hother : ¬ WalletRequest.Signs (c rs) →
            ∃ f1, ∀ f nf, f1 ≤ f → f1 ≤ nf → walletAnswer m w f nf cp (env rs.length) xs (c rs) ≠ .hang := by
          intro hno
          refine ⟨0, fun f nf _ _ => ?_⟩
          rcases C90_call m w cp hcp f nf (env rs.length) (henv _) (hlen _) xs x hm (c rs) (hfit rs x hrun) with
            ⟨r, xs', x', e', -⟩ | ⟨e', -⟩ | ⟨-, e'⟩
          · rw [e']; nofun
          · rw [e']; nofun
          · exact absurd e' hno
        obtain ⟨an, han⟩ := hans rs x hrun (by omega)
        have hprop := hfit rs x hrun
        cases hq : c rs with
        | key q =>
          rw [hq] at han hprop
          cases q with
          | sign i hash o =>
            have : ∃ an, EthKeyIdeal (env rs.length) x.keys (.sign i hash o) an := by
              cases han with
              | key h => exact ⟨_, h⟩
              | keyPanic h => exact ⟨_, h⟩
            obtain ⟨an', han'⟩ := this
            obtain ⟨f1, hf1⟩ := eth_sign_returns m w cp hcp (env rs.length) (hlen _) xs.keys x.keys hm.keys i hash o hprop an' han'
            refine ⟨f1, fun f nf h1 h2 => ?_⟩
            have := hf1 f nf h1 h2
            show ((keyAnswer m w Sha2.Sha256 f nf Sha2.Sha256.fresh cp (env rs.length) xs.keys (.sign i hash o)).bind _ : Out Unit _) ≠ _
            cases hr : keyAnswer m w Sha2.Sha256 f nf Sha2.Sha256.fresh cp (env rs.length) xs.keys (.sign i hash o) with
            | hang => exact absurd hr this
            | _ => exact nofun
          | _ => rw [← hq]; exact hother (by rw [hq]; exact id)
        | sign p k o =>
          rw [hq] at han hprop
          obtain ⟨hkl, P, eP, hPl⟩ := hprop
          have : ∃ an, EthKeyIdeal (env rs.length) x.keys (.sign k (Sha3.keccak256 P.preimage) o) an := by
            cases han with
            | sign eP' h _ => rw [eP] at eP'; cases eP'; exact ⟨_, h⟩
            | notSigned eP' h => rw [eP] at eP'; cases eP'; exact ⟨_, h⟩
          obtain ⟨an', han'⟩ := this
          obtain ⟨f1, hf1⟩ := eth_sign_returns m w cp hcp (env rs.length) (hlen _) xs.keys x.keys hm.keys k (Sha3.keccak256 P.preimage) o hkl an' han'
          refine ⟨f1, fun f nf h1 h2 => ?_⟩
          have hn := hf1 f nf h1 h2
          obtain ⟨y, P', e1, e2, hp⟩ := at_all hm.payloads (List.getElem?_eq_some_iff.mp eP).1
          rw [eP] at e2
          cases e2
          obtain ⟨key, d, e3, e4, hpar, hd, hd0, hdn⟩ := at_all hm.keys.secrets hkl
          have hs := sign_any m d hd0 hdn key (by rw [hpar]; exact hcp) hd o (env rs.length) (hlen _) (henv _) f nf y P hp hPl
          have hka : keyAnswer m w Sha2.Sha256 f nf Sha2.Sha256.fresh cp (env rs.length) xs.keys (.sign k (Sha3.keccak256 P.preimage) o) =
              reply (signDefault m w f nf (env rs.length) (Sha3.keccak256 P.preimage) key o)
                (fun r => (.signed r.2, { xs.keys with signatures := xs.keys.signatures ++ [r.1] })) (fun e => (.notSigned e, xs.keys)) := by
            simp only [keyAnswer, e3, unwrap, Out.bind_ok]
            rfl
          have ha : walletAnswer m w f nf cp (env rs.length) xs (.sign p k o) = walletReply (y.sign m w f nf (env rs.length) key o)
              (fun t => (.done, { xs with transactions := xs.transactions ++ [t] })) (fun e => (signingReply e, xs)) := by
            simp only [walletAnswer, e1, e3, unwrap, Out.bind_ok]
          rw [ha]
          rw [hka] at hn
          cases hr : signDefault m w f nf (env rs.length) (Sha3.keccak256 P.preimage) key o with
          | ok v =>
            obtain ⟨sig, id⟩ := v
            cases hy : y.sign m w f nf (env rs.length) key o with
            | hang =>
              exfalso
              rw [hr] at hs
              have hf := eth_key_call m w cp hcp f nf (env rs.length) (henv _) (hlen _) xs.keys x.keys hm.keys
                (.sign k (Sha3.keccak256 P.preimage) o) hkl
              rw [hka, hr] at hf
              rcases hf with ⟨r, ks, ks', e, hi, hm'⟩ | ⟨e, -⟩ | ⟨e, -⟩
              · cases e
                obtain ⟨rs, -, h1, h2⟩ := last_signature hm' hi
                obtain ⟨t, et, -⟩ := hs rs.1 rs.2 h1 h2
                rw [hy] at et
                cases et
              · cases e
              · cases e
            | _ => exact nofun
          | err er =>
            rw [hr] at hs
            rw [hs]
            nofun
          | hang => rw [hr] at hn; exact absurd rfl hn
          | panic => rw [hr] at hs; exact hs.elim
        | _ => rw [← hq]; exact hother (by rw [hq]; exact id)
      obtain ⟨f1, hf1⟩ := key
      refine ⟨max f0 f1, fun f nf h1 h2 => ?_⟩
      rw [estep f nf (by omega) (by omega), e]
      have := hf1 f nf (by omega) (by omega)
      simp only [Out.bind_ok]
      cases hr : walletAnswer m w f nf cp (env rs.length) xs (c rs) with
      | hang => exact absurd hr this
      | _ => exact nofun
    · refine ⟨f0, fun f nf h1 h2 => ?_⟩
      rw [estep f nf h1 h2, e]
      nofun
    · exact absurd e (hf0 f0 f0 (Nat.le_refl _) (Nat.le_refl _))

end Clients

/-- C90 is violated by a client that decodes a byte string: of whichever kind it is decoded as, it panics (C56). -/
theorem C90_violated (m : Build) (w : Nat) [DigitWidth w] (f nf : Nat) (cp : Params) (env : Nat → Nat → Out RandomError (List UInt8)) (k : Kind) :
    walletSession m w f nf cp env (fun _ => .decode k [0xc9, 0xbf, 0xff, 0xff, 0xff, 0xff, 0xff, 0xff, 0xff, 0xff]) 1 = .panic := by
  obtain ⟨h1, h2, h3, h4⟩ := C56_panics m w
  cases k
  · simp only [walletSession, walletAnswer, decodeAny, Out.bind_ok, h1]; rfl
  · simp only [walletSession, walletAnswer, decodeAny, Out.bind_ok, h2]; rfl
  · simp only [walletSession, walletAnswer, decodeAny, Out.bind_ok, h3]; rfl
  · simp only [walletSession, walletAnswer, decodeAny, Out.bind_ok, h4]; rfl

end LCT.Props
