import Verif.Lemmas.Programs
import Verif.Props.Published

/-!
# The example programs: C61, C63, C64

The first argument of a program is text.  What a program prints is the value it returns.
-/

namespace LCT.Props
open LCT.BigInt LCT.Rlp LCT.Codecs LCT.Spec LCT.Spec.Eth LCT.Out LCT.Ethereum LCT.Examples
variable {ε : Type} (m : Build) (w : Nat) [DigitWidth w]

/-! ## C61: the transaction decoder -/

/-- C61: for every argument, the program prints the text of the transaction that the bytes encode, but for the chain id of EIP-155 transactions
(see `C61_chain_id_violated`); and it prints nothing else. -/
theorem C61_prints_iff (arg out : List UInt8) (hl : arg.length < 2 ^ 64) :
    (txDecoder m w (some arg) : Out ε _) = .ok out ↔
      ∃ data x, HexInput arg data ∧ Signed.IsEncodedBy x data ∧ out = x.halved.text ++ [10] := by
  constructor
  · intro h
    rcases input_cases (ε := ε) arg with ⟨data, hd, -⟩ | ⟨hn, e⟩
    · rcases tx_cases (ε := ε) m w arg data hd (Nat.lt_of_le_of_lt (hexInput_length hd) hl) with ⟨x, hx, e⟩ | ⟨-, e⟩
      · rw [e] at h
        cases h
        exact ⟨data, x, hd, hx, rfl⟩
      · rw [e] at h; cases h
    · rw [tx_not_hex m w arg e] at h; cases h
  · rintro ⟨data, x, hd, hx, rfl⟩
    exact tx_encoded m w arg data hd (Nat.lt_of_le_of_lt (hexInput_length hd) hl) hx

/-- C61: a byte string encodes at most one transaction, of one kind. -/
theorem C61_unique (data : List UInt8) (hl : data.length < 2 ^ 64) (x y : Signed) (hx : x.IsEncodedBy data) (hy : y.IsEncodedBy data) :
    x = y := signed_unique hx hy hl

/-- C61: whatever the argument, the program prints a transaction or panics: it always ends, and a missing argument is a panic. -/
theorem C61_total (arg : Option (List UInt8)) (hl : ∀ a, arg = some a → a.length < 2 ^ 64) :
    (txDecoder m w arg : Out ε _) = .panic ∨ ∃ out, (txDecoder m w arg : Out ε _) = .ok out := by
  cases arg with
  | none => exact .inl rfl
  | some arg =>
    rcases input_cases (ε := ε) arg with ⟨data, hd, -⟩ | ⟨hn, e⟩
    · rcases tx_cases (ε := ε) m w arg data hd (Nat.lt_of_le_of_lt (hexInput_length hd) (hl _ rfl)) with ⟨x, hx, e⟩ | ⟨-, e⟩
      · exact .inr ⟨_, e⟩
      · exact .inl e
    · exact .inl (tx_not_hex m w arg e)

/-- C61: the encoding of every admissible transaction encodes it, so the theorems of this section say what the program does with it. -/
theorem C61_encoding (x : Signed) (hx : x.Valid) (hl : x.encoding.length < 2 ^ 64) : x.IsEncodedBy x.encoding := encoding_encodes hx hl

/-- C61, what holds: given the hex digits of a transaction other than an EIP-155 transaction for a chain with an id greater than zero, the
program prints its text.  Missing: those transactions. -/
theorem C61_prints_partial (arg data : List UInt8) (hl : arg.length < 2 ^ 64) (hd : HexInput arg data) (x : Signed) (hx : x.IsEncodedBy data)
    (hc : ∀ t v r s, x = .eip155 t v r s → t.chainId = 0) : (txDecoder m w (some arg) : Out ε _) = .ok (x.text ++ [10]) := by
  rw [tx_encoded m w arg data hd (Nat.lt_of_le_of_lt (hexInput_length hd) hl) hx]
  have : x.halved = x := by
    cases x with
    | eip155 t v r s =>
      have h0 := hc t v r s rfl
      obtain ⟨-, h1, h2, -⟩ := hx
      cases t
      simp only at h0 h2
      simp only [Signed.halved, Signed.eip155.injEq, Eip155.mk.injEq, and_true]
      omega
    | _ => rfl
  rw [this]

/-- C61 (negation): an EIP-155 transaction for a chain with an id greater than zero is always printed as the text of another transaction,
which has the chain id `(v - 35) / 4` and is the same in everything else. -/
theorem C61_chain_id_violated (arg data : List UInt8) (hl : arg.length < 2 ^ 64) (hd : HexInput arg data) (t : Eip155) (v r s : Nat)
    (hx : (Signed.eip155 t v r s).IsEncodedBy data) (hc : 0 < t.chainId) :
    (txDecoder m w (some arg) : Out ε _) = .ok ((Signed.eip155 { t with chainId := (v - 35) / 4 } v r s).text ++ [10]) ∧
    (txDecoder m w (some arg) : Out ε _) ≠ .ok ((Signed.eip155 t v r s).text ++ [10]) := by
  have e := tx_encoded (ε := ε) m w arg data hd (Nat.lt_of_le_of_lt (hexInput_length hd) hl) hx
  refine ⟨e, fun h => ?_⟩
  rw [e] at h
  have := C60_injective _ _ (List.append_cancel_right (Out.ok.inj h))
  obtain ⟨-, h1, h2, -⟩ := hx
  cases t
  simp only [Signed.halved, Signed.eip155.injEq, Eip155.mk.injEq, and_true] at this h2 hc
  omega

/-! The transaction published in EIP-155, for the chain 1, in upper-case digits with `0x`: it is printed with the chain id 0. -/

example : (txDecoder m w (some (ascii "0x" ++ (hexOf Published.transaction).map upperChar)) : Out ε _) =
    .ok ((Signed.eip155 { exampleFields with chainId := 0 } 37 Published.r Published.s).text ++ [10]) := by
  have hv : (Signed.eip155 exampleFields 37 Published.r Published.s).Valid := by
    simp [Signed.Valid, exampleFields, Eip155.Valid]
  have e : (Signed.eip155 exampleFields 37 Published.r Published.s).encoding = Published.transaction := Published.transaction_eq
  have h := C61_encoding _ hv (by rw [e]; decide)
  rw [e] at h
  exact (C61_chain_id_violated m w _ _ (by decide +kernel) ⟨_, .inr rfl, by decide +kernel, by decide +kernel⟩ _ _ _ _ h (by decide)).1

/-! ## C63: the address of a private key -/

/-- C63: given 64 hex digits of a number `d` strictly between 0 and the order of the group, the program prints the address of `d • G` with its
checksum. -/
theorem C63_prints (arg key : List UInt8) (hk : HexInput arg key) (hlen : key.length = 32) (h0 : 0 < ofBE key)
    (hn : ofBE key < Secp256k1.n) : (keyToAddress m w (some arg) : Out ε _) =
      .ok (addressText (addressOf Sha3.keccak256 (xCoord (ofBE key • LCT.Secp256k1.G)) (yCoord (ofBE key • LCT.Secp256k1.G))) ++ [10]) := by
  obtain ⟨s, e1, e2⟩ := (hexInput_iff (ε := ε)).mp hk
  obtain ⟨k, ek, hsome, -⟩ := C47_private_key (ε := ε) m w key hlen
  obtain ⟨sk, rfl⟩ := Option.isSome_iff_exists.mp (hsome.mpr ⟨h0, hn⟩)
  obtain ⟨pk, a, e3, e4, e5⟩ := C47_address m w key hlen sk ek
  unfold keyToAddress
  rw [e1, bind_ok, e2]
  simp only [expect, bind_ok, hlen, dite_true, ek, unwrap_some, e3, e4, address_display, pure_def, e5]
  rfl

/-- C63: for every other argument, and without one, the program panics. -/
theorem C63_panics (arg : Option (List UInt8))
    (h : ∀ a key, arg = some a → HexInput a key → ¬ (key.length = 32 ∧ 0 < ofBE key ∧ ofBE key < Secp256k1.n)) :
    (keyToAddress m w arg : Out ε _) = .panic := by
  cases arg with
  | none => rfl
  | some arg =>
    unfold keyToAddress
    rcases input_cases (ε := ε) arg with ⟨key, hk, -⟩ | ⟨-, e⟩
    · obtain ⟨s, e1, e2⟩ := (hexInput_iff (ε := ε)).mp hk
      have hh := h arg key rfl hk
      rw [e1, bind_ok, e2]
      simp only [expect, bind_ok]
      split
      · rename_i len
        obtain ⟨k, ek, hsome, -⟩ := C47_private_key (ε := ε) m w key len
        rw [ek, bind_ok]
        cases k with
        | none => rfl
        | some sk => exact absurd (hsome.mp rfl) fun h' => hh ⟨len, h'⟩
      · rfl
    · obtain ⟨s, e1, -⟩ := hexArgument_ok (ε := ε) arg
      rw [e1, bind_ok] at e
      rw [e1, bind_ok, e]
      rfl

/-! The example in the comments of the program. -/

example : ∃ key, HexInput (ascii "0xc85ef7d79691fe79573b1a7064c19c1a9819ebdbd1faaab1a8ec92344438aaf4") key ∧ key.length = 32 ∧ 0 < ofBE key ∧
    ofBE key < Secp256k1.n :=
  ⟨octets 32 0xc85ef7d79691fe79573b1a7064c19c1a9819ebdbd1faaab1a8ec92344438aaf4,
    ⟨ascii "c85ef7d79691fe79573b1a7064c19c1a9819ebdbd1faaab1a8ec92344438aaf4", .inr (by decide +kernel), by decide +kernel, by decide +kernel⟩,
    by decide +kernel, by decide +kernel, by decide +kernel⟩

/-! ## C64: the RLP decoder

`pretty` is the function that turns a JSON value into text (`serde_json::to_string_pretty`). -/

/-- C64: given the hex digits of a (nested) RLP item, the program prints the JSON form of that item. -/
theorem C64_prints (pretty : Json → List UInt8) (arg data : List UInt8) (hl : arg.length < 2 ^ 64) (hd : HexInput arg data) (x : Item)
    (hx : RelaxedTree x data) : (rlpDecoder m pretty (some arg) : Out ε _) = .ok (pretty (jsonOf x) ++ [10]) := by
  obtain ⟨s, e1, e2⟩ := (hexInput_iff (ε := ε)).mp hd
  have e3 := (decodeTree_iff m data x (Nat.lt_of_le_of_lt (hexInput_length hd) hl)).mpr hx
  unfold rlpDecoder
  rw [e1, bind_ok, e2]
  simp only [decodeJson_eq, e3, Out.bind]
  rfl

/-- C64: what is printed is the JSON form of one item only, and determines it if the pretty printer is injective. -/
theorem C64_unique (x y : Item) (h : jsonOf x = jsonOf y) : x = y := jsonOf_inj h

/-- C64: for arguments that are not hex digits after an optional `0x`, the program prints which defect there is. -/
theorem C64_not_hex (pretty : Json → List UInt8) (arg : List UInt8) (hn : ∀ data, ¬ HexInput arg data) :
    (rlpDecoder m pretty (some arg) : Out ε _) =
      .ok (if arg.length % 2 = 1 then ascii "invalid hex input: Not 1-byte aligned\n" else ascii "invalid hex input: Invalid char found\n") := by
  have hlen : ∃ s, (hexArgument (some arg) : Out ε _) = .ok s ∧ s.length % 2 = arg.length % 2 := by
    rcases hexArgument_cases (ε := ε) arg with ⟨h, rfl, e⟩ | ⟨-, e⟩
    · exact ⟨_, e, by simp only [List.length_cons]; omega⟩
    · exact ⟨_, e, rfl⟩
  obtain ⟨s, e1, e2⟩ := hlen
  unfold rlpDecoder
  rw [e1, bind_ok]
  rcases C17_total s with ⟨bs, hb⟩ | ⟨er, hb⟩
  · exact absurd ((hexInput_iff (ε := ε)).mpr ⟨s, e1, hb⟩) (hn bs)
  · rw [hb]
    cases er with
    | NotByteAligned =>
      rw [if_pos (e2 ▸ (C17_not_aligned_iff s).mp hb)]
      rfl
    | InvalidCharFound =>
      have := ((C17_invalid_char_iff s).mp hb).1
      rw [if_neg (by omega)]
      rfl

/-- C64, what holds: for hex digits of a byte string that is not an RLP item the program says so, unless the item decoder panics (C36), and then
the program does.  Missing: no panic. -/
theorem C64_malformed_partial (pretty : Json → List UInt8) (arg data : List UInt8) (hl : arg.length < 2 ^ 64) (hd : HexInput arg data)
    (hn : ∀ x, ¬ RelaxedTree x data) :
    (rlpDecoder m pretty (some arg) : Out ε _) =
      open Classical in
      if (m = .debug ∧ DeclaresHugeLength data) ∨ (∃ p, RelaxedItem .List p data ∧ ChokingList p) then .panic
      else .ok (ascii "Decoding failed: Invalid format\n") := by
  obtain ⟨s, e1, e2⟩ := (hexInput_iff (ε := ε)).mp hd
  have hl' := Nat.lt_of_le_of_lt (hexInput_length hd) hl
  unfold rlpDecoder
  rw [e1, bind_ok, e2]
  simp only [decodeJson_eq]
  have hp := decodeTree_panic_iff m data hl'
  cases e : decodeTree m data with
  | ok x => exact absurd ((decodeTree_iff m data x hl').mp e) (hn x)
  | panic =>
    rw [if_pos (hp.mp e)]
    rfl
  | hang => exact absurd e (decodeTree_ne_hang m data hl')
  | err er =>
    rw [if_neg (fun h => by rw [hp.mpr h] at e; cases e)]
    cases er with
    | InvalidFormat => rfl
    | TransactionTypeMismatch => exact absurd e (decodeTree_nm m data)

/-- C64 (negation): an argument of 22 characters that makes the program panic, in both builds. -/
theorem C64_panics (pretty : Json → List UInt8) : (rlpDecoder m pretty (some (ascii "0xc9bfffffffffffffffff")) : Out ε _) = .panic := by
  have hd : HexInput (ascii "0xc9bfffffffffffffffff") [0xc9, 0xbf, 0xff, 0xff, 0xff, 0xff, 0xff, 0xff, 0xff, 0xff] :=
    ⟨ascii "c9bfffffffffffffffff", .inr (by decide +kernel), by decide +kernel, by decide +kernel⟩
  obtain ⟨s, e1, e2⟩ := (hexInput_iff (ε := ε)).mp hd
  have e3 : decodeTree m [0xc9, 0xbf, 0xff, 0xff, 0xff, 0xff, 0xff, 0xff, 0xff, 0xff] = .panic :=
    (decodeTree_panic_iff m _ (by decide)).mpr (.inr ⟨[0xbf, 0xff, 0xff, 0xff, 0xff, 0xff, 0xff, 0xff, 0xff], .listShort _ (by decide),
      .here [] [] [0xbf, 0xff, 0xff, 0xff, 0xff, 0xff, 0xff, 0xff, 0xff] .nil (by decide)⟩)
  unfold rlpDecoder
  rw [e1, bind_ok, e2]
  simp only [decodeJson_eq, e3, Out.bind]

/-- C64: without an argument the program panics. -/
theorem C64_missing (pretty : Json → List UInt8) : (rlpDecoder m pretty none : Out ε _) = .panic := rfl

/-! The second example in the comments of the program, `[ [], [[]], [ [], [[]] ] ]`, and malformed arguments. -/

example (pretty : Json → List UInt8) : (rlpDecoder m pretty (some (ascii "c7c0c1c0c3c0c1c0")) : Out ε _) =
    .ok (pretty (.array [.array [], .array [.array []], .array [.array [], .array [.array []]]]) ++ [10]) := by
  have e : rlp (.list [.list [], .list [.list []], .list [.list [], .list [.list []]]]) = [0xc7, 0xc0, 0xc1, 0xc0, 0xc3, 0xc0, 0xc1, 0xc0] := by
    simp [rlp, rlpSeq, rlpListOf]
  have h := tree_rlp (.list [.list [], .list [.list []], .list [.list [], .list [.list []]]]) (by rw [e]; decide)
  rw [e] at h
  exact C64_prints m pretty _ _ (by decide +kernel) ⟨_, .inl rfl, by decide +kernel, by decide +kernel⟩ _ h

example : ∀ data, ¬ HexInput (ascii "0xc2c") data := by
  rintro data ⟨ds, h1, h2, h3⟩
  have hl := congrArg List.length h3
  rw [List.length_map, hexOf_length] at hl
  rcases h1 with rfl | h1
  · rw [show (ascii "0xc2c").length = 5 by decide +kernel] at hl; omega
  · have := congrArg List.length h1
    rw [List.length_append, show (ascii "0xc2c").length = 5 by decide +kernel, show (ascii "0x").length = 2 by decide +kernel] at this
    omega

end LCT.Props
