import Verif.Lemmas.Ethereum.Display

/-!
# Printed transactions: C60

`Signed.text` (`Verif.Spec.Display`) is the text of a signed transaction: a title, one line for each field of the payload, and the signature.
-/

namespace LCT.Props
open LCT.BigInt LCT.Spec LCT.Spec.Eth LCT.Out LCT.Ethereum
variable {ε : Type} (m : Build) (w : Nat) [DigitWidth w]

/-- C60: printing a legacy transaction never panics and gives its text. -/
theorem C60_legacy (x : TransactionLegacy) (t : Legacy) (r s : Nat) (hx : LegacyOf w x.payload t) (hr : Denotes w x.r r) (hs : Denotes w x.s s) :
    (x.display m w : Out ε _) = .ok (Signed.legacy t x.v.toNat r s).text := by
  simp only [TransactionLegacy.display, legacy_display m hx, (displayUint_eq m hr).1, (displayUint_eq m hs).1, bind_ok, pure_def, lowerHexU64_eq,
    decimalText_eq]
  simp [Signed.text, Signed.lines, frame, unlines_cons, unlines_append, writeln, lit_eq, smallNum]
  simp [ascii, unlines]

/-- C60: printing an EIP-155 transaction never panics and gives its text. -/
theorem C60_eip155 (x : TransactionEip155) (t : Eip155) (v r s : Nat) (hx : Eip155Of w x.payload t) (hv : Denotes w x.v v)
    (hr : Denotes w x.r r) (hs : Denotes w x.s s) : (x.display m w : Out ε _) = .ok (Signed.eip155 t v r s).text := by
  simp only [TransactionEip155.display, eip155_display m hx, (displayUint_eq m hv).1, (displayUint_eq m hr).1, (displayUint_eq m hs).1, bind_ok,
    pure_def]
  simp [Signed.text, Signed.lines, frame, unlines_cons, unlines_append, writeln, lit_eq]
  simp [unlines]

/-- C60: printing an EIP-2930 transaction never panics and gives its text. -/
theorem C60_eip2930 (x : TransactionEip2930) (t : Eip2930) (r s : Nat) (hx : Eip2930Of w x.payload t) (hr : Denotes w x.r r)
    (hs : Denotes w x.s s) : (x.display m w : Out ε _) = .ok (Signed.eip2930 t x.yParity.toU8.toNat r s).text := by
  simp only [TransactionEip2930.display, eip2930_display m hx, (displayUint_eq m hr).1, (displayUint_eq m hs).1, bind_ok, pure_def, parity_display]
  simp [Signed.text, Signed.lines, frame, unlines_cons, unlines_append, writeln, lit_eq]
  simp [unlines]

/-- C60: printing an EIP-1559 transaction never panics and gives its text. -/
theorem C60_eip1559 (x : TransactionEip1559) (t : Eip1559) (r s : Nat) (hx : Eip1559Of w x.payload t) (hr : Denotes w x.r r)
    (hs : Denotes w x.s s) : (x.display m w : Out ε _) = .ok (Signed.eip1559 t x.yParity.toU8.toNat r s).text := by
  simp only [TransactionEip1559.display, eip1559_display m hx, (displayUint_eq m hr).1, (displayUint_eq m hs).1, bind_ok, pure_def, parity_display]
  simp [Signed.text, Signed.lines, frame, unlines_cons, unlines_append, writeln, lit_eq]
  simp [unlines]

/-- C60: the text determines the transaction: its kind, every field, and the signature.  There is no condition on the fields. -/
theorem C60_injective (x y : Signed) (h : x.text = y.text) : x = y := signed_inj (unlines_inj (signed_plain x) (signed_plain y) h)

/-! A concrete case: an EIP-2930 transaction with one entry in its access list. -/

private def someAddress : List UInt8 := [0x5a, 0xae, 0xb6, 0x05, 0x3f, 0x3e, 0x94, 0xc9, 0xb9, 0xa0, 0x9f, 0x33, 0x66, 0x94, 0x35, 0xe7, 0xef, 0x1b, 0xea, 0xed]

set_option maxRecDepth 100000 in
private theorem someText : addressText someAddress = ascii "0x5aAeb6053F3E94C9b9A09f33669435E7Ef1BeAed" := by
  have h := address_display (ε := Unit) .debug ⟨someAddress, rfl⟩
  have e : (Address.display .debug ⟨someAddress, rfl⟩ : Out Unit _) = .ok (ascii "0x5aAeb6053F3E94C9b9A09f33669435E7Ef1BeAed") := by decide +kernel
  exact Out.ok.inj (h.symm.trans e)

private theorem bigNum_eq (n : Nat) : bigNum n = ascii "0x" ++ hexOf (if n = 0 then [0] else minBE n) := by unfold bigNum; rw [hexText_nat]

example : (Signed.eip2930 ⟨5, 10, 256, 0x5208, someAddress, 0, [1, 0xab], [⟨someAddress, [[0x70, 0x07]]⟩]⟩ 1 0x0abc 2).lines = [
    ascii "====================",
    ascii "Transaction EIP 2930",
    ascii "====================",
    ascii "",
    ascii "-------",
    ascii "Payload",
    ascii "-------",
    ascii "chain_id: 0x05",
    ascii "nonce: 0xa",
    ascii "gas_price: 0x0100",
    ascii "gas_limit: 0x5208",
    ascii "destination: 0x5aAeb6053F3E94C9b9A09f33669435E7Ef1BeAed",
    ascii "amount: 0x00",
    ascii "data: 0x01ab",
    ascii "access_list: [",
    ascii "  0x5aAeb6053F3E94C9b9A09f33669435E7Ef1BeAed: ",
    ascii "  [",
    ascii "    0x7007,",
    ascii "  ]",
    ascii "",
    ascii "]",
    ascii "",
    ascii "---------",
    ascii "Signature",
    ascii "---------",
    ascii "y_parity: 1 (odd)",
    ascii "r: 0x0abc",
    ascii "s: 0x02"] := by
  simp only [Signed.lines, frame, Eip2930.lines, accessLines, List.flatMap_cons, List.flatMap_nil, Access.lines, someText]
  have h1 : bigNum 5 = ascii "0x05" := by simp [bigNum_eq, minBE]; rfl
  have h2 : smallNum 10 = ascii "0xa" := by simp [smallNum, numeral]; rfl
  have h3 : bigNum 256 = ascii "0x0100" := by simp [bigNum_eq, minBE]; rfl
  have h4 : smallNum 0x5208 = ascii "0x5208" := by simp [smallNum, numeral]; rfl
  have h5 : bigNum 0 = ascii "0x00" := by simp [bigNum_eq]; rfl
  have h6 : parityText 1 = ascii "1 (odd)" := by simp [parityText, numeral]; rfl
  have h7 : bigNum 0x0abc = ascii "0x0abc" := by simp [bigNum_eq, minBE]; rfl
  have h8 : bigNum 2 = ascii "0x02" := by simp [bigNum_eq, minBE]; rfl
  rw [h1, h2, h3, h4, h5, h6, h7, h8]
  decide +kernel

end LCT.Props
