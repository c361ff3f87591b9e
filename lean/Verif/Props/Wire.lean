import Verif.Props.Programs
import Verif.Props.Transactions

/-!
# From the signer to the receiver: C62

A payload is signed and encoded; the bytes travel; the receiver decodes them.
-/

namespace LCT.Spec.Eth

/-- What is signed. -/
def Signed.payload : Signed → Payload
  | .legacy t _ _ _ => .legacy t
  | .eip155 t _ _ _ => .eip155 t
  | .eip2930 t _ _ _ => .eip2930 t
  | .eip1559 t _ _ _ => .eip1559 t

def Signed.r : Signed → Nat
  | .legacy _ _ r _ => r
  | .eip155 _ _ r _ => r
  | .eip2930 _ _ r _ => r
  | .eip1559 _ _ r _ => r

def Signed.s : Signed → Nat
  | .legacy _ _ _ s => s
  | .eip155 _ _ _ s => s
  | .eip2930 _ _ _ s => s
  | .eip1559 _ _ _ s => s

/-- The parity of the ordinate: in legacy transactions `v - 27`, in EIP-155 transactions `v - 35 - 2 * chainId`. -/
def Signed.parity : Signed → Nat
  | .legacy _ v _ _ => v - 27
  | .eip155 t v _ _ => v - 35 - 2 * t.chainId
  | .eip2930 _ y _ _ => y
  | .eip1559 _ y _ _ => y

end LCT.Spec.Eth

namespace LCT.Props
open LCT.BigInt LCT.Rlp LCT.Codecs LCT.Spec LCT.Spec.Eth LCT.Out LCT.Ethereum LCT.Examples LCT.Crypto LCT.Random
variable {ε : Type}

/-! ## Lengths -/

theorem rlpBytes_length_le (b : List UInt8) (h : b.length < 2 ^ 64) : b.length ≤ (rlpBytes b).length ∧ (rlpBytes b).length ≤ b.length + 9 := by
  have := lenLen_le b.length h
  unfold rlpBytes
  split
  · omega
  · split <;> simp only [List.length_cons, List.length_append] <;> omega

theorem rlpListOf_length_le (b : List UInt8) (h : b.length < 2 ^ 64) : b.length ≤ (rlpListOf b).length ∧ (rlpListOf b).length ≤ b.length + 9 := by
  have := lenLen_le b.length h
  unfold rlpListOf
  split <;> simp only [List.length_cons, List.length_append] <;> omega

theorem rlpListOf_ge (b : List UInt8) : b.length ≤ (rlpListOf b).length := by
  unfold rlpListOf
  split <;> simp only [List.length_cons, List.length_append] <;> omega

theorem rlpBytes_ge (b : List UInt8) : b.length ≤ (rlpBytes b).length := by
  unfold rlpBytes
  split
  · exact Nat.le_refl _
  · split <;> simp only [List.length_cons, List.length_append] <;> omega

theorem rlpSeq_append' (xs ys : List Item) : rlpSeq (xs ++ ys) = rlpSeq xs ++ rlpSeq ys := by
  induction xs with
  | nil => rfl
  | cons x xs ih => simp only [List.cons_append, rlpSeq, ih, List.append_assoc]

/-- A signed transaction is not much longer than its payload. -/
theorem signed_length (fields : List Item) (v r s : Nat) (h : (rlpSeq fields).length < 2 ^ 62) (hv : (minBE v).length ≤ 2 ^ 62)
    (hr : r < Secp256k1.n) (hs : s < Secp256k1.n) :
    (rlp (signedList fields v r s)).length ≤ (rlpSeq fields).length + (minBE v).length + 100 := by
  have h256 : Secp256k1.n < 256 ^ 32 := by decide +kernel
  have hr' := minBE_length_le r 32 (Nat.lt_trans hr h256)
  have hs' := minBE_length_le s 32 (Nat.lt_trans hs h256)
  have a1 := (rlpBytes_length_le (minBE v) (by omega)).2
  have a2 := (rlpBytes_length_le (minBE r) (by omega)).2
  have a3 := (rlpBytes_length_le (minBE s) (by omega)).2
  have e : (rlpSeq (fields ++ [num v, num r, num s])).length =
      (rlpSeq fields).length + ((rlpBytes (minBE v)).length + ((rlpBytes (minBE r)).length + (rlpBytes (minBE s)).length)) := by
    rw [rlpSeq_append']
    simp only [rlpSeq, rlp, num, List.length_append, List.append_nil]
  rw [signedList, rlp]
  have := (rlpListOf_length_le (rlpSeq (fields ++ [num v, num r, num s])) (by omega)).2
  omega

theorem eip155_length (t : Eip155) (r s parity : Nat) (hl : (Payload.eip155 t).preimage.length < 2 ^ 62) (hp : parity ≤ 1)
    (hr : r < Secp256k1.n) (hs : s < Secp256k1.n) : (rlp (signedList t.fields (35 + 2 * t.chainId + parity) r s)).length < 2 ^ 63 := by
  have h0 := rlpListOf_ge (rlpSeq (t.fields ++ [num t.chainId, num 0, num 0]))
  have h2 := rlpBytes_ge (minBE t.chainId)
  have e0 : (Payload.eip155 t).preimage.length = (rlpListOf (rlpSeq (t.fields ++ [num t.chainId, num 0, num 0]))).length := rfl
  have es : (rlpSeq (t.fields ++ [num t.chainId, num 0, num 0])).length =
      (rlpSeq t.fields).length + ((rlpBytes (minBE t.chainId)).length + ((rlpBytes (minBE 0)).length + (rlpBytes (minBE 0)).length)) := by
    rw [rlpSeq_append', List.length_append]
    simp only [rlpSeq, rlp, num, List.length_append, List.append_nil]
  have hv : (minBE (35 + 2 * t.chainId + parity)).length ≤ (minBE t.chainId).length + 1 := by
    apply minBE_length_le
    have := lt_of_minBE_length_le t.chainId _ (Nat.le_refl _)
    have h1 := Nat.pow_pos (n := (minBE t.chainId).length) (show 0 < 256 by decide)
    rw [Nat.pow_succ]
    omega
  have := signed_length t.fields (35 + 2 * t.chainId + parity) r s (by omega) (by omega) hr hs
  omega

/-! ## C62 -/

section
variable (m : Build) (w : Nat) [DigitWidth w] (d : Nat) (hd0 : 0 < d) (hdn : d < Secp256k1.n) (key : PrivateKey)
  (hkey : (secp256k1 w : Out Unit _) = .ok key.params) (hd : Denotes w key.data d) (o : SigningOptions)
  (rand : Nat → Out RandomError (List UInt8)) (hrand : ∀ i bytes, rand i = .ok bytes → bytes.length = 32)
  (hpanic : ∀ i, rand i ≠ .panic) (fuel nonceFuel : Nat)
include hd0 hdn hkey hd hrand hpanic

/-- C62, legacy: the bytes that are sent stand for exactly one transaction: the payload that was signed, with a signature of it
by the signer, and the transaction decoder prints it.  The receiver who decodes them, encodes the payload for signing and hashes it, recovers
the signer's key from the decoded `r` and `s`; with the parity too, it is the only key, if `r + n ≥ p` (as in C43).  Missing: smaller `r`,
for which the last claim is false. -/
theorem C62_legacy_partial (x : PayloadLegacy) (t : Legacy) (hx : LegacyOf w x t) (hl : (Payload.legacy t).preimage.length < 2 ^ 62)
    (y : TransactionLegacy) (hy : x.sign m w fuel nonceFuel rand key o = .ok y)
    (hz : o.isZeroHashAllowed = false ∨ ofBE (Sha3.keccak256 (Payload.legacy t).preimage) ≠ 0) :
    ∃ X bytes, (y.encode m w : Out ε _) = .ok bytes ∧
      Signed.IsEncodedBy X bytes ∧ (∀ Z, Signed.IsEncodedBy Z bytes → Z = X) ∧ X.payload = .legacy t ∧
      SignedBy d (ofBE (Sha3.keccak256 X.payload.preimage)) X.r X.s X.parity ∧
      (txDecoder m w (some (hexOf bytes)) : Out ε _) = .ok (X.text ++ [10]) ∧
      ∃ z pre pk, decode m (decTransactionLegacy m w) bytes = .ok z ∧
        (encodeM (PayloadLegacy.encodeTo m w) z.payload : Out ε _) = .ok pre ∧ (key.publicKey m w : Out ε _) = .ok pk ∧
        (∃ keys, recover m w ⟨z.r, z.s, key.params⟩ (Sha3.keccak256 pre) none = .ok keys ∧ ∃ k ∈ keys, SameKey w k pk) ∧
        (Secp256k1.p ≤ X.r + Secp256k1.n → ∃ k, recover m w ⟨z.r, z.s, key.params⟩ (Sha3.keccak256 pre) (RecoveryId.fromU8 (z.v - 27)) = .ok [k] ∧
          SameKey w k pk) := by
  obtain ⟨hpay, r, s, parity, hr, hs, hpar, hv, hsig, -, hz2⟩ :=
    C43_legacy m w d hd0 hdn key hkey hd o rand hrand fuel nonceFuel x t hx (by omega) hpanic y hy
  have hseq := rlpListOf_ge (rlpSeq t.fields)
  have hpl : (Payload.legacy t).preimage.length = (rlpListOf (rlpSeq t.fields)).length := rfl
  have hvl : (minBE y.v.toNat).length ≤ 1 := minBE_length_le _ 1 (by omega)
  have hlen := signed_length t.fields y.v.toNat r s (by omega) (by omega) hsig.2.1 hsig.2.2.2.1
  obtain ⟨e1, z, e2, a1, a2, a3, a4⟩ := C40_round_trip (ε := ε) m w y t r s (hpay ▸ hx) hr hs (by omega)
  rw [hv] at e1 e2 hlen hvl
  have hval : (Signed.legacy t (27 + parity) r s).Valid := ⟨LegacyOf.valid hx, by omega⟩
  have hb := C61_encoding (Signed.legacy t (27 + parity) r s) hval (by show (rlp (signedList t.fields (27 + parity) r s)).length < _; omega)
  have hbl : (rlp (signedList t.fields (27 + parity) r s)).length < 2 ^ 63 := by omega
  have hpre : (encodeM (PayloadLegacy.encodeTo m w) z.payload : Out ε _) = .ok (rlp (.list t.fields)) :=
    encodeM_eq (payloadLegacy_enc m a1) (by rw [rlp]; omega)
  have hh := keccak_length (Payload.legacy t).preimage
  have hsend := sender (ε := ε) m w d hd0 hdn key hkey hd (Sha3.keccak256 (Payload.legacy t).preimage) hh (hz.elim hz2 (fun h => h)) z.r z.s r s parity a3 a4 hsig
    (RecoveryId.fromU8 (z.v - 27)) (by
      rw [a2]
      congr 1
      apply UInt8.toNat_inj.mp
      rcases (show parity = 0 ∨ parity = 1 by omega) with rfl | rfl
      · have : y.v = 27 := UInt8.toNat_inj.mp hv
        rw [this]; rfl
      · have : y.v = 28 := UInt8.toNat_inj.mp hv
        rw [this]; rfl)
  obtain ⟨pk, s1, s2, s3⟩ := hsend
  refine ⟨.legacy t (27 + parity) r s, _, e1, hb, fun Z hZ => C61_unique _ (by exact Nat.lt_trans hbl (by decide)) _ _ hZ hb, rfl, ?_, ?_, z, _, pk, e2, hpre, s1, s2, ?_⟩
  · rw [show Signed.parity (.legacy t (27 + parity) r s) = parity from Nat.add_sub_cancel_left _ _]; exact hsig
  · exact C61_prints_partial m w _ _ (by rw [hexOf_length]; exact (by omega : ∀ n : Nat, n < 2 ^ 63 → 2 * n < 2 ^ 64) _ hbl) (hexInput_hexOf _) _ hb (fun _ _ _ _ h => nomatch h)
  · intro h
    exact s3 (by rw [a3.2]; exact_mod_cast h)

/-- C62, EIP-2930: the bytes that are sent stand for exactly one transaction: the payload that was signed, with a signature of it
by the signer, and the transaction decoder prints it.  The receiver who decodes them, encodes the payload for signing and hashes it, recovers
the signer's key from the decoded `r` and `s`; with the parity too, it is the only key, if `r + n ≥ p` (as in C43).  Missing: smaller `r`,
for which the last claim is false. -/
theorem C62_eip2930_partial (x : PayloadEip2930) (t : Eip2930) (hx : Eip2930Of w x t) (hl : (Payload.eip2930 t).preimage.length < 2 ^ 62)
    (y : TransactionEip2930) (hy : x.sign m w fuel nonceFuel rand key o = .ok y)
    (hz : o.isZeroHashAllowed = false ∨ ofBE (Sha3.keccak256 (Payload.eip2930 t).preimage) ≠ 0) :
    ∃ X bytes, (y.encode m w : Out ε _) = .ok bytes ∧
      Signed.IsEncodedBy X bytes ∧ (∀ Z, Signed.IsEncodedBy Z bytes → Z = X) ∧ X.payload = .eip2930 t ∧
      SignedBy d (ofBE (Sha3.keccak256 X.payload.preimage)) X.r X.s X.parity ∧
      (txDecoder m w (some (hexOf bytes)) : Out ε _) = .ok (X.text ++ [10]) ∧
      ∃ z pre pk list, bytes = 1 :: list ∧ decode m (decTransactionEip2930 m w) list = .ok z ∧
        (encodeM (PayloadEip2930.encodeTo m w) z.payload : Out ε _) = .ok pre ∧ (key.publicKey m w : Out ε _) = .ok pk ∧
        (∃ keys, recover m w ⟨z.r, z.s, key.params⟩ (Sha3.keccak256 (1 :: pre)) none = .ok keys ∧ ∃ k ∈ keys, SameKey w k pk) ∧
        (Secp256k1.p ≤ X.r + Secp256k1.n → ∃ k, recover m w ⟨z.r, z.s, key.params⟩ (Sha3.keccak256 (1 :: pre)) (RecoveryId.fromU8 z.yParity.toU8) = .ok [k] ∧
          SameKey w k pk) := by
  obtain ⟨hpay, r, s, parity, hr, hs, hpar, hv, hsig, -, hz2⟩ :=
    C43_eip2930 m w d hd0 hdn key hkey hd o rand hrand fuel nonceFuel x t hx (by omega) hpanic y hy
  have hseq := rlpListOf_ge (rlpSeq t.fields)
  have hpl : (Payload.eip2930 t).preimage.length = (rlpListOf (rlpSeq t.fields)).length + 1 := rfl
  have hvl : (minBE y.yParity.toU8.toNat).length ≤ 1 := minBE_length_le _ 1 (by omega)
  have hlen := signed_length t.fields y.yParity.toU8.toNat r s (by omega) (by omega) hsig.2.1 hsig.2.2.2.1
  obtain ⟨e1, z, e2, a1, a2, a3, a4⟩ := C42_eip2930 (ε := ε) m w y t r s (hpay ▸ hx) hr hs (by omega)
  rw [hv] at e1 e2 hlen hvl
  have hval : (Signed.eip2930 t parity r s).Valid := ⟨Eip2930Of.valid hx, by omega⟩
  have hb := C61_encoding (Signed.eip2930 t parity r s) hval (by show (1 :: rlp (signedList t.fields parity r s)).length < _; rw [List.length_cons]; omega)
  have hbl : (1 :: rlp (signedList t.fields parity r s)).length < 2 ^ 63 := by rw [List.length_cons]; omega
  have hpre : (encodeM (PayloadEip2930.encodeTo m w) z.payload : Out ε _) = .ok (rlp (.list t.fields)) :=
    encodeM_eq (payloadEip2930_enc m a1) (by rw [rlp]; omega)
  have hh := keccak_length (Payload.eip2930 t).preimage
  have hsend := sender (ε := ε) m w d hd0 hdn key hkey hd (Sha3.keccak256 (Payload.eip2930 t).preimage) hh (hz.elim hz2 (fun h => h)) z.r z.s r s parity a3 a4 hsig
    (RecoveryId.fromU8 z.yParity.toU8) (by
      rw [a2, ← hv, UInt8.ofNat_toNat])
  obtain ⟨pk, s1, s2, s3⟩ := hsend
  refine ⟨.eip2930 t parity r s, _, e1, hb, fun Z hZ => C61_unique _ (by exact Nat.lt_trans hbl (by decide)) _ _ hZ hb, rfl, ?_, ?_, z, _, pk, _, rfl, e2, hpre, s1, s2, ?_⟩
  · exact hsig
  · exact C61_prints_partial m w _ _ (by rw [hexOf_length]; exact (by omega : ∀ n : Nat, n < 2 ^ 63 → 2 * n < 2 ^ 64) _ hbl) (hexInput_hexOf _) _ hb (fun _ _ _ _ h => nomatch h)
  · intro h
    exact s3 (by rw [a3.2]; exact_mod_cast h)

/-- C62, EIP-1559: the bytes that are sent stand for exactly one transaction: the payload that was signed, with a signature of it
by the signer, and the transaction decoder prints it.  The receiver who decodes them, encodes the payload for signing and hashes it, recovers
the signer's key from the decoded `r` and `s`; with the parity too, it is the only key, if `r + n ≥ p` (as in C43).  Missing: smaller `r`,
for which the last claim is false. -/
theorem C62_eip1559_partial (x : PayloadEip1559) (t : Eip1559) (hx : Eip1559Of w x t) (hl : (Payload.eip1559 t).preimage.length < 2 ^ 62)
    (y : TransactionEip1559) (hy : x.sign m w fuel nonceFuel rand key o = .ok y)
    (hz : o.isZeroHashAllowed = false ∨ ofBE (Sha3.keccak256 (Payload.eip1559 t).preimage) ≠ 0) :
    ∃ X bytes, (y.encode m w : Out ε _) = .ok bytes ∧
      Signed.IsEncodedBy X bytes ∧ (∀ Z, Signed.IsEncodedBy Z bytes → Z = X) ∧ X.payload = .eip1559 t ∧
      SignedBy d (ofBE (Sha3.keccak256 X.payload.preimage)) X.r X.s X.parity ∧
      (txDecoder m w (some (hexOf bytes)) : Out ε _) = .ok (X.text ++ [10]) ∧
      ∃ z pre pk list, bytes = 2 :: list ∧ decode m (decTransactionEip1559 m w) list = .ok z ∧
        (encodeM (PayloadEip1559.encodeTo m w) z.payload : Out ε _) = .ok pre ∧ (key.publicKey m w : Out ε _) = .ok pk ∧
        (∃ keys, recover m w ⟨z.r, z.s, key.params⟩ (Sha3.keccak256 (2 :: pre)) none = .ok keys ∧ ∃ k ∈ keys, SameKey w k pk) ∧
        (Secp256k1.p ≤ X.r + Secp256k1.n → ∃ k, recover m w ⟨z.r, z.s, key.params⟩ (Sha3.keccak256 (2 :: pre)) (RecoveryId.fromU8 z.yParity.toU8) = .ok [k] ∧
          SameKey w k pk) := by
  obtain ⟨hpay, r, s, parity, hr, hs, hpar, hv, hsig, -, hz2⟩ :=
    C43_eip1559 m w d hd0 hdn key hkey hd o rand hrand fuel nonceFuel x t hx (by omega) hpanic y hy
  have hseq := rlpListOf_ge (rlpSeq t.fields)
  have hpl : (Payload.eip1559 t).preimage.length = (rlpListOf (rlpSeq t.fields)).length + 1 := rfl
  have hvl : (minBE y.yParity.toU8.toNat).length ≤ 1 := minBE_length_le _ 1 (by omega)
  have hlen := signed_length t.fields y.yParity.toU8.toNat r s (by omega) (by omega) hsig.2.1 hsig.2.2.2.1
  obtain ⟨e1, z, e2, a1, a2, a3, a4⟩ := C42_eip1559 (ε := ε) m w y t r s (hpay ▸ hx) hr hs (by omega)
  rw [hv] at e1 e2 hlen hvl
  have hval : (Signed.eip1559 t parity r s).Valid := ⟨Eip1559Of.valid hx, by omega⟩
  have hb := C61_encoding (Signed.eip1559 t parity r s) hval (by show (2 :: rlp (signedList t.fields parity r s)).length < _; rw [List.length_cons]; omega)
  have hbl : (2 :: rlp (signedList t.fields parity r s)).length < 2 ^ 63 := by rw [List.length_cons]; omega
  have hpre : (encodeM (PayloadEip1559.encodeTo m w) z.payload : Out ε _) = .ok (rlp (.list t.fields)) :=
    encodeM_eq (payloadEip1559_enc m a1) (by rw [rlp]; omega)
  have hh := keccak_length (Payload.eip1559 t).preimage
  have hsend := sender (ε := ε) m w d hd0 hdn key hkey hd (Sha3.keccak256 (Payload.eip1559 t).preimage) hh (hz.elim hz2 (fun h => h)) z.r z.s r s parity a3 a4 hsig
    (RecoveryId.fromU8 z.yParity.toU8) (by
      rw [a2, ← hv, UInt8.ofNat_toNat])
  obtain ⟨pk, s1, s2, s3⟩ := hsend
  refine ⟨.eip1559 t parity r s, _, e1, hb, fun Z hZ => C61_unique _ (by exact Nat.lt_trans hbl (by decide)) _ _ hZ hb, rfl, ?_, ?_, z, _, pk, _, rfl, e2, hpre, s1, s2, ?_⟩
  · exact hsig
  · exact C61_prints_partial m w _ _ (by rw [hexOf_length]; exact (by omega : ∀ n : Nat, n < 2 ^ 63 → 2 * n < 2 ^ 64) _ hbl) (hexInput_hexOf _) _ hb (fun _ _ _ _ h => nomatch h)
  · intro h
    exact s3 (by rw [a3.2]; exact_mod_cast h)

/-- C62, EIP-155: the bytes that are sent stand for exactly one transaction: the payload that was signed, with a signature of it by the signer.
Missing: what the receiver makes of them (see `C62_eip155_receiver_violated`). -/
theorem C62_eip155_partial (x : PayloadEip155) (t : Eip155) (hx : Eip155Of w x t) (hl : (Payload.eip155 t).preimage.length < 2 ^ 62)
    (y : TransactionEip155) (hy : x.sign m w fuel nonceFuel rand key o = .ok y) :
    ∃ X bytes, (y.encode m w : Out ε _) = .ok bytes ∧
      Signed.IsEncodedBy X bytes ∧ (∀ Z, Signed.IsEncodedBy Z bytes → Z = X) ∧ X.payload = .eip155 t ∧
      SignedBy d (ofBE (Sha3.keccak256 X.payload.preimage)) X.r X.s X.parity ∧
      (txDecoder m w (some (hexOf bytes)) : Out ε _) = .ok (X.halved.text ++ [10]) := by
  obtain ⟨hpay, r, s, parity, hr, hs, hpar, hv, hsig, -, -⟩ :=
    C43_eip155 m w d hd0 hdn key hkey hd o rand hrand fuel nonceFuel x t hx (by omega) hpanic y hy
  have hlen := eip155_length t r s parity hl hpar hsig.2.1 hsig.2.2.2.1
  obtain ⟨e1, -⟩ := C41_round_trip_partial (ε := ε) m w y t _ r s (hpay ▸ hx) hv hr hs (by omega) (Nat.lt_trans hlen (by decide))
  have hval : (Signed.eip155 t (35 + 2 * t.chainId + parity) r s).Valid := ⟨Eip155Of.valid hx, by omega, by omega⟩
  have hb := C61_encoding _ hval (Nat.lt_trans hlen (by decide))
  refine ⟨.eip155 t (35 + 2 * t.chainId + parity) r s, _, e1, hb, fun Z hZ => C61_unique _ (Nat.lt_trans hlen (by decide)) _ _ hZ hb, rfl, ?_, ?_⟩
  · rw [show Signed.parity (.eip155 t (35 + 2 * t.chainId + parity) r s) = parity by simp only [Signed.parity]; omega]
    exact hsig
  · exact (C61_prints_iff m w _ _ (by rw [hexOf_length]; exact (by omega : ∀ n : Nat, n < 2 ^ 63 → 2 * n < 2 ^ 64) _ hlen)).mpr
      ⟨_, _, hexInput_hexOf _, hb, rfl⟩

/-- C62, EIP-155 (negation): the receiver decodes the bytes without an error, but for every chain id greater than zero the preimage that the
decoded payload is encoded to is not the one that was signed. -/
theorem C62_eip155_receiver_violated (x : PayloadEip155) (t : Eip155) (hx : Eip155Of w x t) (hc : 0 < t.chainId)
    (hl : (Payload.eip155 t).preimage.length < 2 ^ 62) (y : TransactionEip155) (hy : x.sign m w fuel nonceFuel rand key o = .ok y) :
    ∃ bytes z pre, (y.encode m w : Out ε _) = .ok bytes ∧ decode m (decTransactionEip155 m w) bytes = .ok z ∧
      (encodeM (PayloadEip155.encodeTo m w) z.payload : Out ε _) = .ok pre ∧ pre ≠ (Payload.eip155 t).preimage := by
  obtain ⟨hpay, r, s, parity, hr, hs, hpar, hv, hsig, -, -⟩ :=
    C43_eip155 m w d hd0 hdn key hkey hd o rand hrand fuel nonceFuel x t hx (by omega) hpanic y hy
  have hlen := eip155_length t r s parity hl hpar hsig.2.1 hsig.2.2.2.1
  obtain ⟨e1, z, e2, a1, -⟩ := C41_round_trip_partial (ε := ε) m w y t _ r s (hpay ▸ hx) hv hr hs (by omega) (Nat.lt_trans hlen (by decide))
  have hc4 : (35 + 2 * t.chainId + parity - 35) / 4 ≤ t.chainId := by omega
  have hpl : (Payload.eip155 { t with chainId := (35 + 2 * t.chainId + parity - 35) / 4 }).preimage.length < 2 ^ 64 := by
    have h0 := rlpListOf_ge (rlpSeq (t.fields ++ [num t.chainId, num 0, num 0]))
    have h1 := minBE_length_mono hc4
    have h2 := rlpBytes_ge (minBE t.chainId)
    have e0 : (Payload.eip155 t).preimage.length = (rlpListOf (rlpSeq (t.fields ++ [num t.chainId, num 0, num 0]))).length := rfl
    have e3 : (Payload.eip155 { t with chainId := (35 + 2 * t.chainId + parity - 35) / 4 }).preimage.length =
      (rlpListOf (rlpSeq (t.fields ++ [num ((35 + 2 * t.chainId + parity - 35) / 4), num 0, num 0]))).length := rfl
    rw [e3]
    have es : (rlpSeq (t.fields ++ [num t.chainId, num 0, num 0])).length =
        (rlpSeq t.fields).length + ((rlpBytes (minBE t.chainId)).length + ((rlpBytes (minBE 0)).length + (rlpBytes (minBE 0)).length)) := by
      rw [rlpSeq_append', List.length_append]
      simp only [rlpSeq, rlp, num, List.length_append, List.append_nil]
    have h3 := (rlpBytes_length_le (minBE ((35 + 2 * t.chainId + parity - 35) / 4)) (by omega)).2
    have e4 : (rlpSeq (t.fields ++ [num ((35 + 2 * t.chainId + parity - 35) / 4), num 0, num 0])).length =
        (rlpSeq t.fields).length + ((rlpBytes (minBE ((35 + 2 * t.chainId + parity - 35) / 4))).length + ((rlpBytes (minBE 0)).length +
          (rlpBytes (minBE 0)).length)) := by
      rw [rlpSeq_append', List.length_append]
      simp only [rlpSeq, rlp, num, List.length_append, List.append_nil]
    have h5 := (rlpListOf_length_le (rlpSeq (t.fields ++ [num ((35 + 2 * t.chainId + parity - 35) / 4), num 0, num 0])) (by omega)).2
    omega
  refine ⟨_, z, _, e1, e2, encodeM_eq (payloadEip155_enc m a1) hpl, fun h => ?_⟩
  have := C44_injective _ _ hpl h
  simp only [Payload.eip155.injEq] at this
  have := congrArg Eip155.chainId this
  simp only at this
  omega

end

/-! The payload published in EIP-155, signed with the published key: its chain id is 1, and it is signed, so all hypotheses above can be met. -/

example (m : Build) (w : Nat) [DigitWidth w] (key : PrivateKey) (hkey : (secp256k1 w : Out Unit _) = .ok key.params)
    (hd : Denotes w key.data Published.d) (x : PayloadEip155) (hx : Eip155Of w x exampleFields) :
    ∃ y fuel bytes z pre, x.sign m w fuel fuel (fun _ => .err .LinuxGetRandomCopiedNumberLessThanRequested) key
        { SigningOptions.default with employExtraRandomData := false } = .ok y ∧
      (y.encode m w : Out Unit _) = .ok bytes ∧ decode m (decTransactionEip155 m w) bytes = .ok z ∧
      (encodeM (PayloadEip155.encodeTo m w) z.payload : Out Unit _) = .ok pre ∧ pre ≠ (Payload.eip155 exampleFields).preimage := by
  have hrand : ∀ (i : Nat) bytes, (fun _ : Nat => (.err .LinuxGetRandomCopiedNumberLessThanRequested : Out RandomError (List UInt8))) i = .ok bytes →
    bytes.length = 32 := fun i bytes h => nomatch h
  obtain ⟨f, h⟩ := Published.C43_published m w key hkey hd { SigningOptions.default with employExtraRandomData := false } rfl
    (fun _ => .err .LinuxGetRandomCopiedNumberLessThanRequested) hrand (fun i h => nomatch h) x hx
  obtain ⟨y, hy, -⟩ := h f f (Nat.le_refl f) (Nat.le_refl f)
  obtain ⟨bytes, z, pre, h⟩ := C62_eip155_receiver_violated (ε := Unit) m w Published.d (by decide) (by decide) key hkey hd _ _ hrand
    (fun i h => nomatch h) f f x exampleFields hx (by decide) (by rw [Published.preimage_eq]; decide) y hy
  exact ⟨y, f, bytes, z, pre, hy, h⟩

end LCT.Props
