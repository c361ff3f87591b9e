import Verif.Lemmas.Widths.Programs
import Verif.Props.Published

/-!
# Builds with 8-bit and with 64-bit digits give the same results (C70)

`w` and `w'` are the digit widths of two builds (8 with the configuration flag `u8_digit`, 64 without it), `m` is the build mode of both.
Related arguments (`Verif.Spec.Widths`: the same integers, points, keys, signatures, transactions) give related results, or the same error, or a
panic in both builds, or no end in both builds (`Agree`); where a function returns bytes, text, machine integers or truth values, these are
equal.  Nothing else is assumed of the arguments: the parameters need not be those of a curve, and the modulus need not be prime.
-/

namespace LCT.Props
open LCT.BigInt LCT.Spec LCT.Out LCT.Modular LCT.Curve LCT.Crypto LCT.Hash LCT.Random LCT.Ethereum LCT.Rlp
variable {ε : Type}

section
variable (m : Build) (w w' : Nat) [hw : DigitWidth w] [hw' : DigitWidth w']

/-- C70: arithmetic, order, conversions and bits, for all integers. -/
theorem C70_integers (x x' y y' : BInt) (hx : SameInt w w' x x') (hy : SameInt w w' y y') (n : Nat) :
    Agree (SameInt w w') (BInt.add m w x y : Out ε _) (BInt.add m w' x' y') ∧
    Agree (SameInt w w') (BInt.sub m w x y : Out ε _) (BInt.sub m w' x' y') ∧
    Agree (SameInt w w') (BInt.mul m w x y : Out ε _) (BInt.mul m w' x' y') ∧
    Agree (SameInt w w') (BInt.div m w x y : Out ε _) (BInt.div m w' x' y') ∧
    Agree (SameInt w w') (BInt.rem m w x y : Out ε _) (BInt.rem m w' x' y') ∧
    Agree (SameInt w w') (BInt.shr m w x n : Out ε _) (BInt.shr m w' x' n) ∧ SameInt w w' x.neg x'.neg ∧
    (BInt.cmp m x y : Out ε _) = BInt.cmp m x' y' ∧ (BInt.beq m x y : Out ε _) = BInt.beq m x' y' ∧
    (BInt.isZero m x : Out ε _) = BInt.isZero m x' ∧ (x.isEven : Out ε _) = x'.isEven ∧ (x.isOdd : Out ε _) = x'.isOdd ∧
    (BInt.bitLen m w x : Out ε _) = BInt.bitLen m w' x' ∧ (BInt.byteLen m w x : Out ε _) = BInt.byteLen m w' x' ∧
    (BInt.trailingZeros m w x : Out ε _) = BInt.trailingZeros m w' x' ∧ (BInt.leBits m w x : Out ε _) = BInt.leBits m w' x' ∧
    (BInt.toBeBytes m w x : Out ε _) = BInt.toBeBytes m w' x' ∧ (BInt.toLowerHex m w x : Out ε _) = BInt.toLowerHex m w' x' ∧
    (BInt.display m w x : Out ε _) = BInt.display m w' x' :=
  ⟨Widths.add m w w' hx hy, Widths.sub m w w' hx hy, Widths.mul m w w' hx hy, Widths.div m w w' hx hy, Widths.rem m w w' hx hy,
    Widths.shr m w w' hx n, Widths.neg w w' hx, (Widths.cmp m w w' hx hy).eq, (Widths.beq m w w' hx hy).eq, (Widths.isZero m w w' hx).eq,
    (Widths.isEven w w' hx hw hw').eq, (Widths.isOdd w w' hx hw hw').eq, (Widths.bitLen m w w' hx).eq, (Widths.byteLen m w w' hx).eq,
    (Widths.trailingZeros m w w' hx).eq, (Widths.leBits m w w' hx).eq, (Widths.toBeBytes m w w' hx).eq, (Widths.toLowerHex m w w' hx).eq,
    (Widths.display m w w' hx).eq⟩

/-- C70, partial: left shift.  Missing: zero shifted by a positive multiple of one of the digit widths, where the claim is false, see
`C70_shl_violated`. -/
theorem C70_shl_partial (x x' : BInt) (hx : SameInt w w' x x') (n : Nat) (h : toInt w x ≠ 0 ∨ n = 0 ∨ (n % w ≠ 0 ∧ n % w' ≠ 0)) :
    Agree (SameInt w w') (BInt.shl w x n : Out ε _) (BInt.shl w' x' n) := Widths.shl w w' hx n h

/-- C70: numbers from machine integers, bytes and text: the same texts are accepted, with the same values and errors. -/
theorem C70_sources (n : Nat) (i : Int) (h1 : -2 ^ 127 ≤ i) (h2 : i < 2 ^ 127) (bs s : List UInt8) (sg : Sign) (radix : Nat)
    (hr : 2 ≤ radix) (hr' : radix ≤ 36) :
    Agree (SameInt w w') (BInt.ofNat w n : Out ε _) (BInt.ofNat w' n) ∧ Agree (SameInt w w') (BInt.ofInt w i : Out ε _) (BInt.ofInt w' i) ∧
    Agree (SameInt w w') (BInt.fromBeBytes w bs sg : Out ε _) (BInt.fromBeBytes w' bs sg) ∧
    Agree (SameInt w w') (BInt.fromHex w s) (BInt.fromHex w' s) ∧
    Agree (SameInt w w') (BInt.fromStrRadix m w s radix) (BInt.fromStrRadix m w' s radix) ∧
    Agree (SameInt w w') (BUint.fromHex w s) (BUint.fromHex w' s) ∧
    Agree (SameInt w w') (BUint.tryFromStr m w s) (BUint.tryFromStr m w' s) :=
  ⟨Widths.ofNat w w' n, Widths.ofInt w w' i h1 h2, (Widths.fromBeBytes w w' bs sg).mono fun _ _ h => h.1,
    (Widths.fromHex w w' s).mono fun _ _ h => h.1, Widths.fromStrRadix m w w' s hr hr', Widths.buintFromHex w w' s, Widths.tryFromStr m w w' s⟩

/-- C70: modular arithmetic, for all integers. -/
theorem C70_modular (x x' y y' z z' : BInt) (hx : SameInt w w' x x') (hy : SameInt w w' y y') (hz : SameInt w w' z z') :
    Agree (SameInt w w') (modulo m w x z : Out ε _) (modulo m w' x' z') ∧
    Agree (SameInt w w') (pow m w x y z : Out ε _) (pow m w' x' y' z') ∧
    Agree (AgreeOpt (SameInt w w')) (invert m w x z : Out ε _) (invert m w' x' z') ∧
    Agree (AgreeOpt fun q q' => SameInt w w' q.1 q'.1 ∧ SameInt w w' q.2 q'.2) (sqrt m w x z : Out ε _) (sqrt m w' x' z') :=
  ⟨Widths.modulo m w w' hx hz, Widths.pow m w w' hx hy hz, Widths.invert m w w' hx hz, Widths.sqrt m w w' hx hz⟩

/-- C70: the group operations, for all coefficients and coordinates. -/
theorem C70_points (c c' : Curve) (a a' b b' : Point) (n n' : BInt) (hc : SameCurve w w' c c') (ha : SamePoint w w' a a')
    (hb : SamePoint w w' b b') (hn : SameInt w w' n n') :
    Agree (SamePoint w w') (addPoints m w c a b : Out ε _) (addPoints m w' c' a' b') ∧
    Agree (SamePoint w w') (mulPoint m w c a n : Out ε _) (mulPoint m w' c' a' n') ∧
    (a.isIdentity m : Out ε _) = a'.isIdentity m ∧ (Point.beq m a b : Out ε _) = Point.beq m a' b' :=
  ⟨Widths.addPoints m w w' hc ha hb, Widths.mulPoint m w w' hc ha hn, (Widths.isIdentity m w w' ha).eq, (Widths.pointBeq m w w' ha hb).eq⟩

/-- C70: the constants of secp256k1. -/
theorem C70_secp256k1 : Agree (SameParams w w') (secp256k1 w : Out ε _) (secp256k1 w') := Widths.secp256k1 w w'

variable (cp cp' : Params) (hcp : SameParams w w' cp cp')
include hcp

/-- C70: which points, keys and signatures are accepted, and the public key of a private key. -/
theorem C70_keys (a a' : Point) (d d' r r' s s' : BInt) (k k' : PrivateKey) (ha : SamePoint w w' a a') (hd : SameInt w w' d d')
    (hr : SameInt w w' r r') (hs : SameInt w w' s s') (hk : SamePrivate w w' k k') :
    (cp.validatePoint m w a : Out ε _) = cp'.validatePoint m w' a' ∧
    Agree (AgreeOpt (SamePrivate w w')) (PrivateKey.new m w d cp : Out ε _) (PrivateKey.new m w' d' cp') ∧
    Agree (AgreeOpt (SamePublic w w')) (PublicKey.new m w a cp : Out ε _) (PublicKey.new m w' a' cp') ∧
    Agree (AgreeOpt (SameSignature w w')) (Signature.new m w r s cp : Out ε _) (Signature.new m w' r' s' cp') ∧
    Agree (SamePublic w w') (k.publicKey m w : Out ε _) (k'.publicKey m w') := by
  refine ⟨(Widths.validatePoint m w w' hcp ha).eq, Widths.privateNew m w w' hcp hd, Widths.publicNew m w w' hcp ha,
    (Widths.signatureNew m w w' hcp hr hs).mono fun o o' h => ?_, Widths.publicKey m w w' hk⟩
  cases h with
  | some h => exact .some h.same
  | none => exact .none

/-- C70: the encodings of signatures and public keys. -/
theorem C70_encodings (text : List UInt8) (compressed : Bool) (sig sig' : Signature) (k k' : PublicKey) (hs : SameSignature w w' sig sig')
    (hk : SamePublic w w' k k') :
    Agree (SameSignature w w') (Signature.fromP1363Hex m w text cp) (Signature.fromP1363Hex m w' text cp') ∧
    (sig.toP1363Hex m w : Out ε _) = sig'.toP1363Hex m w' ∧
    Agree (SamePublic w w') (PublicKey.fromSec1Hex m w text cp) (PublicKey.fromSec1Hex m w' text cp') ∧
    (k.toSec1Hex m w compressed : Out ε _) = k'.toSec1Hex m w' compressed :=
  ⟨Widths.fromP1363Hex m w w' hcp text, (Widths.toP1363Hex m w w' hs).eq, Widths.fromSec1Hex m w w' hcp text,
    (Widths.toSec1Hex m w w' hk compressed).eq⟩

omit hcp

/-- C70: signing: with the same random bytes, the same signature, recovery id or error after the same number of attempts, for every hasher and
all options. -/
theorem C70_signing (H : Hasher) (st : H.State) (f nf : Nat) (rand : Nat → Out RandomError (List UInt8)) (hash : List UInt8)
    (o : SigningOptions) (k k' : PrivateKey) (hk : SamePrivate w w' k k') :
    Agree (fun z z' => SameSignature w w' z.1 z'.1 ∧ z.2 = z'.2) (signWithOptions m w H f nf st rand hash k o)
      (signWithOptions m w' H f nf st rand hash k' o) :=
  (Widths.signWithOptions m w w' hk f nf st rand hash o).mono fun _ _ h => ⟨h.1.same, h.2⟩

/-- C70: verification and recovery. -/
theorem C70_verifying (hash : List UInt8) (sig sig' : Signature) (hs : SameSignature w w' sig sig') (k k' : PublicKey)
    (hk : SamePublic w w' k k') (vo : VerifyingOptions) (ro : RecoveryOptions) (id : Option RecoveryId) :
    verifyWithOptions m w hash sig k vo = verifyWithOptions m w' hash sig' k' vo ∧
    Agree (List.Forall₂ (SamePublic w w')) (recoverWithOptions m w sig hash id ro) (recoverWithOptions m w' sig' hash id ro) :=
  ⟨(Widths.verifyWithOptions m w w' hash hs hk vo).eq, Widths.recoverWithOptions m w w' hs hash id ro⟩

/-- C70: accounts. -/
theorem C70_accounts (data : List UInt8) (len : data.length = 32) (k k' : PublicKey) (hk : SamePublic w w' k k') :
    Agree (AgreeOpt (SamePrivate w w')) (EoaPrivateKey.new m w data len : Out ε _) (EoaPrivateKey.new m w' data len) ∧
    (EoaPublicKey.address m w k : Out ε _) = EoaPublicKey.address m w' k' :=
  ⟨Widths.eoaNew m w w' data len, (Widths.address m w w' hk).eq⟩

omit hw hw' in
/-- C70: builders. -/
theorem C70_builder (b b' : Builder) (hb : SameBuilder w w' b b') :
    Agree (fun z z' => AgreeRes (SamePayloadLegacy w w') z.1 z'.1 ∧ SameBuilder w w' z.2 z'.2) (b.takeAndBuildLegacy : Out ε _)
      b'.takeAndBuildLegacy ∧
    Agree (fun z z' => AgreeRes (SamePayloadEip155 w w') z.1 z'.1 ∧ SameBuilder w w' z.2 z'.2) (b.takeAndBuildEip155 : Out ε _)
      b'.takeAndBuildEip155 ∧
    Agree (fun z z' => AgreeRes (SamePayloadEip2930 w w') z.1 z'.1 ∧ SameBuilder w w' z.2 z'.2) (b.takeAndBuildEip2930 : Out ε _)
      b'.takeAndBuildEip2930 ∧
    Agree (fun z z' => AgreeRes (SamePayloadEip1559 w w') z.1 z'.1 ∧ SameBuilder w w' z.2 z'.2) (b.takeAndBuildEip1559 : Out ε _)
      b'.takeAndBuildEip1559 :=
  ⟨Widths.takeAndBuildLegacy w w' hb, Widths.takeAndBuildEip155 w w' hb, Widths.takeAndBuildEip2930 w w' hb,
    Widths.takeAndBuildEip1559 w w' hb⟩

/-- C70: signing a legacy, EIP-155, EIP-2930 or EIP-1559 payload. -/
theorem C70_transaction_signing (f nf : Nat) (rand : Nat → Out RandomError (List UInt8)) (o : SigningOptions) (k k' : PrivateKey)
    (hk : SamePrivate w w' k k') (p1 p1' : PayloadLegacy) (h1 : SamePayloadLegacy w w' p1 p1') (p2 p2' : PayloadEip155)
    (h2 : SamePayloadEip155 w w' p2 p2') (p3 p3' : PayloadEip2930) (h3 : SamePayloadEip2930 w w' p3 p3') (p4 p4' : PayloadEip1559)
    (h4 : SamePayloadEip1559 w w' p4 p4') :
    Agree (SameLegacy w w') (p1.sign m w f nf rand k o) (p1'.sign m w' f nf rand k' o) ∧
    Agree (SameEip155 w w') (p2.sign m w f nf rand k o) (p2'.sign m w' f nf rand k' o) ∧
    Agree (SameEip2930 w w') (p3.sign m w f nf rand k o) (p3'.sign m w' f nf rand k' o) ∧
    Agree (SameEip1559 w w') (p4.sign m w f nf rand k o) (p4'.sign m w' f nf rand k' o) :=
  ⟨Widths.signLegacy m w w' f nf rand o hk h1, Widths.signEip155 m w w' f nf rand o hk h2, Widths.signEip2930 m w w' f nf rand o hk h3,
    Widths.signEip1559 m w w' f nf rand o hk h4⟩

/-- C70: encoding and printing transactions. -/
theorem C70_transaction_output (t1 t1' : TransactionLegacy) (h1 : SameLegacy w w' t1 t1') (t2 t2' : TransactionEip155)
    (h2 : SameEip155 w w' t2 t2') (t3 t3' : TransactionEip2930) (h3 : SameEip2930 w w' t3 t3') (t4 t4' : TransactionEip1559)
    (h4 : SameEip1559 w w' t4 t4') :
    (t1.encode m w : Out ε _) = t1'.encode m w' ∧ (t2.encode m w : Out ε _) = t2'.encode m w' ∧
    (t3.encode m w : Out ε _) = t3'.encode m w' ∧ (t4.encode m w : Out ε _) = t4'.encode m w' ∧
    (t1.display m w : Out ε _) = t1'.display m w' ∧ (t2.display m w : Out ε _) = t2'.display m w' ∧
    (t3.display m w : Out ε _) = t3'.display m w' ∧ (t4.display m w : Out ε _) = t4'.display m w' :=
  ⟨(Widths.encodeLegacy m w w' h1).eq, (Widths.encodeEip155 m w w' h2).eq, (Widths.encodeEip2930 m w w' h3).eq,
    (Widths.encodeEip1559 m w w' h4).eq, (Widths.displayLegacy m w w' h1).eq, (Widths.displayEip155 m w w' h2).eq,
    (Widths.displayEip2930 m w w' h3).eq, (Widths.displayEip1559 m w w' h4).eq⟩

/-- C70: decoding transactions: the same byte strings are accepted, with the same values and errors. -/
theorem C70_transaction_decoding (data : List UInt8) :
    Agree (SameLegacy w w') (decode m (decTransactionLegacy m w) data) (decode m (decTransactionLegacy m w') data) ∧
    Agree (SameEip155 w w') (decode m (decTransactionEip155 m w) data) (decode m (decTransactionEip155 m w') data) ∧
    Agree (SameEip2930 w w') (decode m (decTransactionEip2930 m w) data) (decode m (decTransactionEip2930 m w') data) ∧
    Agree (SameEip1559 w w') (decode m (decTransactionEip1559 m w) data) (decode m (decTransactionEip1559 m w') data) :=
  ⟨Widths.decode m (Widths.decLegacy m w w') data, Widths.decode m (Widths.decEip155 m w w') data,
    Widths.decode m (Widths.decEip2930 m w w') data, Widths.decode m (Widths.decEip1559 m w w') data⟩

/-- C70: the example programs print the same text. -/
theorem C70_programs (arg : Option (List UInt8)) (fuel : Nat) (clock : Nat → Option Nat) (random : Nat → Out RandomError (List UInt8)) :
    (Examples.txDecoder m w arg : Out ε _) = Examples.txDecoder m w' arg ∧
    (Examples.keyToAddress m w arg : Out ε _) = Examples.keyToAddress m w' arg ∧
    (Examples.vanityAddress m w fuel clock random arg : Out ε _) = Examples.vanityAddress m w' fuel clock random arg :=
  ⟨(Widths.txDecoder m w w' arg).eq, (Widths.keyToAddress m w w' arg).eq, (Widths.vanityAddress m w w' fuel clock random arg).eq⟩

end

/-- C70 is violated by a left shift of zero: with 64-bit digits `0 << 8` is zero, and with 8-bit digits it is a number that is not equal to
zero (release builds) or whose comparison with zero panics (debug builds). -/
theorem C70_shl_violated :
    ∃ x x', SameInt 8 64 x x' ∧ ¬ Agree (SameInt 8 64) (BInt.shl 8 x 8 : Out ε _) (BInt.shl 64 x' 8) ∧
      (BInt.shl 64 x' 8 >>= BInt.isZero .release : Out ε Bool) = .ok true ∧ (BInt.shl 8 x 8 >>= BInt.isZero .release : Out ε Bool) = .ok false ∧
      (BInt.shl 64 x' 8 >>= BInt.isZero .debug : Out ε Bool) = .ok true ∧ (BInt.shl 8 x 8 >>= BInt.isZero .debug : Out ε Bool) = .panic := by
  have d8 : Denotes 8 ⟨[0], 1, .positive⟩ 0 := ⟨⟨by decide, by decide, by decide, by decide, by decide⟩, by decide⟩
  refine ⟨⟨[0], 1, .positive⟩, ⟨[0], 1, .positive⟩, ⟨0, d8, ⟨by decide, by decide, by decide, by decide, by decide⟩, by decide⟩, ?_, by rfl, by rfl, by rfl, by rfl⟩
  intro h
  obtain ⟨z, e, hz⟩ := C04_shl_zero_violated (ε := ε) 1 (by omega) _ d8 1 (by omega)
  rw [e] at h
  cases h with
  | ok h => exact hz h.choose_spec.1.1

/-! ## The hypotheses can be met -/

theorem sameInt_example : SameInt 8 64 ⟨[2, 1], 2, .positive⟩ ⟨[258], 1, .positive⟩ :=
  ⟨258, ⟨⟨by decide, by decide, by decide, by decide, by decide⟩, by decide⟩, ⟨by decide, by decide, by decide, by decide, by decide⟩, by decide⟩

example : ∃ k k', SamePrivate 8 64 k k' ∧ ∃ pk pk', (k.publicKey .debug 8 : Out Unit _) = .ok pk ∧ (k'.publicKey .debug 64 : Out Unit _) = .ok pk' ∧
    SamePublic 8 64 pk pk' := by
  obtain ⟨cp, e, h⟩ := secp256k1_y (ε := Unit) 8
  obtain ⟨cp', e', h'⟩ := secp256k1_y (ε := Unit) 64
  have hc := C70_secp256k1 (ε := Unit) 8 64
  rw [e, e'] at hc
  cases hc with
  | ok hc =>
    refine ⟨⟨_, cp⟩, ⟨_, cp'⟩, ⟨sameInt_example, hc⟩, ?_⟩
    have hk := (C70_keys (ε := Unit) .debug 8 64 cp cp' hc _ _ _ _ _ _ _ _ _ _ hc.basePoint sameInt_example sameInt_example sameInt_example
      (⟨sameInt_example, hc⟩ : SamePrivate 8 64 ⟨_, cp⟩ ⟨_, cp'⟩)).2.2.2.2
    obtain ⟨pk, e2, _⟩ := publicKey_y (ε := Unit) .debug h.1 (key := ⟨⟨[2, 1], 2, .positive⟩, cp⟩) rfl (d := 258)
      (show Denotes 8 ⟨[2, 1], 2, .positive⟩ _ from ⟨⟨by decide, by decide, by decide, by decide, by decide⟩, by decide⟩) (cast_ne_zero_of_lt (by decide) (by decide))
    rw [e2] at hk
    generalize (PrivateKey.publicKey .debug 64 ⟨⟨[258], 1, .positive⟩, cp'⟩ : Out Unit PublicKey) = u at hk ⊢
    cases hk with
    | ok hk => exact ⟨pk, _, e2, rfl, hk⟩

/-- Builders, payloads and transactions that are the same. -/
example : ∃ b b', SameBuilder 8 64 b b' ∧ ∃ p p' c c', (b.takeAndBuildLegacy : Out Unit _) = .ok (.ok p, c) ∧
    (b'.takeAndBuildLegacy : Out Unit _) = .ok (.ok p', c') ∧ SamePayloadLegacy 8 64 p p' ∧ SameLegacy 8 64 ⟨p, 27, p.amount, p.amount⟩
      ⟨p', 27, p'.amount, p'.amount⟩ :=
  ⟨⟨none, some ⟨0⟩, some ⟨[2, 1], 2, .positive⟩, none, none, some 21000, some Address.null, some ⟨[2, 1], 2, .positive⟩, none, none⟩,
    ⟨none, some ⟨0⟩, some ⟨[258], 1, .positive⟩, none, none, some 21000, some Address.null, some ⟨[258], 1, .positive⟩, none, none⟩,
    ⟨.none, rfl, .some sameInt_example, .none, .none, rfl, rfl, .some sameInt_example, rfl, rfl⟩, _, _, _, _, rfl, rfl,
    ⟨rfl, sameInt_example, rfl, rfl, sameInt_example, rfl⟩,
    ⟨⟨rfl, sameInt_example, rfl, rfl, sameInt_example, rfl⟩, rfl, sameInt_example, sameInt_example⟩⟩

end LCT.Props
