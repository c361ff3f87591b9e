import Verif.Lemmas.Equality
import Verif.Props.Widths

/-!
# Values that compare equal are interchangeable (C84)

A number can be held in several ways: with more or less spare storage, and zero with either sign.  `==` (as the code computes it, derived
implementations included) answers whether the values are the same, and no operation of the library tells equal values apart: results that are
numbers, points, keys compare equal again, and results that are bytes, text, machine integers, truth values, errors or panics are the same.
`w` is the digit width and `m` the build mode.  `SameInt w w x x`, `SamePoint w w a a`, … only say that the numbers in a value are well formed.
-/

namespace LCT.Props
open LCT.BigInt LCT.Spec LCT.Out LCT.Modular LCT.Curve LCT.Crypto LCT.Hash LCT.Random LCT.Ethereum LCT.Rlp
variable {ε : Type} (m : Build) (w : Nat)

/-! ## The test -/

/-- C84: `==` on numbers always answers, and answers whether they are the same integer. -/
theorem C84_int (x y : BInt) (hx : SameInt w w x x) (hy : SameInt w w y y) : Answers (BInt.beq m x y) (SameInt w w x y) :=
  answers_int m w x y hx hy

/-- C84: the same on points. -/
theorem C84_point (a b : Point) (ha : SamePoint w w a a) (hb : SamePoint w w b b) : Answers (Point.beq m a b) (SamePoint w w a b) :=
  answers_point m w a b ha hb

/-- C84: the same on curves. -/
theorem C84_curve (c d : Curve) (hc : SameCurve w w c c) (hd : SameCurve w w d d) : Answers (Curve.beq m c d) (SameCurve w w c d) :=
  answers_curve m w c d hc hd

/-- C84: the same on curve parameters. -/
theorem C84_params (c d : Params) (hc : SameParams w w c c) (hd : SameParams w w d d) : Answers (Params.beq m c d) (SameParams w w c d) :=
  answers_params m w c d hc hd

/-- C84: the same on public keys. -/
theorem C84_public (k l : PublicKey) (hk : SamePublic w w k k) (hl : SamePublic w w l l) : Answers (PublicKey.beq m k l) (SamePublic w w k l) :=
  answers_public m w k l hk hl

/-- C84: on public keys `==` is reflexive, symmetric and transitive. -/
theorem C84_equivalence (j k l : PublicKey) (hj : SamePublic w w j j) (hk : SamePublic w w k k) (hl : SamePublic w w l l) :
    EqualPublic m j j ∧ (EqualPublic m j k → EqualPublic m k j) ∧ (EqualPublic m j k → EqualPublic m k l → EqualPublic m j l) :=
  ⟨hj.equal m, fun h => (((C84_public m w j k hj hk).iff.mp h).symm).equal m,
    fun h h' => (((C84_public m w j k hj hk).iff.mp h).trans ((C84_public m w k l hk hl).iff.mp h')).equal m⟩

variable [hw : DigitWidth w]

/-! ## Nothing tells equal values apart -/

section
variable (x x' y y' z z' : BInt) (hx : SameInt w w x x) (hx' : SameInt w w x' x') (hy : SameInt w w y y) (hy' : SameInt w w y' y')
  (hz : SameInt w w z z) (hz' : SameInt w w z' z') (ex : EqualInt m x x') (ey : EqualInt m y y') (ez : EqualInt m z z')
include hx hx' hy hy' ex ey

/-- C84: arithmetic, order, conversions and bits of equal numbers. -/
theorem C84_integers (n : Nat) :
    Agree (EqualInt m) (BInt.add m w x y : Out ε _) (BInt.add m w x' y') ∧
    Agree (EqualInt m) (BInt.sub m w x y : Out ε _) (BInt.sub m w x' y') ∧
    Agree (EqualInt m) (BInt.mul m w x y : Out ε _) (BInt.mul m w x' y') ∧
    Agree (EqualInt m) (BInt.div m w x y : Out ε _) (BInt.div m w x' y') ∧
    Agree (EqualInt m) (BInt.rem m w x y : Out ε _) (BInt.rem m w x' y') ∧
    Agree (EqualInt m) (BInt.shr m w x n : Out ε _) (BInt.shr m w x' n) ∧ EqualInt m x.neg x'.neg ∧
    (BInt.cmp m x y : Out ε _) = BInt.cmp m x' y' ∧ (BInt.beq m x y : Out ε _) = BInt.beq m x' y' ∧
    (BInt.isZero m x : Out ε _) = BInt.isZero m x' ∧ (x.isEven : Out ε _) = x'.isEven ∧ (x.isOdd : Out ε _) = x'.isOdd ∧
    (BInt.bitLen m w x : Out ε _) = BInt.bitLen m w x' ∧ (BInt.byteLen m w x : Out ε _) = BInt.byteLen m w x' ∧
    (BInt.trailingZeros m w x : Out ε _) = BInt.trailingZeros m w x' ∧ (BInt.leBits m w x : Out ε _) = BInt.leBits m w x' ∧
    (BInt.toBeBytes m w x : Out ε _) = BInt.toBeBytes m w x' ∧ (BInt.toLowerHex m w x : Out ε _) = BInt.toLowerHex m w x' ∧
    (BInt.display m w x : Out ε _) = BInt.display m w x' := by
  have sx := (C84_int m w x x' hx hx').iff.mp ex
  have sy := (C84_int m w y y' hy hy').iff.mp ey
  obtain ⟨h1, h2, h3, h4, h5, h6, h7, h⟩ := C70_integers (ε := ε) m w w x x' y y' sx sy n
  exact ⟨h1.mono fun _ _ => SameInt.equal m, h2.mono fun _ _ => SameInt.equal m, h3.mono fun _ _ => SameInt.equal m,
    h4.mono fun _ _ => SameInt.equal m, h5.mono fun _ _ => SameInt.equal m, h6.mono fun _ _ => SameInt.equal m, SameInt.equal m h7, h⟩

omit hy hy' ey in
/-- C84: left shifts of equal numbers, except a shift of zero by a multiple of the digit width (see `C04_shl_zero_violated`). -/
theorem C84_shl (n : Nat) (h : toInt w x ≠ 0 ∨ n = 0 ∨ n % w ≠ 0) :
    Agree (EqualInt m) (BInt.shl w x n : Out ε _) (BInt.shl w x' n) :=
  (C70_shl_partial (ε := ε) w w x x' ((C84_int m w x x' hx hx').iff.mp ex) n (by tauto)).mono fun _ _ => SameInt.equal m

include hz hz' ez

/-- C84: modular arithmetic. -/
theorem C84_modular :
    Agree (EqualInt m) (modulo m w x z : Out ε _) (modulo m w x' z') ∧
    Agree (EqualInt m) (pow m w x y z : Out ε _) (pow m w x' y' z') ∧
    Agree (AgreeOpt (EqualInt m)) (invert m w x z : Out ε _) (invert m w x' z') ∧
    Agree (AgreeOpt fun q q' => EqualInt m q.1 q'.1 ∧ EqualInt m q.2 q'.2) (sqrt m w x z : Out ε _) (sqrt m w x' z') := by
  obtain ⟨h1, h2, h3, h4⟩ := C70_modular (ε := ε) m w w x x' y y' z z' ((C84_int m w x x' hx hx').iff.mp ex)
    ((C84_int m w y y' hy hy').iff.mp ey) ((C84_int m w z z' hz hz').iff.mp ez)
  exact ⟨h1.mono fun _ _ => SameInt.equal m, h2.mono fun _ _ => SameInt.equal m, h3.mono fun _ _ => .mono fun _ _ => SameInt.equal m,
    h4.mono fun _ _ => .mono fun _ _ h => ⟨SameInt.equal m h.1, SameInt.equal m h.2⟩⟩

end

/-- C84: the group operations, on equal curves and equal points. -/
theorem C84_points (c c' : Curve) (a a' b b' : Point) (n n' : BInt) (hc : SameCurve w w c c) (hc' : SameCurve w w c' c')
    (ha : SamePoint w w a a) (ha' : SamePoint w w a' a') (hb : SamePoint w w b b) (hb' : SamePoint w w b' b') (hn : SameInt w w n n)
    (hn' : SameInt w w n' n') (ec : EqualCurve m c c') (ea : EqualPoint m a a') (eb : EqualPoint m b b') (en : EqualInt m n n') :
    Agree (EqualPoint m) (addPoints m w c a b : Out ε _) (addPoints m w c' a' b') ∧
    Agree (EqualPoint m) (mulPoint m w c a n : Out ε _) (mulPoint m w c' a' n') ∧
    (a.isIdentity m : Out ε _) = a'.isIdentity m ∧ (Point.beq m a b : Out ε _) = Point.beq m a' b' := by
  obtain ⟨h1, h2, h⟩ := C70_points (ε := ε) m w w c c' a a' b b' n n' ((C84_curve m w c c' hc hc').iff.mp ec)
    ((C84_point m w a a' ha ha').iff.mp ea) ((C84_point m w b b' hb hb').iff.mp eb) ((C84_int m w n n' hn hn').iff.mp en)
  exact ⟨h1.mono fun _ _ => SamePoint.equal m, h2.mono fun _ _ => SamePoint.equal m, h⟩

section
variable (cp cp' : Params) (hp : SameParams w w cp cp) (hp' : SameParams w w cp' cp') (ep : EqualParams m cp cp')
include hp hp' ep

/-- C84: keys and signatures from equal parts: one is accepted if and only if the other one is, equal private keys have equal public keys, and
the parts of the results compare equal. -/
theorem C84_keys (a a' : Point) (d d' r r' s s' : BInt) (ha : SamePoint w w a a) (ha' : SamePoint w w a' a') (hd : SameInt w w d d)
    (hd' : SameInt w w d' d') (hr : SameInt w w r r) (hr' : SameInt w w r' r') (hs : SameInt w w s s) (hs' : SameInt w w s' s')
    (ea : EqualPoint m a a') (ed : EqualInt m d d') (er : EqualInt m r r') (es : EqualInt m s s') :
    Agree (AgreeOpt fun k k' => EqualInt m k.data k'.data ∧ EqualParams m k.params k'.params) (PrivateKey.new m w d cp : Out ε _)
      (PrivateKey.new m w d' cp') ∧
    Agree (AgreeOpt (EqualPublic m)) (PublicKey.new m w a cp : Out ε _) (PublicKey.new m w a' cp') ∧
    Agree (AgreeOpt fun σ σ' => EqualInt m σ.r σ'.r ∧ EqualInt m σ.s σ'.s ∧ EqualParams m σ.params σ'.params)
      (Signature.new m w r s cp : Out ε _) (Signature.new m w r' s' cp') ∧
    Agree (EqualPublic m) ((⟨d, cp⟩ : PrivateKey).publicKey m w : Out ε _) ((⟨d', cp'⟩ : PrivateKey).publicKey m w) := by
  have sp := (C84_params m w cp cp' hp hp').iff.mp ep
  have sd := (C84_int m w d d' hd hd').iff.mp ed
  obtain ⟨-, h1, h2, h3, h4⟩ := C70_keys (ε := ε) m w w cp cp' sp a a' d d' r r' s s' ⟨d, cp⟩ ⟨d', cp'⟩ ((C84_point m w a a' ha ha').iff.mp ea) sd
    ((C84_int m w r r' hr hr').iff.mp er) ((C84_int m w s s' hs hs').iff.mp es) ⟨sd, sp⟩
  exact ⟨h1.mono fun _ _ => .mono fun _ _ h => ⟨h.data.equal m, h.params.equal m⟩, h2.mono fun _ _ => .mono fun _ _ => SamePublic.equal m,
    h3.mono fun _ _ => .mono fun _ _ h => ⟨h.r.equal m, h.s.equal m, h.params.equal m⟩, h4.mono fun _ _ => SamePublic.equal m⟩

/-- C84: decoding with equal parameters gives equal values, or the same error. -/
theorem C84_decoding (text : List UInt8) :
    Agree (fun σ σ' => EqualInt m σ.r σ'.r ∧ EqualInt m σ.s σ'.s) (Signature.fromP1363Hex m w text cp) (Signature.fromP1363Hex m w text cp') ∧
    Agree (EqualPublic m) (PublicKey.fromSec1Hex m w text cp) (PublicKey.fromSec1Hex m w text cp') := by
  have sp := (C84_params m w cp cp' hp hp').iff.mp ep
  exact ⟨(Widths.fromP1363Hex m w w sp text).mono fun _ _ h => ⟨h.r.equal m, h.s.equal m⟩,
    (Widths.fromSec1Hex m w w sp text).mono fun _ _ => SamePublic.equal m⟩

variable (r r' s s' : BInt) (hr : SameInt w w r r) (hr' : SameInt w w r' r') (hs : SameInt w w s s) (hs' : SameInt w w s' s')
  (er : EqualInt m r r') (es : EqualInt m s s')
include hr hr' hs hs' er es

/-- C84: signatures with equal parts have the same encoding, are accepted for equal keys alike, and give equal keys in the same order. -/
theorem C84_signatures (hash : List UInt8) (k k' : PublicKey) (hk : SamePublic w w k k) (hk' : SamePublic w w k' k') (ek : EqualPublic m k k')
    (vo : VerifyingOptions) (ro : RecoveryOptions) (id : Option RecoveryId) :
    ((⟨r, s, cp⟩ : Signature).toP1363Hex m w : Out ε _) = (⟨r', s', cp'⟩ : Signature).toP1363Hex m w ∧
    verifyWithOptions m w hash ⟨r, s, cp⟩ k vo = verifyWithOptions m w hash ⟨r', s', cp'⟩ k' vo ∧
    Agree (List.Forall₂ (EqualPublic m)) (recoverWithOptions m w ⟨r, s, cp⟩ hash id ro) (recoverWithOptions m w ⟨r', s', cp'⟩ hash id ro) := by
  have sp := (C84_params m w cp cp' hp hp').iff.mp ep
  have hσ : SameSignature w w ⟨r, s, cp⟩ ⟨r', s', cp'⟩ := ⟨(C84_int m w r r' hr hr').iff.mp er, (C84_int m w s s' hs hs').iff.mp es, sp⟩
  have sk := (C84_public m w k k' hk hk').iff.mp ek
  obtain ⟨h1, h2⟩ := C70_verifying m w w hash _ _ hσ k k' sk vo ro id
  exact ⟨(Widths.toP1363Hex m w w hσ).eq, h1, h2.mono fun _ _ h => h.imp fun _ _ => SamePublic.equal m⟩

end

/-- C84: equal public keys have the same encodings and the same address. -/
theorem C84_public_output (k k' : PublicKey) (hk : SamePublic w w k k) (hk' : SamePublic w w k' k') (ek : EqualPublic m k k')
    (compressed : Bool) :
    (k.toSec1Hex m w compressed : Out ε _) = k'.toSec1Hex m w compressed ∧
    (EoaPublicKey.address m w k : Out ε _) = EoaPublicKey.address m w k' := by
  have sk := (C84_public m w k k' hk hk').iff.mp ek
  exact ⟨(Widths.toSec1Hex m w w sk compressed).eq, (Widths.address m w w sk).eq⟩

/-- C84: private keys with equal parts sign alike: with the same random bytes, the same recovery id and equal signatures, or the same error. -/
theorem C84_signing (H : Hasher) (st : H.State) (f nf : Nat) (rand : Nat → Out RandomError (List UInt8)) (hash : List UInt8)
    (o : SigningOptions) (d d' : BInt) (cp cp' : Params) (hd : SameInt w w d d) (hd' : SameInt w w d' d') (hp : SameParams w w cp cp)
    (hp' : SameParams w w cp' cp') (ed : EqualInt m d d') (ep : EqualParams m cp cp') :
    Agree (fun z z' => EqualInt m z.1.r z'.1.r ∧ EqualInt m z.1.s z'.1.s ∧ z.2 = z'.2) (signWithOptions m w H f nf st rand hash ⟨d, cp⟩ o)
      (signWithOptions m w H f nf st rand hash ⟨d', cp'⟩ o) :=
  (C70_signing m w w H st f nf rand hash o ⟨d, cp⟩ ⟨d', cp'⟩ ⟨(C84_int m w d d' hd hd').iff.mp ed, (C84_params m w cp cp' hp hp').iff.mp ep⟩).mono
    fun _ _ h => ⟨h.1.r.equal m, h.1.s.equal m, h.2⟩

/-- C84: transactions whose parts are the same have the same encoding and the same printed form.  (Amounts and identifiers of chains are numbers:
by `C84_int` they are the same if they compare equal.) -/
theorem C84_transactions (t1 t1' : TransactionLegacy) (h1 : SameLegacy w w t1 t1') (t2 t2' : TransactionEip155)
    (h2 : SameEip155 w w t2 t2') (t3 t3' : TransactionEip2930) (h3 : SameEip2930 w w t3 t3') (t4 t4' : TransactionEip1559)
    (h4 : SameEip1559 w w t4 t4') :
    (t1.encode m w : Out ε _) = t1'.encode m w ∧ (t2.encode m w : Out ε _) = t2'.encode m w ∧
    (t3.encode m w : Out ε _) = t3'.encode m w ∧ (t4.encode m w : Out ε _) = t4'.encode m w ∧
    (t1.display m w : Out ε _) = t1'.display m w ∧ (t2.display m w : Out ε _) = t2'.display m w ∧
    (t3.display m w : Out ε _) = t3'.display m w ∧ (t4.display m w : Out ε _) = t4'.display m w :=
  C70_transaction_output m w w t1 t1' h1 t2 t2' h2 t3 t3' h3 t4 t4' h4

/-! ## The hypotheses can be met: equal numbers that are held differently -/

/-- Zero with the two signs. -/
theorem zeros : SameInt 64 64 ⟨[0], 1, .positive⟩ ⟨[0, 0], 1, .negative⟩ :=
  ⟨0, ⟨⟨by decide, by decide, by decide, by decide, by decide⟩, by decide⟩, ⟨by decide, by decide, by decide, by decide, by decide⟩, by decide⟩

example : EqualInt .debug ⟨[0], 1, .positive⟩ ⟨[0, 0], 1, .negative⟩ ∧ EqualInt .debug ⟨[5], 1, .positive⟩ ⟨[5, 0, 0], 1, .positive⟩ ∧
    ¬ EqualInt .debug ⟨[5], 1, .positive⟩ ⟨[5], 1, .negative⟩ := ⟨rfl, rfl, by unfold EqualInt; decide⟩

/-- The constants of secp256k1, once as they are and once with spare storage in the order. -/
example : ∃ cp cp' : Params, cp ≠ cp' ∧ SameParams 64 64 cp cp ∧ SameParams 64 64 cp' cp' ∧ EqualParams .debug cp cp' := by
  obtain ⟨cp, e, h⟩ := secp256k1_y (ε := Unit) 64
  have hc := C70_secp256k1 (ε := Unit) 64 64
  rw [e] at hc
  cases hc with
  | ok hc =>
    have hs : SameParams 64 64 cp { cp with order := { cp.order with storage := cp.order.storage ++ [0] } } := by
      refine ⟨hc.curve, hc.basePoint, ?_, rfl⟩
      obtain ⟨a, ha, -⟩ := hc.order
      exact ⟨a, ha, ha.spare⟩
    exact ⟨cp, _, fun h => by
      have := congrArg (fun c => c.order.storage.length) h
      simp at this, hs.left, hs.right, hs.equal .debug⟩

end LCT.Props
