import Verif.Lemmas.Widths.Math
import Verif.Lemmas.Crypto.Ecdsa
import Verif.Model.Crypto.Encoding
import Verif.Model.Crypto.Recovery
import Verif.Model.Crypto.Signing

/-!
# Agreement of builds with different digit widths: keys, signatures and their encodings
-/

namespace LCT.Widths
open LCT.BigInt LCT.Spec LCT.Out LCT.Modular LCT.Curve LCT.Crypto LCT.Hash LCT.Random
variable {ε : Type} (m : Build) (w w' : Nat) [hw : DigitWidth w] [hw' : DigitWidth w']
variable {x x' y y' : BInt} {a a' : Point} {c c' : Curve} {cp cp' : Params}

/-! ## Parameters -/

theorem anyNegative (ha : SamePoint w w' a a') : Agree Eq (Crypto.anyNegative m w a : Out ε _) (Crypto.anyNegative m w' a') := by
  unfold Crypto.anyNegative
  agree

omit hw hw' in
theorem anyTooLarge (ha : SamePoint w w' a a') (hx : SameInt w w' x x') :
    Agree Eq (Crypto.anyTooLarge m a x : Out ε _) (Crypto.anyTooLarge m a' x') := by
  unfold Crypto.anyTooLarge
  agree

theorem rhs (hc : SameCurve w w' c c') (hx : SameInt w w' x x') : Agree (SameInt w w') (Crypto.rhs m w c x : Out ε _) (Crypto.rhs m w' c' x') := by
  unfold Crypto.rhs
  agree

macro_rules | `(tactic| agree_call) => `(tactic| (with_reducible apply LCT.Widths.anyNegative; agree_arg))
macro_rules | `(tactic| agree_call) => `(tactic| (with_reducible apply LCT.Widths.anyTooLarge <;> agree_arg))
macro_rules | `(tactic| agree_call) => `(tactic| (with_reducible apply LCT.Widths.rhs <;> agree_arg))

theorem validatePoint (hc : SameParams w w' cp cp') (ha : SamePoint w w' a a') :
    Agree Eq (cp.validatePoint m w a : Out ε _) (cp'.validatePoint m w' a') := by
  unfold Params.validatePoint
  rw [hc.cofactor]
  agree

theorem pointToBytes (hc : SameParams w w' cp cp') (ha : SamePoint w w' a a') :
    Agree Eq (cp.pointToBytes m w a : Out ε _) (cp'.pointToBytes m w' a') := by
  unfold Params.pointToBytes
  agree

macro_rules | `(tactic| agree_call) => `(tactic| (with_reducible apply LCT.Widths.validatePoint <;> agree_arg))
macro_rules | `(tactic| agree_call) => `(tactic| (with_reducible apply LCT.Widths.pointToBytes <;> agree_arg))

theorem fromHexUnwrap (s : String) : Agree (SameInt w w') (Crypto.fromHexUnwrap w s : Out ε _) (Crypto.fromHexUnwrap w' s) := by
  unfold Crypto.fromHexUnwrap
  have h := fromHex w w' (ascii s)
  revert h
  generalize BInt.fromHex w (ascii s) = u
  generalize BInt.fromHex w' (ascii s) = u'
  intro h
  cases h with
  | ok h => exact .ok h.1
  | err _ => exact .panic
  | panic => exact .panic
  | hang => exact .hang

theorem secp256k1 : Agree (SameParams w w') (Crypto.secp256k1 w : Out ε _) (Crypto.secp256k1 w') := by
  unfold Crypto.secp256k1
  refine (ofInt w w' 0 (by norm_num) (by norm_num)).bind fun a a' ha => ?_
  refine (ofInt w w' 7 (by norm_num) (by norm_num)).bind fun b b' hb => ?_
  refine (fromHexUnwrap w w' _).bind fun p p' hp => ?_
  refine (fromHexUnwrap w w' _).bind fun gx gx' hgx => ?_
  refine (fromHexUnwrap w w' _).bind fun gy gy' hgy => ?_
  refine (fromHexUnwrap w w' _).bind fun n n' hn => ?_
  exact .pure ⟨⟨ha, hb, hp⟩, ⟨hgx, hgy⟩, hn, rfl⟩

macro_rules | `(tactic| agree_call) => `(tactic| (with_reducible apply LCT.Widths.secp256k1))

/-! ## Keys and signatures -/

variable {sk sk' : PrivateKey} {pk pk' : PublicKey} {sig sig' : Signature}

theorem inOrderRange (hx : SameInt w w' x x') (hy : SameInt w w' y y') :
    Agree Eq (Crypto.inOrderRange m w x y : Out ε _) (Crypto.inOrderRange m w' x' y') := by
  unfold Crypto.inOrderRange
  agree

macro_rules | `(tactic| agree_call) => `(tactic| (with_reducible apply LCT.Widths.inOrderRange <;> agree_arg))

theorem privateNew (hc : SameParams w w' cp cp') (hx : SameInt w w' x x') :
    Agree (AgreeOpt (SamePrivate w w')) (PrivateKey.new m w x cp : Out ε _) (PrivateKey.new m w' x' cp') := by
  unfold PrivateKey.new
  agree_step
  refine .pure ?_
  split
  · exact .some ⟨hx, hc⟩
  · exact .none

theorem publicNew (hc : SameParams w w' cp cp') (ha : SamePoint w w' a a') :
    Agree (AgreeOpt (SamePublic w w')) (PublicKey.new m w a cp : Out ε _) (PublicKey.new m w' a' cp') := by
  unfold PublicKey.new
  agree_step
  refine .pure ?_
  split
  · exact .some ⟨ha, hc⟩
  · exact .none

macro_rules | `(tactic| agree_call) => `(tactic| (with_reducible apply LCT.Widths.privateNew <;> agree_arg))
macro_rules | `(tactic| agree_call) => `(tactic| (with_reducible apply LCT.Widths.publicNew <;> agree_arg))

theorem publicKey (hk : SamePrivate w w' sk sk') : Agree (SamePublic w w') (sk.publicKey m w : Out ε _) (sk'.publicKey m w') := by
  unfold PrivateKey.publicKey
  agree

theorem isValid (hs : SameSignature w w' sig sig') : Agree Eq (sig.isValid m w : Out ε _) (sig'.isValid m w') := by
  unfold Signature.isValid
  agree

/-- The same signature, with halves that are not zero. -/
structure SameValid (sig sig' : Signature) : Prop where
  same : SameSignature w w' sig sig'
  r : 0 < toInt w sig.r
  s : 0 < toInt w sig.s

omit hw' in
theorem inOrderRange_pos {z : Int} (hx : Denotes w x z) (h : (Crypto.inOrderRange m w x y : Out ε _) = .ok true) : 0 < z := by
  unfold Crypto.inOrderRange at h
  obtain ⟨o, e, ho⟩ := zero_y (ε := ε) w
  obtain ⟨b, e', hb⟩ := gt_y (ε := ε) m hx ho
  rw [e] at h
  change (BInt.gt m x o >>= _) = _ at h
  rw [e'] at h
  change (if b then _ else _) = _ at h
  subst hb
  by_contra hz
  rw [if_neg (by simpa using hz)] at h
  exact Bool.noConfusion (Out.ok.inj h)

theorem signatureNew (hc : SameParams w w' cp cp') (hx : SameInt w w' x x') (hy : SameInt w w' y y') :
    Agree (AgreeOpt (SameValid w w')) (Signature.new m w x y cp : Out ε _) (Signature.new m w' x' y' cp') := by
  unfold Signature.new
  have hs : SameSignature w w' ⟨x, y, cp⟩ ⟨x', y', cp'⟩ := ⟨hx, hy, hc⟩
  have h := isValid (ε := ε) m w w' hs
  rcases e : (Signature.isValid m w ⟨x, y, cp⟩ : Out ε Bool) with b | e | _ | _
  · rw [e] at h
    rw [← h.eq]
    refine .pure ?_
    cases b with
    | false => exact .none
    | true =>
      unfold Signature.isValid at e
      refine .some ⟨hs, ?_, ?_⟩
      all_goals
        obtain ⟨z, hx, _⟩ := hx
        obtain ⟨z', hy, _⟩ := hy
        rcases e1 : (Crypto.inOrderRange m w x cp.order : Out ε Bool) with b | _ | _ | _ <;> rw [e1] at e
        · cases b with
          | false => exact Bool.noConfusion (Out.ok.inj e)
          | true => first
            | exact hx.2 ▸ inOrderRange_pos m w hx e1
            | exact hy.2 ▸ inOrderRange_pos m w hy e
        all_goals cases e
  all_goals
    rw [e] at h
    rw [← h.eq]
  · exact .err _
  · exact .panic
  · exact .hang

theorem isLowS (hs : SameSignature w w' sig sig') : Agree Eq (sig.isLowS m w : Out ε _) (sig'.isLowS m w') := by
  unfold Signature.isLowS
  agree

macro_rules | `(tactic| agree_call) => `(tactic| (with_reducible apply LCT.Widths.publicKey; agree_arg))
macro_rules | `(tactic| agree_call) => `(tactic| (with_reducible apply LCT.Widths.isValid; agree_arg))
macro_rules | `(tactic| agree_call) => `(tactic| (with_reducible apply LCT.Widths.isLowS; agree_arg))

theorem sign (hk : SamePrivate w w' sk sk') (hx : SameInt w w' x x') (hy : SameInt w w' y y') :
    Agree (AgreeOpt fun z z' => SameValid w w' z.1 z'.1 ∧ z.2 = z'.2) (sk.sign m w x y : Out ε _) (sk'.sign m w' x' y') := by
  unfold PrivateKey.sign
  agree
  · exact .pure .none
  · exact .pure .none
  · refine (signatureNew m w w' hk.params (by assumption) (by assumption)).bind fun o o' ho => ?_
    refine (Agree.unwrap ho).bind fun s s' hs => ?_
    exact .pure (.some ⟨hs, rfl⟩)

theorem verify (hk : SamePublic w w' pk pk') (hx : SameInt w w' x x') (hs : SameSignature w w' sig sig') :
    Agree Eq (pk.verify m w x sig : Out ε _) (pk'.verify m w' x' sig') := by
  unfold PublicKey.verify
  agree

theorem hashLengthMatches (hc : SameParams w w' cp cp') (len : Nat) :
    Agree Eq (Crypto.hashLengthMatches m w len cp : Out ε _) (Crypto.hashLengthMatches m w' len cp') := by
  unfold Crypto.hashLengthMatches
  agree

theorem fromBeBytesPositive (bs : List UInt8) : Agree (SameInt w w') (BInt.fromBeBytes w bs .positive : Out ε _) (BInt.fromBeBytes w' bs .positive) :=
  (fromBeBytes w w' bs .positive).mono fun _ _ h => h.1

macro_rules | `(tactic| agree_call) => `(tactic| (with_reducible apply LCT.Widths.verify <;> agree_arg))
macro_rules | `(tactic| agree_call) => `(tactic| (with_reducible apply LCT.Widths.hashLengthMatches; agree_arg))
macro_rules | `(tactic| agree_call) => `(tactic| (with_reducible apply LCT.Widths.fromBeBytesPositive))

theorem fromBeBytesMaxBits (bs : List UInt8) (n : Nat) :
    Agree (SameInt w w') (Crypto.fromBeBytesMaxBits m w bs n : Out ε _) (Crypto.fromBeBytesMaxBits m w' bs n) := by
  unfold Crypto.fromBeBytesMaxBits
  agree

macro_rules | `(tactic| agree_call) => `(tactic| (with_reducible apply LCT.Widths.fromBeBytesMaxBits))

theorem verifyWithOptions (hash : List UInt8) (hs : SameSignature w w' sig sig') (hk : SamePublic w w' pk pk') (o : VerifyingOptions) :
    Agree Eq (Crypto.verifyWithOptions m w hash sig pk o) (Crypto.verifyWithOptions m w' hash sig' pk' o) := by
  unfold Crypto.verifyWithOptions
  agree

/-! ## Encodings -/

theorem fromHexOr (e : ε) (t : List UInt8) : Agree (SameInt w w') (Crypto.fromHexOr w e t) (Crypto.fromHexOr w' e t) := by
  unfold Crypto.fromHexOr
  have h := fromHex w w' t
  revert h
  generalize BInt.fromHex w t = u
  generalize BInt.fromHex w' t = u'
  intro h
  cases h with
  | ok h => exact .ok h.1
  | err _ => exact .err _
  | panic => exact .panic
  | hang => exact .hang

macro_rules | `(tactic| agree_call) => `(tactic| (with_reducible apply LCT.Widths.fromHexOr))

theorem fromP1363Hex (hc : SameParams w w' cp cp') (data : List UInt8) :
    Agree (SameSignature w w') (Signature.fromP1363Hex m w data cp) (Signature.fromP1363Hex m w' data cp') := by
  unfold Signature.fromP1363Hex
  iterate 4 agree_step
  refine (signatureNew m w w' hc (by assumption) (by assumption)).bind fun o o' ho => ?_
  cases ho with
  | some h => exact .ok h.same
  | none => exact .err _

theorem toP1363Hex (hs : SameSignature w w' sig sig') : Agree Eq (sig.toP1363Hex m w : Out ε _) (sig'.toP1363Hex m w') := by
  unfold Signature.toP1363Hex
  agree

theorem checkPoint (hc : SameParams w w' cp cp') (ha : SamePoint w w' a a') :
    Agree (SamePoint w w') (Crypto.checkPoint m w cp a) (Crypto.checkPoint m w' cp' a') := by
  unfold Crypto.checkPoint
  agree

macro_rules | `(tactic| agree_call) => `(tactic| (with_reducible apply LCT.Widths.checkPoint <;> agree_arg))

theorem decodeUncompressed (hc : SameParams w w' cp cp') (el : Nat) (hex : List UInt8) :
    Agree (SamePoint w w') (Crypto.decodeUncompressed m w cp el hex) (Crypto.decodeUncompressed m w' cp' el hex) := by
  unfold Crypto.decodeUncompressed
  agree

theorem chooseRoot (even : Bool) (hx : SameInt w w' x x') (hy : SameInt w w' y y') :
    Agree (SameInt w w') (Crypto.chooseRoot even x y : Out ε _) (Crypto.chooseRoot even x' y') := by
  unfold Crypto.chooseRoot
  agree
  all_goals
    refine .pure ?_
    split <;> assumption

theorem decodeCompressed (hc : SameParams w w' cp cp') (hex : List UInt8) :
    Agree (SamePoint w w') (Crypto.decodeCompressed m w cp hex) (Crypto.decodeCompressed m w' cp' hex) := by
  unfold Crypto.decodeCompressed
  iterate 4 agree_step
  rename_i o o' ho
  cases ho with
  | none => exact .err _
  | some h =>
    refine (chooseRoot w w' _ h.1 h.2).bind fun y y' hy => ?_
    agree

macro_rules | `(tactic| agree_call) => `(tactic| (with_reducible apply LCT.Widths.decodeUncompressed; agree_arg))
macro_rules | `(tactic| agree_call) => `(tactic| (with_reducible apply LCT.Widths.decodeCompressed; agree_arg))

theorem decodePoint (hc : SameParams w w' cp cp') (hex : List UInt8) :
    Agree (SamePoint w w') (Crypto.decodePoint m w hex cp) (Crypto.decodePoint m w' hex cp') := by
  unfold Crypto.decodePoint
  agree

theorem encodePoint (hc : SameParams w w' cp cp') (ha : SamePoint w w' a a') (compressed : Bool) :
    Agree Eq (Crypto.encodePoint m w a cp compressed : Out ε _) (Crypto.encodePoint m w' a' cp' compressed) := by
  unfold Crypto.encodePoint
  agree

theorem fromSec1Hex (hc : SameParams w w' cp cp') (hex : List UInt8) :
    Agree (SamePublic w w') (PublicKey.fromSec1Hex m w hex cp) (PublicKey.fromSec1Hex m w' hex cp') := by
  unfold PublicKey.fromSec1Hex
  exact (decodePoint m w w' hc hex).bind fun _ _ h => .pure ⟨h, hc⟩

theorem toSec1Hex (hk : SamePublic w w' pk pk') (compressed : Bool) :
    Agree Eq (pk.toSec1Hex m w compressed : Out ε _) (pk'.toSec1Hex m w' compressed) :=
  encodePoint m w w' hk.params hk.data compressed

/-! ## Recovery -/

/-- Lists of the same length whose elements are related. -/
abbrev SameList {α : Type} (R : α → α → Prop) : List α → List α → Prop := List.Forall₂ R

theorem recoveryPoints (hx : SameInt w w' x x') {y₁ y₁' y₂ y₂' : BInt} (h₁ : SameInt w w' y₁ y₁') (h₂ : SameInt w w' y₂ y₂')
    (id : Option RecoveryId) :
    Agree (SameList (SamePoint w w')) (Crypto.recoveryPoints x y₁ y₂ id : Out ε _) (Crypto.recoveryPoints x' y₁' y₂' id) := by
  rcases id with _ | _ | _ | _ | _
  · exact .pure (.cons ⟨hx, h₁⟩ (.cons ⟨hx, h₂⟩ .nil))
  all_goals
    unfold Crypto.recoveryPoints
    agree
    refine .pure ?_
    split
    · exact .cons ⟨hx, h₁⟩ .nil
    · exact .cons ⟨hx, h₂⟩ .nil

theorem recoverKey (hs : SameSignature w w' sig sig') {h h' e e' r r' : BInt} (hh : SameInt w w' h h') (he : SameInt w w' e e')
    (hr : SameInt w w' r r') (ha : SamePoint w w' a a') :
    Agree (AgreeOpt (SamePublic w w')) (Crypto.recoverKey m w sig h e r a : Out ε _) (Crypto.recoverKey m w' sig' h' e' r' a') := by
  unfold Crypto.recoverKey
  iterate 5 agree_step
  rename_i o o' ho
  cases ho with
  | none => exact .pure .none
  | some hk =>
    dsimp only
    agree_step
    refine .pure ?_
    split
    · exact .some hk
    · exact .none

theorem recoverKeys (hs : SameSignature w w' sig sig') {h h' e e' r r' : BInt} (hh : SameInt w w' h h') (he : SameInt w w' e e')
    (hr : SameInt w w' r r') {ps ps' : List Point} (hp : SameList (SamePoint w w') ps ps') :
    Agree (SameList (SamePublic w w')) (Crypto.recoverKeys m w sig h e r ps : Out ε _) (Crypto.recoverKeys m w' sig' h' e' r' ps') := by
  induction hp with
  | nil => exact .pure .nil
  | cons hp _ ih =>
    refine (recoverKey m w w' hs hh he hr hp).bind fun o o' ho => ih.bind fun l l' hl => .pure ?_
    cases ho with
    | none => exact hl
    | some hk => exact .cons hk hl

theorem recoverLoop (hs : SameSignature w w' sig sig') {h h' e e' r r' : BInt} (hh : SameInt w w' h h') (he : SameInt w w' e e')
    (hr : SameInt w w' r r') (id : Option RecoveryId) (j n : Nat) :
    Agree (SameList (SamePublic w w')) (Crypto.recoverLoop m w sig id h e r j n : Out ε _) (Crypto.recoverLoop m w' sig' id h' e' r' j n) := by
  induction n generalizing j with
  | zero => exact .pure .nil
  | succ n ih =>
    unfold Crypto.recoverLoop
    refine (ofNat w w' j).bind fun jb jb' hj => ?_
    refine (mul m w w' hj hs.params.order).bind fun jn jn' hjn => ?_
    refine (add m w w' hs.r hjn).bind fun t t' ht => ?_
    refine (ge m w w' ht hs.params.curve.p).bind fun b b' hb => ?_
    subst hb
    refine .ite (fun _ => .pure .nil) fun _ => ?_
    refine (rhs m w w' hs.params.curve ht).bind fun y y' hy => ?_
    refine (modulo m w w' hy hs.params.curve.p).bind fun y y' hy => ?_
    refine (sqrt m w w' hy hs.params.curve.p).bind fun o o' ho => ?_
    cases ho with
    | none => exact ih _
    | some hk =>
      refine (recoveryPoints w w' ht hk.1 hk.2 id).bind fun ps ps' hp => ?_
      refine (recoverKeys m w w' hs hh he hr hp).bind fun l l' hl => (ih _).bind fun t t' ht => .pure ?_
      exact List.rel_append hl ht

theorem recoverWithOptions (hs : SameSignature w w' sig sig') (hash : List UInt8) (id : Option RecoveryId) (o : RecoveryOptions) :
    Agree (SameList (SamePublic w w')) (Crypto.recoverWithOptions m w sig hash id o) (Crypto.recoverWithOptions m w' sig' hash id o) := by
  unfold Crypto.recoverWithOptions
  iterate 8 agree_step
  rename_i o o' ho
  cases ho with
  | none => exact .err _
  | some hk =>
    dsimp only
    agree_step
    have e : recoveryBounds sig.params id = recoveryBounds sig'.params id := by
      rcases id with _ | _ | _ | _ | _ <;> simp only [recoveryBounds, hs.params.cofactor]
    rw [e]
    exact recoverLoop m w w' hs (by assumption) (by assumption) hk id _ _

/-! ## Nonces -/

/-- The same nonce generator. -/
structure SameGen (g g' : Rfc6979) : Prop where
  q : SameInt w w' g.q g'.q
  qlen : g.qlen = g'.qlen
  rlen : g.rlen = g'.rlen
  extra : g.extra = g'.extra

macro_rules | `(tactic| agree_arg_ext) => `(tactic| (with_reducible apply LCT.Widths.SameGen.q; agree_arg))
variable {g g' : Rfc6979} {H : Hasher}

theorem genNew (hx : SameInt w w' x x') (extra : Bool) : Agree (SameGen w w') (Rfc6979.new m w x extra : Out ε _) (Rfc6979.new m w' x' extra) := by
  unfold Rfc6979.new
  agree_step
  exact .pure ⟨hx, rfl, rfl, rfl⟩

theorem bits2int (hg : SameGen w w' g g') (bs : List UInt8) : Agree (SameInt w w') (g.bits2int m w bs : Out ε _) (g'.bits2int m w' bs) := by
  unfold Rfc6979.bits2int
  rw [hg.qlen]
  agree

theorem int2octets (hg : SameGen w w' g g') (hx : SameInt w w' x x') : Agree Eq (g.int2octets m w x : Out ε _) (g'.int2octets m w' x') := by
  unfold Rfc6979.int2octets
  rw [hg.rlen]
  agree

macro_rules | `(tactic| agree_call) => `(tactic| (with_reducible apply LCT.Widths.genNew; agree_arg))
macro_rules | `(tactic| agree_call) => `(tactic| (with_reducible apply LCT.Widths.bits2int; agree_arg))
macro_rules | `(tactic| agree_call) => `(tactic| (with_reducible apply LCT.Widths.int2octets <;> agree_arg))

theorem bits2octets (hg : SameGen w w' g g') (bs : List UInt8) : Agree Eq (g.bits2octets m w bs : Out ε _) (g'.bits2octets m w' bs) := by
  unfold Rfc6979.bits2octets
  agree

macro_rules | `(tactic| agree_call) => `(tactic| (with_reducible apply LCT.Widths.bits2octets; agree_arg))

/-- The same nonce and the same state of the hasher. -/
def SameNonce (z z' : BInt × H.State) : Prop := SameInt w w' z.1 z'.1 ∧ z.2 = z'.2

theorem nonceLoop (hg : SameGen w w' g g') (f : Nat) (st : H.State) (k v : List UInt8) :
    Agree (SameNonce w w') (Crypto.nonceLoop m w H g f st k v : Out ε _) (Crypto.nonceLoop m w' H g' f st k v) := by
  induction f generalizing st k v with
  | zero => exact .hang
  | succ f ih =>
    unfold Crypto.nonceLoop
    rw [hg.qlen]
    iterate 4 agree_step
    · exact .pure ⟨by assumption, rfl⟩
    iterate 2 agree_step
    exact ih _ _ _

theorem keyAndMsg (hg : SameGen w w' g g') (hk : SamePrivate w w' sk sk') (hash : List UInt8) (rand : Out RandomError (List UInt8)) :
    Agree Eq (Crypto.keyAndMsg m w g hash sk rand) (Crypto.keyAndMsg m w' g' hash sk' rand) := by
  unfold Crypto.keyAndMsg
  rw [hg.extra]
  agree

macro_rules | `(tactic| agree_call) => `(tactic| (with_reducible apply LCT.Widths.keyAndMsg <;> agree_arg))

theorem generateNonce (hg : SameGen w w' g g') (hk : SamePrivate w w' sk sk') (fuel : Nat) (hash : List UInt8) (st : H.State)
    (rand : Out RandomError (List UInt8)) :
    Agree (SameNonce w w') (g.generateNonce m w H fuel hash sk st rand) (g'.generateNonce m w' H fuel hash sk' st rand) := by
  unfold Rfc6979.generateNonce
  iterate 6 agree_step
  exact nonceLoop m w w' hg _ _ _ _

/-! ## Signing -/

/-- The same signature, with halves that are not zero, and the same recovery id. -/
def SameSigned (z z' : Signature × RecoveryId) : Prop := SameValid w w' z.1 z'.1 ∧ z.2 = z'.2

theorem normalise (hs : SameValid w w' sig sig') (o : SigningOptions) (id : RecoveryId) :
    Agree (SameSigned w w') (Crypto.normalise m w o sig id) (Crypto.normalise m w' o sig' id) := by
  have hs' := hs.same
  unfold Crypto.normalise
  iterate 3 agree_step
  · refine (signatureNew m w w' hs'.params hs'.r (by assumption)).bind fun s s' h => ?_
    refine (Agree.unwrap h).bind fun s s' h => ?_
    agree_step
    exact .pure ⟨h, rfl⟩
  · exact .pure ⟨hs, rfl⟩

theorem signLoop (hg : SameGen w w' g g') (hk : SamePrivate w w' sk sk') (hx : SameInt w w' x x') (nf : Nat) (o : SigningOptions)
    (hash : List UInt8) (rand : Nat → Out RandomError (List UInt8)) (f i : Nat) (st : H.State) :
    Agree (SameSigned w w') (Crypto.signLoop m w H nf o g hash x sk rand f i st) (Crypto.signLoop m w' H nf o g' hash x' sk' rand f i st) := by
  induction f generalizing i st with
  | zero => exact .hang
  | succ f ih =>
    unfold Crypto.signLoop
    refine ((generateNonce m w w' hg hk nf hash st (rand i)).mapErr _).bind ?_
    rintro ⟨k, st⟩ ⟨k', st'⟩ ⟨hk', rfl : st = st'⟩
    refine (sign m w w' hk hx hk').bind fun r r' hr => ?_
    cases hr with
    | none => exact ih _ _
    | some h =>
      rename_i z z'
      obtain ⟨s, id⟩ := z
      obtain ⟨s', id'⟩ := z'
      obtain ⟨h, rfl : id = id'⟩ := h
      exact normalise m w w' h o id

theorem signWithOptions (hk : SamePrivate w w' sk sk') (f nf : Nat) (st : H.State) (rand : Nat → Out RandomError (List UInt8))
    (hash : List UInt8) (o : SigningOptions) :
    Agree (SameSigned w w') (Crypto.signWithOptions m w H f nf st rand hash sk o) (Crypto.signWithOptions m w' H f nf st rand hash sk' o) := by
  unfold Crypto.signWithOptions
  iterate 8 agree_step
  exact signLoop m w w' (by assumption) hk (by assumption) _ _ _ _ _ _ _

end LCT.Widths
