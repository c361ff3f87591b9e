import Verif.Lemmas.Builds.Math
import Verif.Lemmas.Builds.Hash
import Verif.Model.Crypto.Signing
import Verif.Model.Crypto.Recovery
import Verif.Model.Crypto.Encoding

/-!
# Keys, signatures and encodings in debug and release builds
-/

namespace LCT.Mono
open Lean.Order (monotone)

@[partial_fixpoint_monotone] theorem Crypto.anyNegative :
    ∀ (b : Build → Build), monotone b → ∀ ε w pt, monotone fun m => @LCT.Crypto.anyNegative ε (b m) w pt := by
  intro b hb ε w pt
  refine pass (F := fun m => @LCT.Crypto.anyNegative ε m w pt) ?_ hb
  unfold LCT.Crypto.anyNegative
  mono

@[partial_fixpoint_monotone] theorem Crypto.anyTooLarge :
    ∀ (b : Build → Build), monotone b → ∀ ε pt p, monotone fun m => @LCT.Crypto.anyTooLarge ε (b m) pt p := by
  intro b hb ε pt p
  refine pass (F := fun m => @LCT.Crypto.anyTooLarge ε m pt p) ?_ hb
  unfold LCT.Crypto.anyTooLarge
  mono

@[partial_fixpoint_monotone] theorem Crypto.rhs :
    ∀ (b : Build → Build), monotone b → ∀ ε w c x, monotone fun m => @LCT.Crypto.rhs ε (b m) w c x := by
  intro b hb ε w c x
  refine pass (F := fun m => @LCT.Crypto.rhs ε m w c x) ?_ hb
  unfold LCT.Crypto.rhs
  mono

@[partial_fixpoint_monotone] theorem Crypto.Params.validatePoint :
    ∀ (b : Build → Build), monotone b → ∀ ε w cp pt, monotone fun m => @LCT.Crypto.Params.validatePoint ε (b m) w cp pt := by
  intro b hb ε w cp pt
  refine pass (F := fun m => @LCT.Crypto.Params.validatePoint ε m w cp pt) ?_ hb
  unfold LCT.Crypto.Params.validatePoint
  mono

@[partial_fixpoint_monotone] theorem Crypto.Params.pointToBytes :
    ∀ (b : Build → Build), monotone b → ∀ ε w cp pt, monotone fun m => @LCT.Crypto.Params.pointToBytes ε (b m) w cp pt := by
  intro b hb ε w cp pt
  refine pass (F := fun m => @LCT.Crypto.Params.pointToBytes ε m w cp pt) ?_ hb
  unfold LCT.Crypto.Params.pointToBytes
  mono

@[partial_fixpoint_monotone] theorem Crypto.inOrderRange :
    ∀ (b : Build → Build), monotone b → ∀ ε w x n, monotone fun m => @LCT.Crypto.inOrderRange ε (b m) w x n := by
  intro b hb ε w x n
  refine pass (F := fun m => @LCT.Crypto.inOrderRange ε m w x n) ?_ hb
  unfold LCT.Crypto.inOrderRange
  mono

@[partial_fixpoint_monotone] theorem Crypto.PrivateKey.new :
    ∀ (b : Build → Build), monotone b → ∀ ε w data cp, monotone fun m => @LCT.Crypto.PrivateKey.new ε (b m) w data cp := by
  intro b hb ε w data cp
  refine pass (F := fun m => @LCT.Crypto.PrivateKey.new ε m w data cp) ?_ hb
  unfold LCT.Crypto.PrivateKey.new
  mono

@[partial_fixpoint_monotone] theorem Crypto.PublicKey.new :
    ∀ (b : Build → Build), monotone b → ∀ ε w data cp, monotone fun m => @LCT.Crypto.PublicKey.new ε (b m) w data cp := by
  intro b hb ε w data cp
  refine pass (F := fun m => @LCT.Crypto.PublicKey.new ε m w data cp) ?_ hb
  unfold LCT.Crypto.PublicKey.new
  mono

@[partial_fixpoint_monotone] theorem Crypto.PrivateKey.publicKey :
    ∀ (b : Build → Build), monotone b → ∀ ε w k, monotone fun m => @LCT.Crypto.PrivateKey.publicKey ε (b m) w k := by
  intro b hb ε w k
  refine pass (F := fun m => @LCT.Crypto.PrivateKey.publicKey ε m w k) ?_ hb
  unfold LCT.Crypto.PrivateKey.publicKey
  mono

@[partial_fixpoint_monotone] theorem Crypto.Signature.isValid :
    ∀ (b : Build → Build), monotone b → ∀ ε w sig, monotone fun m => @LCT.Crypto.Signature.isValid ε (b m) w sig := by
  intro b hb ε w sig
  refine pass (F := fun m => @LCT.Crypto.Signature.isValid ε m w sig) ?_ hb
  unfold LCT.Crypto.Signature.isValid
  mono

@[partial_fixpoint_monotone] theorem Crypto.Signature.new :
    ∀ (b : Build → Build), monotone b → ∀ ε w r s cp, monotone fun m => @LCT.Crypto.Signature.new ε (b m) w r s cp := by
  intro b hb ε w r s cp
  refine pass (F := fun m => @LCT.Crypto.Signature.new ε m w r s cp) ?_ hb
  unfold LCT.Crypto.Signature.new
  mono

@[partial_fixpoint_monotone] theorem Crypto.Signature.isLowS :
    ∀ (b : Build → Build), monotone b → ∀ ε w sig, monotone fun m => @LCT.Crypto.Signature.isLowS ε (b m) w sig := by
  intro b hb ε w sig
  refine pass (F := fun m => @LCT.Crypto.Signature.isLowS ε m w sig) ?_ hb
  unfold LCT.Crypto.Signature.isLowS
  mono

@[partial_fixpoint_monotone] theorem Crypto.PrivateKey.sign :
    ∀ (b : Build → Build), monotone b → ∀ ε w key hash k, monotone fun m => @LCT.Crypto.PrivateKey.sign ε (b m) w key hash k := by
  intro b hb ε w key hash k
  refine pass (F := fun m => @LCT.Crypto.PrivateKey.sign ε m w key hash k) ?_ hb
  unfold LCT.Crypto.PrivateKey.sign
  mono

@[partial_fixpoint_monotone] theorem Crypto.PublicKey.verify :
    ∀ (b : Build → Build), monotone b → ∀ ε w pk hash sig, monotone fun m => @LCT.Crypto.PublicKey.verify ε (b m) w pk hash sig := by
  intro b hb ε w pk hash sig
  refine pass (F := fun m => @LCT.Crypto.PublicKey.verify ε m w pk hash sig) ?_ hb
  unfold LCT.Crypto.PublicKey.verify
  mono

@[partial_fixpoint_monotone] theorem Crypto.hashLengthMatches :
    ∀ (b : Build → Build), monotone b → ∀ ε w len cp, monotone fun m => @LCT.Crypto.hashLengthMatches ε (b m) w len cp := by
  intro b hb ε w len cp
  refine pass (F := fun m => @LCT.Crypto.hashLengthMatches ε m w len cp) ?_ hb
  unfold LCT.Crypto.hashLengthMatches
  mono

@[partial_fixpoint_monotone] theorem Crypto.fromBeBytesMaxBits :
    ∀ (b : Build → Build), monotone b → ∀ ε w bytes maxBits, monotone fun m => @LCT.Crypto.fromBeBytesMaxBits ε (b m) w bytes maxBits := by
  intro b hb ε w bytes maxBits
  refine pass (F := fun m => @LCT.Crypto.fromBeBytesMaxBits ε m w bytes maxBits) ?_ hb
  unfold LCT.Crypto.fromBeBytesMaxBits
  mono

@[partial_fixpoint_monotone] theorem Crypto.verifyWithOptions :
    ∀ (b : Build → Build), monotone b → ∀ w hash sig pk o, monotone fun m => @LCT.Crypto.verifyWithOptions (b m) w hash sig pk o := by
  intro b hb w hash sig pk o
  refine pass (F := fun m => @LCT.Crypto.verifyWithOptions m w hash sig pk o) ?_ hb
  unfold LCT.Crypto.verifyWithOptions
  mono

@[partial_fixpoint_monotone] theorem Crypto.verify :
    ∀ (b : Build → Build), monotone b → ∀ w hash sig pk, monotone fun m => @LCT.Crypto.verify (b m) w hash sig pk := by
  intro b hb w hash sig pk
  refine pass (F := fun m => @LCT.Crypto.verify m w hash sig pk) ?_ hb
  unfold LCT.Crypto.verify
  mono

@[partial_fixpoint_monotone] theorem Crypto.Rfc6979.new :
    ∀ (b : Build → Build), monotone b → ∀ ε w q extra, monotone fun m => @LCT.Crypto.Rfc6979.new ε (b m) w q extra := by
  intro b hb ε w q extra
  refine pass (F := fun m => @LCT.Crypto.Rfc6979.new ε m w q extra) ?_ hb
  unfold LCT.Crypto.Rfc6979.new
  mono

@[partial_fixpoint_monotone] theorem Crypto.Rfc6979.bits2int :
    ∀ (b : Build → Build), monotone b → ∀ ε w g bytes, monotone fun m => @LCT.Crypto.Rfc6979.bits2int ε (b m) w g bytes := by
  intro b hb ε w g bytes
  refine pass (F := fun m => @LCT.Crypto.Rfc6979.bits2int ε m w g bytes) ?_ hb
  unfold LCT.Crypto.Rfc6979.bits2int
  mono

@[partial_fixpoint_monotone] theorem Crypto.Rfc6979.int2octets :
    ∀ (b : Build → Build), monotone b → ∀ ε w g n, monotone fun m => @LCT.Crypto.Rfc6979.int2octets ε (b m) w g n := by
  intro b hb ε w g n
  refine pass (F := fun m => @LCT.Crypto.Rfc6979.int2octets ε m w g n) ?_ hb
  unfold LCT.Crypto.Rfc6979.int2octets
  mono

@[partial_fixpoint_monotone] theorem Crypto.Rfc6979.bits2octets :
    ∀ (b : Build → Build), monotone b → ∀ ε w g bytes, monotone fun m => @LCT.Crypto.Rfc6979.bits2octets ε (b m) w g bytes := by
  intro b hb ε w g bytes
  refine pass (F := fun m => @LCT.Crypto.Rfc6979.bits2octets ε m w g bytes) ?_ hb
  unfold LCT.Crypto.Rfc6979.bits2octets
  mono

@[partial_fixpoint_monotone] theorem Crypto.nonceBytes :
    ∀ (b : Build → Build), monotone b → ∀ ε H [HasherMono H] qlen k x1 x2 x3 x4, monotone fun m => @LCT.Crypto.nonceBytes ε (b m) H qlen k x1 x2 x3 x4 := by
  intro b hb ε H _ qlen k x1 x2 x3 x4
  refine pass (F := fun m => @LCT.Crypto.nonceBytes ε m H qlen k x1 x2 x3 x4) ?_ hb
  induction x1 generalizing x2 x3 x4 with
  | zero =>
    unfold LCT.Crypto.nonceBytes
    mono
  | succ _ ih =>
    unfold LCT.Crypto.nonceBytes
    mono using ih

@[partial_fixpoint_monotone] theorem Crypto.nonceLoop :
    ∀ (b : Build → Build), monotone b → ∀ ε w H [HasherMono H] g x1 x2 x3 x4, monotone fun m => @LCT.Crypto.nonceLoop ε (b m) w H g x1 x2 x3 x4 := by
  intro b hb ε w H _ g x1 x2 x3 x4
  refine pass (F := fun m => @LCT.Crypto.nonceLoop ε m w H g x1 x2 x3 x4) ?_ hb
  induction x1 generalizing x2 x3 x4 with
  | zero =>
    unfold LCT.Crypto.nonceLoop
    mono
  | succ _ ih =>
    unfold LCT.Crypto.nonceLoop
    mono using ih

@[partial_fixpoint_monotone] theorem Crypto.keyAndMsg :
    ∀ (b : Build → Build), monotone b → ∀ w g hash key rand, monotone fun m => @LCT.Crypto.keyAndMsg (b m) w g hash key rand := by
  intro b hb w g hash key rand
  refine pass (F := fun m => @LCT.Crypto.keyAndMsg m w g hash key rand) ?_ hb
  unfold LCT.Crypto.keyAndMsg
  mono

@[partial_fixpoint_monotone] theorem Crypto.Rfc6979.generateNonce :
    ∀ (b : Build → Build), monotone b → ∀ w H [HasherMono H] fuel g hash key st rand, monotone fun m => @LCT.Crypto.Rfc6979.generateNonce (b m) w H fuel g hash key st rand := by
  intro b hb w H _ fuel g hash key st rand
  refine pass (F := fun m => @LCT.Crypto.Rfc6979.generateNonce m w H fuel g hash key st rand) ?_ hb
  unfold LCT.Crypto.Rfc6979.generateNonce
  mono

@[partial_fixpoint_monotone] theorem Crypto.normalise :
    ∀ (b : Build → Build), monotone b → ∀ w o sig id, monotone fun m => @LCT.Crypto.normalise (b m) w o sig id := by
  intro b hb w o sig id
  refine pass (F := fun m => @LCT.Crypto.normalise m w o sig id) ?_ hb
  unfold LCT.Crypto.normalise
  mono

@[partial_fixpoint_monotone] theorem Crypto.signLoop :
    ∀ (b : Build → Build), monotone b → ∀ w H [HasherMono H] nonceFuel o g hash hashN key rand x1 x2 x3, monotone fun m => @LCT.Crypto.signLoop (b m) w H nonceFuel o g hash hashN key rand x1 x2 x3 := by
  intro b hb w H _ nonceFuel o g hash hashN key rand x1 x2 x3
  refine pass (F := fun m => @LCT.Crypto.signLoop m w H nonceFuel o g hash hashN key rand x1 x2 x3) ?_ hb
  induction x1 generalizing x2 x3 with
  | zero =>
    unfold LCT.Crypto.signLoop
    mono
  | succ _ ih =>
    unfold LCT.Crypto.signLoop
    mono using ih

@[partial_fixpoint_monotone] theorem Crypto.signWithOptions :
    ∀ (b : Build → Build), monotone b → ∀ w H [HasherMono H] fuel nonceFuel st rand hash key o, monotone fun m => @LCT.Crypto.signWithOptions (b m) w H fuel nonceFuel st rand hash key o := by
  intro b hb w H _ fuel nonceFuel st rand hash key o
  refine pass (F := fun m => @LCT.Crypto.signWithOptions m w H fuel nonceFuel st rand hash key o) ?_ hb
  unfold LCT.Crypto.signWithOptions
  mono

@[partial_fixpoint_monotone] theorem Crypto.recoverKey :
    ∀ (b : Build → Build), monotone b → ∀ ε w sig hashN eNeg rInv pt, monotone fun m => @LCT.Crypto.recoverKey ε (b m) w sig hashN eNeg rInv pt := by
  intro b hb ε w sig hashN eNeg rInv pt
  refine pass (F := fun m => @LCT.Crypto.recoverKey ε m w sig hashN eNeg rInv pt) ?_ hb
  unfold LCT.Crypto.recoverKey
  mono

@[partial_fixpoint_monotone] theorem Crypto.recoverKeys :
    ∀ (b : Build → Build), monotone b → ∀ ε w sig hashN eNeg rInv x1, monotone fun m => @LCT.Crypto.recoverKeys ε (b m) w sig hashN eNeg rInv x1 := by
  intro b hb ε w sig hashN eNeg rInv x1
  refine pass (F := fun m => @LCT.Crypto.recoverKeys ε m w sig hashN eNeg rInv x1) ?_ hb
  induction x1 with
  | nil =>
    unfold LCT.Crypto.recoverKeys
    mono
  | cons _ _ ih =>
    unfold LCT.Crypto.recoverKeys
    mono using ih

@[partial_fixpoint_monotone] theorem Crypto.recoverLoop :
    ∀ (b : Build → Build), monotone b → ∀ ε w sig id hashN eNeg rInv j count, monotone fun m => @LCT.Crypto.recoverLoop ε (b m) w sig id hashN eNeg rInv j count := by
  intro b hb ε w sig id hashN eNeg rInv j count
  refine pass (F := fun m => @LCT.Crypto.recoverLoop ε m w sig id hashN eNeg rInv j count) ?_ hb
  induction count generalizing j with
  | zero =>
    unfold LCT.Crypto.recoverLoop
    mono
  | succ _ ih =>
    unfold LCT.Crypto.recoverLoop
    mono using ih

@[partial_fixpoint_monotone] theorem Crypto.recoverWithOptions :
    ∀ (b : Build → Build), monotone b → ∀ w sig hash id o, monotone fun m => @LCT.Crypto.recoverWithOptions (b m) w sig hash id o := by
  intro b hb w sig hash id o
  refine pass (F := fun m => @LCT.Crypto.recoverWithOptions m w sig hash id o) ?_ hb
  unfold LCT.Crypto.recoverWithOptions
  mono

@[partial_fixpoint_monotone] theorem Crypto.recover :
    ∀ (b : Build → Build), monotone b → ∀ w sig hash id, monotone fun m => @LCT.Crypto.recover (b m) w sig hash id := by
  intro b hb w sig hash id
  refine pass (F := fun m => @LCT.Crypto.recover m w sig hash id) ?_ hb
  unfold LCT.Crypto.recover
  mono

@[partial_fixpoint_monotone] theorem Crypto.Signature.fromP1363Hex :
    ∀ (b : Build → Build), monotone b → ∀ w data cp, monotone fun m => @LCT.Crypto.Signature.fromP1363Hex (b m) w data cp := by
  intro b hb w data cp
  refine pass (F := fun m => @LCT.Crypto.Signature.fromP1363Hex m w data cp) ?_ hb
  unfold LCT.Crypto.Signature.fromP1363Hex
  mono

@[partial_fixpoint_monotone] theorem Crypto.Signature.toP1363Hex :
    ∀ (b : Build → Build), monotone b → ∀ ε w sig, monotone fun m => @LCT.Crypto.Signature.toP1363Hex ε (b m) w sig := by
  intro b hb ε w sig
  refine pass (F := fun m => @LCT.Crypto.Signature.toP1363Hex ε m w sig) ?_ hb
  unfold LCT.Crypto.Signature.toP1363Hex
  mono

@[partial_fixpoint_monotone] theorem Crypto.checkPoint :
    ∀ (b : Build → Build), monotone b → ∀ w cp pt, monotone fun m => @LCT.Crypto.checkPoint (b m) w cp pt := by
  intro b hb w cp pt
  refine pass (F := fun m => @LCT.Crypto.checkPoint m w cp pt) ?_ hb
  unfold LCT.Crypto.checkPoint
  mono

@[partial_fixpoint_monotone] theorem Crypto.decodeUncompressed :
    ∀ (b : Build → Build), monotone b → ∀ w cp el hex, monotone fun m => @LCT.Crypto.decodeUncompressed (b m) w cp el hex := by
  intro b hb w cp el hex
  refine pass (F := fun m => @LCT.Crypto.decodeUncompressed m w cp el hex) ?_ hb
  unfold LCT.Crypto.decodeUncompressed
  mono

@[partial_fixpoint_monotone] theorem Crypto.decodeCompressed :
    ∀ (b : Build → Build), monotone b → ∀ w cp hex, monotone fun m => @LCT.Crypto.decodeCompressed (b m) w cp hex := by
  intro b hb w cp hex
  refine pass (F := fun m => @LCT.Crypto.decodeCompressed m w cp hex) ?_ hb
  unfold LCT.Crypto.decodeCompressed
  mono

@[partial_fixpoint_monotone] theorem Crypto.decodePoint :
    ∀ (b : Build → Build), monotone b → ∀ w hex cp, monotone fun m => @LCT.Crypto.decodePoint (b m) w hex cp := by
  intro b hb w hex cp
  refine pass (F := fun m => @LCT.Crypto.decodePoint m w hex cp) ?_ hb
  unfold LCT.Crypto.decodePoint
  mono

@[partial_fixpoint_monotone] theorem Crypto.encodePoint :
    ∀ (b : Build → Build), monotone b → ∀ ε w pt cp compressed, monotone fun m => @LCT.Crypto.encodePoint ε (b m) w pt cp compressed := by
  intro b hb ε w pt cp compressed
  refine pass (F := fun m => @LCT.Crypto.encodePoint ε m w pt cp compressed) ?_ hb
  unfold LCT.Crypto.encodePoint
  mono

@[partial_fixpoint_monotone] theorem Crypto.PublicKey.fromSec1Hex :
    ∀ (b : Build → Build), monotone b → ∀ w hex cp, monotone fun m => @LCT.Crypto.PublicKey.fromSec1Hex (b m) w hex cp := by
  intro b hb w hex cp
  refine pass (F := fun m => @LCT.Crypto.PublicKey.fromSec1Hex m w hex cp) ?_ hb
  unfold LCT.Crypto.PublicKey.fromSec1Hex
  mono

@[partial_fixpoint_monotone] theorem Crypto.PublicKey.toSec1Hex :
    ∀ (b : Build → Build), monotone b → ∀ ε w pk compressed, monotone fun m => @LCT.Crypto.PublicKey.toSec1Hex ε (b m) w pk compressed := by
  intro b hb ε w pk compressed
  refine pass (F := fun m => @LCT.Crypto.PublicKey.toSec1Hex ε m w pk compressed) ?_ hb
  unfold LCT.Crypto.PublicKey.toSec1Hex
  mono

end LCT.Mono
