import Verif.Spec.Builds
import Verif.Lemmas.Builds.Programs
import Verif.Lemmas.Builds.Ssz

/-!
# Debug and release builds give the same results (C68)

`ε` is the type of errors of the caller, `w` the digit width.
-/

namespace LCT.Props
open LCT.BigInt LCT.Crypto LCT.Curve LCT.Hash LCT.Rlp LCT.Ethereum LCT.Random LCT.Spec
open Lean.Order (monotone)

theorem sameResult {ε α : Type} {f : Build → Out ε α} (h : monotone f) : SameResult f := Mono.iff.1 h

/-- Splits a list of claims and proves each of them from the functions that are called. -/
macro "same_results" : tactic => `(tactic| ((repeat' apply And.intro) <;> exact sameResult (by mono)))

/-- C68: big integers. -/
theorem C68_integers (ε : Type) (w : Nat) (x y : BInt) (n radix fuel : Nat) (s : List UInt8) :
    SameResult (fun m => (BInt.add m w x y : Out ε _)) ∧ SameResult (fun m => (BInt.sub m w x y : Out ε _)) ∧
    SameResult (fun m => (BInt.mul m w x y : Out ε _)) ∧ SameResult (fun m => (BInt.divRem m w x y : Out ε _)) ∧
    SameResult (fun m => (BInt.div m w x y : Out ε _)) ∧ SameResult (fun m => (BInt.rem m w x y : Out ε _)) ∧
    SameResult (fun m => (BInt.gcd m w fuel x y : Out ε _)) ∧ SameResult (fun m => (BInt.shr m w x n : Out ε _)) ∧
    SameResult (fun m => (BInt.beq m x y : Out ε _)) ∧ SameResult (fun m => (BInt.cmp m x y : Out ε _)) ∧
    SameResult (fun m => (BInt.isZero m x : Out ε _)) ∧ SameResult (fun m => (BInt.bitLen m w x : Out ε _)) ∧
    SameResult (fun m => (BInt.trailingZeros m w x : Out ε _)) ∧ SameResult (fun m => (BInt.byteLen m w x : Out ε _)) ∧
    SameResult (fun m => (BInt.toBeBytes m w x : Out ε _)) ∧ SameResult (fun m => (BInt.toLowerHex m w x : Out ε _)) ∧
    SameResult (fun m => (BInt.display m w x : Out ε _)) ∧ SameResult (fun m => BInt.fromStrRadix m w s radix) ∧
    SameResult (fun m => BUint.fromStrRadix m w s radix) ∧ SameResult (fun m => BUint.tryFromStr m w s) := by
  same_results

/-- C68: modular arithmetic and curves. -/
theorem C68_math (ε : Type) (w : Nat) (a b n : BInt) (c : Curve) (p q : Point) (cp : Params) :
    SameResult (fun m => (Modular.modulo m w a n : Out ε _)) ∧ SameResult (fun m => (Modular.invert m w a n : Out ε _)) ∧
    SameResult (fun m => (Modular.pow m w a b n : Out ε _)) ∧ SameResult (fun m => (Modular.sqrt m w a n : Out ε _)) ∧
    SameResult (fun m => (addPoints m w c p q : Out ε _)) ∧ SameResult (fun m => (doublePoint m w c p : Out ε _)) ∧
    SameResult (fun m => (mulPoint m w c p n : Out ε _)) ∧ SameResult (fun m => (cp.validatePoint m w p : Out ε _)) := by
  same_results

/-- C68: hash functions, on an object in any state. -/
theorem C68_hashes (ε : Type) (message key : List UInt8) :
    (∀ H ∈ [Sha2.Sha256, Sha2.Sha384, Sha2.Sha512, Sha3.Keccak256, Sha3.Sha3_224, Sha3.Sha3_256, Sha3.Sha3_384, Sha3.Sha3_512],
      ∀ st : H.State, SameResult (fun m => (H.digest m st message : Out ε _)) ∧ SameResult (fun m => (hmac m H st key message : Out ε _))) := by
  intro H hH st
  have : Mono.HasherMono H := by
    simp only [List.mem_cons, List.not_mem_nil, or_false] at hH
    rcases hH with rfl | rfl | rfl | rfl | rfl | rfl | rfl | rfl <;> infer_instance
  same_results

/-- C68: keys and signatures.  The operating system gives the same random bytes to both builds. -/
theorem C68_signatures (ε : Type) (w fuel nonceFuel : Nat) (d r s : BInt) (p : Point) (cp : Params) (sk : PrivateKey) (pk : PublicKey) (sig : Signature)
    (hash text : List UInt8) (rand : Nat → Out RandomError (List UInt8)) (so : SigningOptions) (vo : VerifyingOptions) (ro : RecoveryOptions)
    (id : Option RecoveryId) (compressed : Bool) :
    SameResult (fun m => (PrivateKey.new m w d cp : Out ε _)) ∧ SameResult (fun m => (PublicKey.new m w p cp : Out ε _)) ∧
    SameResult (fun m => (sk.publicKey m w : Out ε _)) ∧ SameResult (fun m => (Signature.new m w r s cp : Out ε _)) ∧
    SameResult (fun m => (sig.isLowS m w : Out ε _)) ∧ SameResult (fun m => signDefault m w fuel nonceFuel rand hash sk so) ∧
    SameResult (fun m => verifyWithOptions m w hash sig pk vo) ∧ SameResult (fun m => recoverWithOptions m w sig hash id ro) ∧
    SameResult (fun m => PublicKey.fromSec1Hex m w text cp) ∧ SameResult (fun m => (pk.toSec1Hex m w compressed : Out ε _)) ∧
    SameResult (fun m => Signature.fromP1363Hex m w text cp) ∧ SameResult (fun m => (sig.toP1363Hex m w : Out ε _)) := by
  unfold signDefault
  same_results

/-- C68: RLP and SSZ, for items of any nesting and values of any type. -/
theorem C68_codecs (bs : List UInt8) (t : Spec.Ssz.Ty) (v : t.Val) (it : Ssz.Item) (ops : List Ssz.Op) :
    SameResult (fun m => decodeTree m bs) ∧ SameResult (fun m => Ssz.encode m (Ssz.impl t) v) ∧
    SameResult (fun m => Ssz.decode m (Ssz.impl t) bs) ∧ SameResult (fun m => Ssz.runOps m it ops) := by
  same_results

/-- C68: transactions. -/
theorem C68_transactions (ε : Type) (w fuel nonceFuel : Nat) (rand : Nat → Out RandomError (List UInt8)) (key : PrivateKey) (o : SigningOptions)
    (p1 : PayloadLegacy) (p2 : PayloadEip155) (p3 : PayloadEip2930) (p4 : PayloadEip1559)
    (t1 : TransactionLegacy) (t2 : TransactionEip155) (t3 : TransactionEip2930) (t4 : TransactionEip1559) (bs : List UInt8) :
    SameResult (fun m => p1.sign m w fuel nonceFuel rand key o) ∧ SameResult (fun m => p2.sign m w fuel nonceFuel rand key o) ∧
    SameResult (fun m => p3.sign m w fuel nonceFuel rand key o) ∧ SameResult (fun m => p4.sign m w fuel nonceFuel rand key o) ∧
    SameResult (fun m => (t1.encode m w : Out ε _)) ∧ SameResult (fun m => (t2.encode m w : Out ε _)) ∧
    SameResult (fun m => (t3.encode m w : Out ε _)) ∧ SameResult (fun m => (t4.encode m w : Out ε _)) ∧
    SameResult (fun m => decode m (decTransactionLegacy m w) bs) ∧ SameResult (fun m => decode m (decTransactionEip155 m w) bs) ∧
    SameResult (fun m => decode m (decTransactionEip2930 m w) bs) ∧ SameResult (fun m => decode m (decTransactionEip1559 m w) bs) ∧
    SameResult (fun m => (t1.display m w : Out ε _)) ∧ SameResult (fun m => (t2.display m w : Out ε _)) ∧
    SameResult (fun m => (t3.display m w : Out ε _)) ∧ SameResult (fun m => (t4.display m w : Out ε _)) := by
  same_results

/-- C68: accounts, addresses and amounts. -/
theorem C68_accounts (ε : Type) (w : Nat) (data : List UInt8) (len : data.length = 32) (sk : PrivateKey) (pk : PublicKey) (a : Address) (s : List UInt8)
    (x : BInt) :
    SameResult (fun m => (EoaPrivateKey.new m w data len : Out ε _)) ∧ SameResult (fun m => (EoaPrivateKey.publicKey m w sk : Out ε _)) ∧
    SameResult (fun m => (EoaPublicKey.address m w pk : Out ε _)) ∧ SameResult (fun m => (a.toChecksummedHex m : Out ε _)) ∧
    SameResult (fun m => (a.display m : Out ε _)) ∧ SameResult (fun m => Wei.tryFromStr m w s) ∧ SameResult (fun m => Wei.fromDecimal m w s) ∧
    SameResult (fun m => (Wei.display m w x : Out ε _)) := by
  same_results

/-- C68: the example programs. -/
theorem C68_programs (ε : Type) (w fuel : Nat) (arg : Option (List UInt8)) (pretty : Examples.Json → List UInt8) (clock : Nat → Option Nat)
    (random : Nat → Out RandomError (List UInt8)) :
    SameResult (fun m => (Examples.txDecoder m w arg : Out ε _)) ∧ SameResult (fun m => (Examples.keyToAddress m w arg : Out ε _)) ∧
    SameResult (fun m => (Examples.rlpDecoder m pretty arg : Out ε _)) ∧
    SameResult (fun m => (Examples.vanityAddress m w fuel clock random arg : Out ε _)) := by
  same_results

/-- Both cases arise.  A debug build panics on this RLP header, and a release build rejects it; a vector of bytes is decoded alike. -/
example : decodeTree .debug [0xbf, 255, 255, 255, 255, 255, 255, 255, 255] = .panic ∧
    decodeTree .release [0xbf, 255, 255, 255, 255, 255, 255, 255, 255] ≠ .panic ∧
    decodeTree .debug [0x82, 1, 2] = .ok (.bytes [1, 2]) ∧ decodeTree .release [0x82, 1, 2] = .ok (.bytes [1, 2]) := by
  refine ⟨rfl, fun h => ?_, rfl, rfl⟩
  cases h

end LCT.Props
