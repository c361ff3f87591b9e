import Verif.Props.NamedCurves
import Verif.Props.UserCurvesMore

/-!
# C91: orders that are not a whole number of bytes

The orders of P-521 (521 bits) and Curve25519 (253 bits) are not a whole number of bytes long, so no hash is as long as the order.
-/

namespace LCT.Props
open LCT.BigInt LCT.Spec LCT.Out LCT.Modular LCT.Curve LCT.Crypto LCT.Hash LCT.Random LCT.Named
variable {ε : Type}

theorem hashLengthMatches_unaligned (w : Nat) [DigitWidth w] {cp : Params} {n : Nat} (hn : Denotes w cp.order (n : Int)) (h8 : bitLength n % 8 ≠ 0)
    (len : Nat) :
    (hashLengthMatches .debug w len cp : Out ε _) = .panic ∧ (hashLengthMatches .release w len cp : Out ε _) = .ok false := by
  constructor
  · obtain ⟨_, e, rfl⟩ := bitLen_y (ε := ε) .debug hn
    unfold hashLengthMatches dassertM
    simp only [e, bind_ok, Int.natAbs_natCast, beq_eq_false_iff_ne.mpr h8]
    rfl
  · obtain ⟨_, e, rfl⟩ := bitLen_y (ε := ε) .release hn
    unfold hashLengthMatches dassertM
    simp only [e, bind_ok, Int.natAbs_natCast]
    show Out.ok _ = _
    rw [beq_eq_false_iff_ne.mpr (by omega)]

/-- C91 fails for every order that is not a whole number of bytes long: with the default options, signing, verifying and recovering panic in debug
builds for every hash that is not empty, and in release builds they refuse every such hash for its length. -/
theorem C91_unaligned_violated (w : Nat) [DigitWidth w] (cp : Params) (n : Nat) (hn : Denotes w cp.order (n : Int)) (h8 : bitLength n % 8 ≠ 0)
    (hash : List UInt8) (h0 : hash ≠ []) :
    (∀ (H : Hasher) (f nf : Nat) (st : H.State) (rand : Nat → Out RandomError (List UInt8)) (key : PrivateKey), key.params = cp →
      signWithOptions .debug w H f nf st rand hash key .default = .panic ∧
      signWithOptions .release w H f nf st rand hash key .default = .err .HashBitLengthDoesNotMatchBasePointOrder) ∧
    (∀ (sig : Signature) (pk : PublicKey), pk.params = cp →
      verify .debug w hash sig pk = .panic ∧ verify .release w hash sig pk = .err .HashBitLengthDoesNotMatchBasePointOrder) ∧
    (∀ (sig : Signature) (id : Option RecoveryId), sig.params = cp →
      recover .debug w sig hash id = .panic ∧ recover .release w sig hash id = .err .HashBitLengthDoesNotMatchBasePointOrder) := by
  have he : hash.isEmpty = false := by
    cases hash with
    | nil => exact absurd rfl h0
    | cons => rfl
  refine ⟨fun H f nf st rand key hk => ?_, fun sig pk hk => ?_, fun sig id hk => ?_⟩
  · obtain ⟨h1, h2⟩ := hashLengthMatches_unaligned (ε := SigningError) w hn h8 hash.length
    unfold signWithOptions SigningOptions.default failIf
    simp only [he, if_true, hk, h1, h2]
    exact ⟨rfl, rfl⟩
  · obtain ⟨h1, h2⟩ := hashLengthMatches_unaligned (ε := VerifyingError) w hn h8 hash.length
    unfold verify verifyWithOptions VerifyingOptions.default failIf
    simp only [he, if_true, hk, h1, h2]
    exact ⟨rfl, rfl⟩
  · obtain ⟨h1, h2⟩ := hashLengthMatches_unaligned (ε := RecoveryError) w hn h8 hash.length
    unfold recover recoverWithOptions RecoveryOptions.default failIf
    simp only [he, if_true, hk, h1, h2]
    exact ⟨rfl, rfl⟩

/-- P-521 and Curve25519, as the test suite supplies them, are such parameters. -/
theorem C91_unaligned_examples (w : Nat) [DigitWidth w] :
    (∃ cp, (Crypto.secp521r1 w : Out ε _) = .ok cp ∧ Denotes w cp.order NamedCurve.secp521r1.n ∧ bitLength NamedCurve.secp521r1.n = 521) ∧
    (∃ cp, (w25519 w : Out ε _) = .ok cp ∧ Denotes w cp.order W25519.n ∧ bitLength W25519.n = 253) := by
  refine ⟨?_, ?_⟩
  · obtain ⟨cp, e, h⟩ := secp521r1_y (ε := ε) w
    exact ⟨cp, e, h.n, by decide +kernel⟩
  · obtain ⟨cp, e, h, -⟩ := w25519_y (ε := ε) w
    exact ⟨cp, e, h.order, bitLength_25519⟩

end LCT.Props
