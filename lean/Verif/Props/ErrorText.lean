import Verif.Model.ErrorText
import Verif.Props.Vanity
import Verif.Props.Accounts

/-!
# Error messages: C78
-/

namespace LCT.Props
open LCT.BigInt LCT.Spec LCT.Spec.Eth LCT.Crypto LCT.Random LCT.Ethereum LCT.Examples LCT.ErrorText

private theorem int_text_inj {a b : Int} (h : intText a = intText b) : a = b := by
  unfold intText at h
  rw [decimalText_eq, decimalText_eq] at h
  have minus : ∀ n, (45 : UInt8) ∉ numeral 10 n := by
    intro n hc
    obtain ⟨i, hi, e⟩ := numeral_char (by decide) (by decide) hc
    have : ∀ i < 16, (45 : UInt8) ≠ hexDigit i := by decide
    exact this i hi e
  by_cases ha : a < 0 <;> by_cases hb : b < 0
  · rw [if_pos ha, if_pos hb] at h
    have := numeral_inj (by decide) (by decide) (List.cons.inj h).2
    omega
  · rw [if_pos ha, if_neg hb] at h
    exact absurd (h ▸ List.mem_cons_self) (minus _)
  · rw [if_neg ha, if_pos hb] at h
    exact absurd (h ▸ List.mem_cons_self) (minus _)
  · rw [if_neg ha, if_neg hb] at h
    have := numeral_inj (by decide) (by decide) h
    omega

/-- C78: the message of a failure to get random bytes determines the failure, with the code that the operating system gave. -/
theorem C78_random (e e' : RandomError) (h : randomMessage e = randomMessage e') : e = e' := by
  have starts : ∀ e : RandomError, (randomMessage e).take 17 =
      match e with
      | .AppleSecRandom _ => lit "SecRandomCopyByte"
      | .LinuxGetRandom _ => lit "getrandom failed "
      | .LinuxGetRandomCopiedNumberLessThanRequested => lit "getrandom failed:"
      | .WindowsBCryptGenRandom _ => lit "BCryptGenRandom f" := by
    intro e
    cases e
    · rw [randomMessage, List.take_append_of_le_length (by decide)]; dsimp only; decide
    · rw [randomMessage, List.take_append_of_le_length (by decide)]; dsimp only; decide
    · decide
    · rw [randomMessage, List.take_append_of_le_length (by decide)]; dsimp only; decide
  have hs := (starts e).symm.trans ((congrArg (List.take 17) h).trans (starts e'))
  cases e <;> cases e' <;> first
    | (exfalso; clear h starts; dsimp only at hs; revert hs; decide)
    | rfl
    | skip
  · rw [int_text_inj (List.append_cancel_left (as := lit "SecRandomCopyBytes failed with status ") h)]
  · rw [int_text_inj (List.append_cancel_left (as := lit "getrandom failed with errno ") h)]
  · have h2 := List.append_cancel_left (as := lit "BCryptGenRandom failed with status ") h
    rw [decimalText_eq, decimalText_eq] at h2
    rw [UInt32.toNat.inj (numeral_inj (by decide) (by decide) h2)]

theorem C78_nonce (e e' : GenerateNonceError) (h : nonceMessage e = nonceMessage e') : e = e' := by
  cases e
  cases e'
  rw [C78_random _ _ (List.append_cancel_left h)]

/-- C78: the message of a signing error determines the error. -/
theorem C78_signing (e e' : SigningError) (h : signingMessage e = signingMessage e') : e = e' := by
  have starts : ∀ e : SigningError, (signingMessage e).take 2 =
      match e with
      | .EmptyHashNotAllowed => lit "Em"
      | .ZeroHashNotAllowed => lit "Ze"
      | .HashBitLengthDoesNotMatchBasePointOrder => lit "Ha"
      | .FailedToGenerateNonce _ => lit "Fa" := by
    intro e
    cases e <;> first | decide | (rw [signingMessage, List.take_append_of_le_length (by decide)]; dsimp only; decide)
  have hs := (starts e).symm.trans ((congrArg (List.take 2) h).trans (starts e'))
  cases e <;> cases e' <;> first
    | (exfalso; clear h starts; dsimp only at hs; revert hs; decide)
    | rfl
    | rw [C78_nonce _ _ (List.append_cancel_left h)]

/-- C78: the message of a failure to build a transaction determines the failure. -/
theorem C78_building (e e' : BuildingError) (h : buildingMessage e = buildingMessage e') : e = e' := by
  have starts : ∀ e : BuildingError, (buildingMessage e).take 2 =
      match e with
      | .MissingFields => lit "So"
      | .SigningError _ => lit "Si" := by
    intro e
    cases e <;> first | decide | (rw [buildingMessage, List.take_append_of_le_length (by decide)]; dsimp only; decide)
  have hs := (starts e).symm.trans ((congrArg (List.take 2) h).trans (starts e'))
  cases e <;> cases e' <;> first
    | (exfalso; clear h starts; dsimp only at hs; revert hs; decide)
    | rfl
    | rw [C78_signing _ _ (List.append_cancel_left h)]

/-- C78: the same for the other error types. -/
theorem C78_others :
    (∀ e e' : VerifyingError, verifyingMessage e = verifyingMessage e' → e = e') ∧
    (∀ e e' : RecoveryError, recoveryMessage e = recoveryMessage e' → e = e') ∧
    (∀ e e' : SignatureDecodingError, p1363Message e = p1363Message e' → e = e') ∧
    (∀ e e' : PointDecodingError, sec1Message e = sec1Message e' → e = e') ∧
    (∀ e e' : ParseIntError, parseIntMessage e = parseIntMessage e' → e = e') ∧
    (∀ e e' : Codecs.CodecsError, codecsMessage e = codecsMessage e' → e = e') ∧
    (∀ e e' : Rlp.RlpErr, rlpMessage e = rlpMessage e' → e = e') := by
  refine ⟨?_, ?_, ?_, ?_, ?_, ?_, ?_⟩
  · intro e e' h; cases e <;> cases e' <;> first | rfl | exact absurd h (by decide)
  · intro e e' h; cases e <;> cases e' <;> first | rfl | exact absurd h (by decide)
  · intro e e' h; cases e <;> cases e' <;> first | rfl | exact absurd h (by decide)
  · intro e e' h; cases e <;> cases e' <;> first | rfl | exact absurd h (by decide)
  · intro e e' h
    rcases e with (_ | _) | _ <;> rcases e' with (_ | _) | _ <;> first | rfl | exact absurd h (by decide)
  · intro e e' h; cases e <;> cases e' <;> first | rfl | exact absurd h (by decide)
  · intro e e' h; cases e <;> cases e' <;> first | rfl | exact absurd h (by decide)

/-- C78: nothing is lost on the way up: when a payload cannot be signed because the operating system gives no random bytes, the message ends with
the operating system's code. -/
theorem C78_chain (e : RandomError) : buildingMessage (.SigningError (.FailedToGenerateNonce (.FailedToGenerateRandomBytes e))) =
    Eth.ascii "Signing error: " ++ (Eth.ascii "Failed to generate deterministic nonce: " ++ (Eth.ascii "Failed to generate random bytes: " ++ errorText e)) := by
  rw [← message_eq]
  rfl

/-! Two errors that differ in the code only. -/

example : randomMessage (.LinuxGetRandom 4) = Eth.ascii "getrandom failed with errno 4" ∧
    randomMessage (.LinuxGetRandom (-4)) = Eth.ascii "getrandom failed with errno -4" ∧
    randomMessage (.LinuxGetRandom 4) ≠ randomMessage (.LinuxGetRandom 14) := by
  refine ⟨by decide +kernel, by decide +kernel, fun h => by have := C78_random _ _ h; cases this⟩

end LCT.Props
