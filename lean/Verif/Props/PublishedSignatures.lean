import Verif.Props.SigningTestsExamples
import Verif.Spec.PublishedSignatures

/-!
# C96: the two tests over published signatures, with their options
-/

namespace LCT.Props
open LCT.BigInt LCT.Spec LCT.Out LCT.Modular LCT.Curve LCT.Hash LCT.Crypto LCT.Codecs LCT.Random LCT.RandomTests LCT.TransactionTests LCT.KeyTests
open LCT.SigningTests LCT.Ethereum LCT.VectorTests

section
variable (m : Build) (w : Nat) [DigitWidth w] (cp : Params) (p n : Nat) [Fact p.Prime] (a b : Int)
  (G : (curve (a : ZMod p) (b : ZMod p)).Point) (hD : Domain w cp p n a b G) (rand : Nat → Out RandomError (List UInt8))

theorem signable_valid (dText hashText : List UInt8) (d : Nat) (hash : List UInt8) :
    Signable n validOptions dText hashText d hash ↔ KeyAndHash n dText hashText d hash := by
  unfold Signable KeyAndHash signingComplaint
  constructor
  · rintro ⟨h1, h2, h3, h4, h5⟩
    split at h5
    · cases h5
    · rename_i hne
      split at h5
      · cases h5
      · rename_i hl
        refine ⟨h1, h2, h3, h4, hne, ?_⟩
        by_contra hc
        exact hl ⟨rfl, hc⟩
  · rintro ⟨h1, h2, h3, h4, h5, h6⟩
    refine ⟨h1, h2, h3, h4, ?_⟩
    rw [if_neg h5, if_neg fun h => h.2 h6, if_neg fun h => Bool.noConfusion (show true = false from h.1)]

theorem signable_cases (dText hashText : List UInt8) (d : Nat) (hash : List UInt8) :
    Signable n casesOptions dText hashText d hash ↔ KeyAndHash n dText hashText d hash ∧ leadingBits (bitLength n) hash ≠ 0 := by
  unfold Signable KeyAndHash signingComplaint
  constructor
  · rintro ⟨h1, h2, h3, h4, h5⟩
    split at h5
    · cases h5
    · rename_i hne
      split at h5
      · cases h5
      · rename_i hl
        split at h5
        · cases h5
        · rename_i hz
          refine ⟨⟨h1, h2, h3, h4, hne, ?_⟩, fun hc => hz ⟨rfl, hc⟩⟩
          by_contra hc
          exact hl ⟨rfl, hc⟩
  · rintro ⟨⟨h1, h2, h3, h4, h5, h6⟩, h7⟩
    refine ⟨h1, h2, h3, h4, ?_⟩
    rw [if_neg h5, if_neg fun h => h.2 h6, if_neg fun h => h7 h.2]

open Classical in
include hD in
/-- C96: the test of valid signing passes exactly if every entry consists of a private key, a hash of the length of the order (zero or not) and the
signature of RFC 6979 with the smaller `s`. -/
theorem C96_valid_signing (h8 : bitLength n % 8 = 0) (hbits : bitLength n < 2 ^ 60) (vs : List Signing)
    (hv : ∀ v ∈ vs, ∀ d hash, KeyAndHash n v.d v.hash d hash → ∃ k, UsableNonce n G d hash k) :
    ∃ f0, ∀ f nf, f0 ≤ f → f0 ≤ nf → each (signing m w f nf rand validOptions cp) vs = if ∀ v ∈ vs, LowSignature n G v then .ok () else .panic := by
  obtain ⟨f0, h⟩ := C96_signing m w cp p n a b G hD rand validOptions rfl (fun _ => h8) hbits vs
    fun v hm d hash h => hv v hm d hash ((signable_valid n _ _ _ _).mp h)
  refine ⟨f0, fun f nf h1 h2 => ?_⟩
  rw [h f nf h1 h2]
  have key : ∀ v : Signing, SigningClaim n G validOptions v ↔ LowSignature n G v := fun v => by
    unfold SigningClaim LowSignature lowS
    simp only [signable_valid, show validOptions.enforceLowS = true from rfl, true_and]
  simp only [key]

open Classical in
include hD in
/-- C96: the test of signing over other published cases passes exactly if every entry consists of a private key, a hash of the length of the order that
is not zero, and the signature of RFC 6979 with the `s` as it comes. -/
theorem C96_signing_cases (h8 : bitLength n % 8 = 0) (hbits : bitLength n < 2 ^ 60) (vs : List Signing)
    (hv : ∀ v ∈ vs, ∀ d hash, KeyAndHash n v.d v.hash d hash → leadingBits (bitLength n) hash ≠ 0 → ∃ k, UsableNonce n G d hash k) :
    ∃ f0, ∀ f nf, f0 ≤ f → f0 ≤ nf → each (signing m w f nf rand casesOptions cp) vs = if ∀ v ∈ vs, PlainSignature n G v then .ok () else .panic := by
  obtain ⟨f0, h⟩ := C96_signing m w cp p n a b G hD rand casesOptions rfl (fun _ => h8) hbits vs
    fun v hm d hash h => hv v hm d hash ((signable_cases n _ _ _ _).mp h).1 ((signable_cases n _ _ _ _).mp h).2
  refine ⟨f0, fun f nf h1 h2 => ?_⟩
  rw [h f nf h1 h2]
  have key : ∀ v : Signing, SigningClaim n G casesOptions v ↔ PlainSignature n G v := fun v => by
    unfold SigningClaim PlainSignature lowS
    simp only [signable_cases, show casesOptions.enforceLowS = false from rfl, Bool.false_eq_true, false_and, if_false, and_assoc]
  simp only [key]

end

/-- The entry of EIP-155 meets the hypotheses, and claims what both tests demand (its `s` is the smaller one). -/
example : let v : Signing := ⟨hexOf (List.replicate 32 0x46), fixedHex 32 Published.e, p1363Text Secp256k1.n Published.r Published.s⟩
    LowSignature Secp256k1.n LCT.Secp256k1.G v ∧ PlainSignature Secp256k1.n LCT.Secp256k1.G v ∧
    ∀ d hash, KeyAndHash Secp256k1.n v.d v.hash d hash → ∃ k, UsableNonce Secp256k1.n LCT.Secp256k1.G d hash k := by
  intro v
  have hlead : leadingBits (bitLength Secp256k1.n) (octets 32 Published.e) = Published.e := by decide +kernel
  have hk := (signable_cases _ _ _ _ _).mp (Published.signable casesOptions)
  refine ⟨⟨_, _, _, hk.1, Published.usable, ?_⟩, ⟨_, _, _, hk.1, hk.2, Published.usable, ?_⟩, fun d hash h => ?_⟩
  · rw [hlead, Published.r_eq, Published.s_eq]
    exact congrArg (p1363Text _ _) (if_neg (by decide)).symm
  · rw [hlead, Published.r_eq, Published.s_eq]
  · exact Published.has_nonce validOptions d hash ((signable_valid _ _ _ _ _).mpr h)

end LCT.Props
