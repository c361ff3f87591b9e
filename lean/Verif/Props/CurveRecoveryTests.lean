import Verif.Props.NamedCurves
import Verif.Props.SigningTests
import Verif.Props.UserCurvesMore

/-!
# C96: the test of recovery on the other curves of the test suite
-/

namespace LCT.Props
open LCT.BigInt LCT.Spec LCT.Out LCT.Curve LCT.Hash LCT.Crypto LCT.Random LCT.KeyTests LCT.SigningTests

section
variable (m : Build) (w : Nat) [DigitWidth w] (rand : Nat → Out RandomError (List UInt8)) (low : Bool) (bs msg : List UInt8) (hbs : bs.length = 12)
  (hmsg : msg.length = 32)
include hbs hmsg

open Classical in
private theorem drawn {cp : Params} {p n : Nat} [Fact p.Prime] {a b : Int} {G : (curve (a : ZMod p) (b : ZMod p)).Point} (hD : Domain w cp p n a b G)
    (hcof : cp.cofactor < 2 ^ 32) (hpn : p ≤ (cp.cofactor + 1) * n) (hbits : bitLength n ≤ 521) (hn : 256 ^ 12 ≤ n)
    (hodd : cp.cofactor % 2 = 1 ∨ ∀ k, UsableNonce n G (ofBE bs) (Spec.Sha2.sha256 msg) k → ∀ sig : Signature, sig.params = cp →
      Denotes w sig.r (ecdsaR n G k : Nat) →
      Denotes w sig.s (lowS low n (ecdsaS n G (ofBE bs) (leadingBits (bitLength n) (Spec.Sha2.sha256 msg)) k) : Nat) →
      ∀ id, recoverWithOptions m w sig (Spec.Sha2.sha256 msg) id ⟨false⟩ ≠ .panic)
    (hk : ofBE bs ≠ 0 → leadingBits (bitLength n) (Spec.Sha2.sha256 msg) ≠ 0 → ∃ k, UsableNonce n G (ofBE bs) (Spec.Sha2.sha256 msg) k) :
    ∃ f0, ∀ f nf, f0 ≤ f → f0 ≤ nf → curveRecovery m w f nf rand low cp (.ok bs) (.ok msg) =
      if ofBE bs ≠ 0 ∧ leadingBits (bitLength n) (Spec.Sha2.sha256 msg) ≠ 0 then .ok () else .panic := by
  have hlt : ofBE bs < n := by
    have := ofBE_lt bs
    rw [hbs] at this
    omega
  obtain ⟨f0, h⟩ := C96_curve m w cp p n a b G hD rand hcof hpn (by omega) low bs msg (by omega) (fun h0 _ h => hk (by omega) h) hodd
  refine ⟨f0, fun f nf h1 h2 => ?_⟩
  rw [h f nf h1 h2]
  exact if_congr (by rw [Nat.pos_iff_ne_zero]; exact and_congr_right fun _ => and_iff_right hlt) rfl rfl

open Classical in
/-- C96 on the curves of SEC 2 and Brainpool: the test passes for every key of twelve bytes that are not all zero, and every message whose
hash does not begin with as many zero bits as the order has. -/
theorem C96_curves (c : Supplied) : ∃ cp, (c.code w : Out Unit _) = .ok cp ∧
    ∃ G : (curve ((c.standard.a : Int) : ZMod c.standard.p) ((c.standard.b : Int) : ZMod c.standard.p)).Point,
    xCoord G = c.standard.gx ∧ yCoord G = c.standard.gy ∧
    ((ofBE bs ≠ 0 → leadingBits (bitLength c.standard.n) (Spec.Sha2.sha256 msg) ≠ 0 →
        ∃ k, UsableNonce c.standard.n G (ofBE bs) (Spec.Sha2.sha256 msg) k) →
      ∃ f0, ∀ f nf, f0 ≤ f → f0 ≤ nf → curveRecovery m w f nf rand low cp (.ok bs) (.ok msg) =
        if ofBE bs ≠ 0 ∧ leadingBits (bitLength c.standard.n) (Spec.Sha2.sha256 msg) ≠ 0 then .ok () else .panic) := by
  obtain ⟨cp, ecp, hS⟩ := c.code_y (ε := Unit) w
  obtain ⟨G, hD, hx, hy⟩ := hS.domain c.checked
  obtain ⟨-, hpn, h521⟩ := c.bits
  have hn : 256 ^ 12 ≤ c.standard.n := by cases c <;> decide +kernel
  refine ⟨cp, ecp, G, hx, hy, ?_⟩
  exact drawn m w rand low bs msg hbs hmsg hD (by rw [hS.cofactor]; decide) (by rw [hS.cofactor]; exact hpn) h521 hn (.inl (by rw [hS.cofactor]))

open Classical in
/-- C96 on P-256. -/
theorem C96_p256 : ∃ cp, (nistP256 w : Out Unit _) = .ok cp ∧
    ((ofBE bs ≠ 0 → leadingBits 256 (Spec.Sha2.sha256 msg) ≠ 0 → ∃ k, UsableNonce P256.n LCT.P256.G (ofBE bs) (Spec.Sha2.sha256 msg) k) →
      ∃ f0, ∀ f nf, f0 ≤ f → f0 ≤ nf → curveRecovery m w f nf rand low cp (.ok bs) (.ok msg) =
        if ofBE bs ≠ 0 ∧ leadingBits 256 (Spec.Sha2.sha256 msg) ≠ 0 then .ok () else .panic) := by
  obtain ⟨cp, ecp, hD, hcof⟩ := nistP256_y (ε := Unit) w
  refine ⟨cp, ecp, ?_⟩
  rw [← bitLength_p256]
  exact drawn m w rand low bs msg hbs hmsg hD (by rw [hcof]; decide) (by rw [hcof]; decide +kernel) (by rw [bitLength_p256]; decide) (by decide +kernel)
    (.inl (by rw [hcof]))

open Classical in
/-- C96 on P-256 as SEC 2 writes it. -/
theorem C96_secp256r1 : ∃ cp, (secp256r1 w : Out Unit _) = .ok cp ∧
    ∃ G : (curve (((P256.p - 3 : Nat) : Int) : ZMod P256.p) ((P256.b : Int) : ZMod P256.p)).Point, xCoord G = P256.gx ∧ yCoord G = P256.gy ∧
    ((ofBE bs ≠ 0 → leadingBits 256 (Spec.Sha2.sha256 msg) ≠ 0 → ∃ k, UsableNonce P256.n G (ofBE bs) (Spec.Sha2.sha256 msg) k) →
      ∃ f0, ∀ f nf, f0 ≤ f → f0 ≤ nf → curveRecovery m w f nf rand low cp (.ok bs) (.ok msg) =
        if ofBE bs ≠ 0 ∧ leadingBits 256 (Spec.Sha2.sha256 msg) ≠ 0 then .ok () else .panic) := by
  obtain ⟨cp, ecp, hcof, G, hD, hx, hy⟩ := C91_secp256r1 (ε := Unit) w
  refine ⟨cp, ecp, G, hx, hy, ?_⟩
  rw [← bitLength_p256]
  exact drawn m w rand low bs msg hbs hmsg hD (by rw [hcof]; decide) (by rw [hcof]; decide +kernel) (by rw [bitLength_p256]; decide) (by decide +kernel)
    (.inl (by rw [hcof]))

open Classical in
/-- C96 on Curve25519, the same, provided that recovery from this signature does not panic (it does for some, see
`C91_w25519_violated`). -/
theorem C96_w25519 : ∃ cp, (w25519 w : Out Unit _) = .ok cp ∧
    ((∀ k, UsableNonce W25519.n LCT.W25519.G (ofBE bs) (Spec.Sha2.sha256 msg) k → ∀ sig : Signature, sig.params = cp →
        Denotes w sig.r (ecdsaR W25519.n LCT.W25519.G k : Nat) →
        Denotes w sig.s (lowS low W25519.n (ecdsaS W25519.n LCT.W25519.G (ofBE bs) (leadingBits 253 (Spec.Sha2.sha256 msg)) k) : Nat) →
        ∀ id, recoverWithOptions m w sig (Spec.Sha2.sha256 msg) id ⟨false⟩ ≠ .panic) →
      (ofBE bs ≠ 0 → leadingBits 253 (Spec.Sha2.sha256 msg) ≠ 0 → ∃ k, UsableNonce W25519.n LCT.W25519.G (ofBE bs) (Spec.Sha2.sha256 msg) k) →
      ∃ f0, ∀ f nf, f0 ≤ f → f0 ≤ nf → curveRecovery m w f nf rand low cp (.ok bs) (.ok msg) =
        if ofBE bs ≠ 0 ∧ leadingBits 253 (Spec.Sha2.sha256 msg) ≠ 0 then .ok () else .panic) := by
  obtain ⟨cp, ecp, hD, hcof⟩ := w25519_y (ε := Unit) w
  refine ⟨cp, ecp, ?_⟩
  rw [← bitLength_25519]
  exact fun h => drawn m w rand low bs msg hbs hmsg hD (by rw [hcof]; decide) (by rw [hcof]; decide +kernel) (by rw [bitLength_25519]; decide)
    (by decide +kernel) (.inr h)

end

open P256Published in
/-- The key and the message of RFC 6979, A.2.5, meet the hypotheses of `C96_curve` on P-256: the test would pass if they were drawn; and with a key of
zeros it would fail. -/
theorem C96_curve_published (m : Build) (w : Nat) [DigitWidth w] (rand : Nat → Out RandomError (List UInt8)) (low : Bool) :
    ∃ cp, (nistP256 w : Out Unit _) = .ok cp ∧ ∃ f0, ∀ f nf, f0 ≤ f → f0 ≤ nf →
      curveRecovery m w f nf rand low cp (.ok (octets 32 d)) (.ok sample) = .ok () ∧
      curveRecovery m w f nf rand low cp (.ok (List.replicate 12 0)) (.ok sample) = .panic := by
  obtain ⟨cp, ecp, hD, hcof⟩ := nistP256_y (ε := Unit) w
  have hd : ofBE (octets 32 d) = d := by decide +kernel
  have hz : ofBE (List.replicate 12 0) = 0 := by decide
  have hlead : leadingBits (bitLength P256.n) (Spec.Sha2.sha256 sample) = 0xaf2bdbe1aa9b6ec1e2ade1d694f41fc71a831d0268e9891562113d8a62add1bf := by
    rw [hash256_eq]
    decide +kernel
  have husable : UsableNonce P256.n LCT.P256.G d (Spec.Sha2.sha256 sample) k256 := by
    rw [UsableNonce, hlead, hash256_eq]
    refine ⟨nonce256 _, ?_⟩
    obtain ⟨hR, hS⟩ := halves 0xaf2bdbe1aa9b6ec1e2ade1d694f41fc71a831d0268e9891562113d8a62add1bf k256 r256 s256
      0x34a7e72c423213443152c82df94fe0f6851bf894fd91c64b19555346093ff492 (by decide +kernel) (by decide) (by decide) (by decide)
      (by decide) (by decide) (by decide +kernel)
    rw [Unusable, hR, hS]
    decide
  have hbits : bitLength P256.n < 2 ^ 60 := by rw [bitLength_p256]; decide
  have hcof' : cp.cofactor < 2 ^ 32 := by rw [hcof]; decide
  have hpn : P256.p ≤ (cp.cofactor + 1) * P256.n := by rw [hcof]; decide +kernel
  obtain ⟨f1, h1⟩ := C96_curve m w cp _ _ _ _ _ hD rand hcof' hpn hbits low (octets 32 d) sample (by decide)
    (fun _ _ _ => ⟨k256, by rw [hd]; exact husable⟩) (.inl (by rw [hcof]))
  obtain ⟨f2, h2⟩ := C96_curve m w cp _ _ _ _ _ hD rand hcof' hpn hbits low (List.replicate 12 0) sample (by decide)
    (fun h => absurd hz (by omega)) (.inl (by rw [hcof]))
  refine ⟨cp, ecp, max f1 f2, fun f nf g1 g2 => ⟨?_, ?_⟩⟩
  · rw [h1 f nf (by omega) (by omega), if_pos]
    rw [hd, hlead]
    decide
  · rw [h2 f nf (by omega) (by omega), if_neg fun h => absurd hz (by omega)]

end LCT.Props
