import Verif.Props.SigningTests
import Verif.Props.TransactionTestsExamples

/-!
# C96: a published signature
-/

namespace LCT.Props
open LCT.BigInt LCT.Spec LCT.Out LCT.Curve LCT.Crypto LCT.Random LCT.KeyTests LCT.SigningTests

section
variable (w : Nat) [DigitWidth w] (cp : Params) (p n : Nat) [Fact p.Prime] (a b : Int)
  (G : (curve (a : ZMod p) (b : ZMod p)).Point) (hD : Domain w cp p n a b G)
include hD

/-- C96: there is another public key that accepts the signature, unless `r·d + 2·e` is a multiple of the order; the test of recovery
fails for no other reason. -/
theorem C96_other_key (d e k : Nat) (low : Bool) (hk : (k : ZMod n) ≠ 0) (hus : ¬ Unusable n G d e k) (hne : (ecdsaR n G k * d + 2 * e) % n ≠ 0) :
    ∃ Q : (curve (a : ZMod p) (b : ZMod p)).Point, Q ≠ 0 ∧ Q ≠ d • G ∧ EcdsaVerifies n G Q e (ecdsaR n G k) (lowS low n (ecdsaS n G d e k)) := by
  have hnp : Fact n.Prime := ⟨hD.n_prime⟩
  unfold Unusable at hus
  rw [not_or] at hus
  have hslt : ecdsaS n G d e k < n := ZMod.val_lt _
  have hr0 : (ecdsaR n G k : ZMod n) ≠ 0 := cast_ne_zero_of_lt (by omega) (Nat.mod_lt _ hD.n_prime.pos)
  have hs0 : ((ecdsaS n G d e k : Nat) : ZMod n) ≠ 0 := cast_ne_zero_of_lt (by omega) hslt
  have hcast : ((ecdsaS n G d e k : Nat) : ZMod n) = ((e : ZMod n) + (ecdsaR n G k : ZMod n) * (d : ZMod n)) * (k : ZMod n)⁻¹ := by
    unfold ecdsaS; rw [ZMod.natCast_zmod_val]
  have hsum : (ecdsaR n G k : ZMod n) * d + 2 * e ≠ 0 := by
    intro h
    apply hne
    apply Nat.mod_eq_zero_of_dvd
    rw [← ZMod.natCast_eq_zero_iff]
    push_cast
    exact h
  have h2 : (2 : ZMod n) ≠ 0 := by
    intro h
    have h' : ((2 : Nat) : ZMod n) = 0 := by exact_mod_cast h
    have := Nat.le_of_dvd (by decide) ((ZMod.natCast_eq_zero_iff _ _).mp h')
    have := hD.n_odd
    have := hD.n_prime.two_le
    omega
  let c : ZMod n := -((d : ZMod n) + 2 * e * (ecdsaR n G k : ZMod n)⁻¹)
  have hrc : (ecdsaR n G k : ZMod n) * c = -((ecdsaR n G k : ZMod n) * d + 2 * e) := by
    simp only [c]
    field_simp
  have hc0 : ((c.val : Nat) : ZMod n) ≠ 0 := by
    rw [ZMod.natCast_zmod_val]
    intro h
    rw [h, mul_zero] at hrc
    exact hsum (neg_eq_zero.mp hrc.symm)
  have hQ0 : c.val • G ≠ 0 := smul_ne_zero' hD.G_ne hD.G_order hc0
  have hkneg : (((-(k : ZMod n)).val : Nat) : ZMod n) ≠ 0 := by
    rw [ZMod.natCast_zmod_val]
    exact neg_ne_zero.mpr hk
  have hR : (((e : ZMod n) * ((ecdsaS n G d e k : Nat) : ZMod n)⁻¹).val • G +
      ((ecdsaR n G k : ZMod n) * ((ecdsaS n G d e k : Nat) : ZMod n)⁻¹).val • (c.val • G)) = (-(k : ZMod n)).val • G := by
    refine verifier_point hD.G_order (d := c.val) (e := e) (r := ecdsaR n G k) hkneg hs0 ?_
    rw [hcast, ZMod.natCast_zmod_val, ZMod.natCast_zmod_val, hrc, inv_neg]
    ring
  have hver : EcdsaVerifies n G (c.val • G) e (ecdsaR n G k) (ecdsaS n G d e k) := by
    unfold EcdsaVerifies
    rw [hR]
    refine ⟨smul_ne_zero' hD.G_ne hD.G_order hkneg, ?_⟩
    rw [val_neg_smul hD.G_order, xCoord_neg, smul_val hD.G_order (j := k) rfl]
    rfl
  refine ⟨c.val • G, hQ0, fun h => ?_, ?_⟩
  · have h1 := sign_verifies hD.G_ne hD.G_order (d := d) (e := e) hk hus.2
    have h3 := verifier_point hD.G_order (d := d) (e := e) (r := ecdsaR n G k) hk hs0 hcast
    rw [h, h3] at hR
    have h4 : (k + k) • G = 0 := by
      rw [add_nsmul]
      nth_rw 2 [hR]
      rw [val_neg_smul hD.G_order, smul_val hD.G_order (j := k) rfl, add_neg_cancel]
    refine smul_ne_zero' hD.G_ne hD.G_order (k := k + k) ?_ h4
    push_cast
    rw [← two_mul]
    exact mul_ne_zero h2 hk
  · unfold lowS
    split
    · rw [verifies_neg hD.G_order (smul_smul_zero hD.G_order _) hslt.le]
      exact hver
    · exact hver

end

namespace Published

theorem usable : UsableNonce Secp256k1.n LCT.Secp256k1.G d (octets 32 e) k := by
  have hlead : leadingBits (bitLength Secp256k1.n) (octets 32 e) = e := by decide +kernel
  refine ⟨nonce _, ?_⟩
  rw [hlead, Unusable, r_eq, s_eq]
  decide

theorem secret_text : NumberText (hexOf (List.replicate 32 0x46)) d :=
  .inr ⟨[], hexOf (List.replicate 32 0x46), (List.replicate 32 [4, 6]).flatten, 1, rfl, .none, ⟨by decide, by decide, by decide⟩, by decide, by decide⟩

theorem signable (o : SigningOptions) : Signable Secp256k1.n o (hexOf (List.replicate 32 0x46)) (fixedHex 32 e) d (octets 32 e) := by
  have hlead : leadingBits (bitLength Secp256k1.n) (octets 32 e) = e := by decide +kernel
  refine ⟨secret_text, by decide, by decide, lower_hexOf _, ?_⟩
  unfold signingComplaint
  rw [if_neg (by decide), if_neg fun h => h.2 (by decide +kernel), if_neg fun h => absurd (hlead.symm.trans h.2) (by decide)]

theorem has_nonce (o : SigningOptions) : HasNonce Secp256k1.n LCT.Secp256k1.G o (hexOf (List.replicate 32 0x46)) (fixedHex 32 e) := by
  rintro d' hash ⟨h1, -, -, h2, -⟩
  have hh : hash = octets 32 e := Codecs.hexOf_injective (h2.symm.trans (lower_hexOf _))
  have hw : DigitWidth 64 := inferInstance
  have hd : (d' : Int) = d := reading_unique (number_reads (w := 64) _) h1 secret_text
  rw [hh, Int.ofNat_inj.mp hd]
  exact ⟨k, usable⟩

end Published

/-- C96: the key and the signature that are printed in EIP-155 meet the hypotheses.  The test of signing passes for them, and
fails if another text is beside them; the test of recovery passes; and the test of hashes that must not be signed fails, but passes for the number zero,
an empty hash and a hash of zeros. -/
theorem C96_published (m : Build) (w : Nat) [DigitWidth w] (rand : Nat → Out RandomError (List UInt8)) (other : List UInt8)
    (hother : other ≠ p1363Text Secp256k1.n Published.r Published.s) :
    let key := hexOf (List.replicate 32 0x46)
    let hash := fixedHex 32 Published.e
    let text := p1363Text Secp256k1.n Published.r Published.s
    ∃ cp, (secp256k1 w : Out Unit _) = .ok cp ∧ ∃ f0, ∀ f nf, f0 ≤ f → f0 ≤ nf →
      each (signing m w f nf rand validOptions cp) [⟨key, hash, text⟩] = .ok () ∧
      each (signing m w f nf rand validOptions cp) [⟨key, hash, text⟩, ⟨key, hash, other⟩] = .panic ∧
      each (invalidSigning m w f nf rand cp) [(fixedHex 1 0, hash), (key, []), (key, fixedHex 32 0)] = .ok () ∧
      each (invalidSigning m w f nf rand cp) [(key, hash)] = .panic ∧
      each (recovery m w f nf rand true cp) [(key, hash), (key, fixedHex 32 0)] = .ok () := by
  intro key hash text
  classical
  obtain ⟨cp, ecp, hD, hcof⟩ := secp256k1_y (ε := Unit) w
  have h8 : bitLength Secp256k1.n % 8 = 0 := by decide +kernel
  have hbits : bitLength Secp256k1.n < 2 ^ 60 := by decide +kernel
  have hlead : leadingBits (bitLength Secp256k1.n) (octets 32 Published.e) = Published.e := by decide +kernel
  have hs : lowS true Secp256k1.n Published.s = Published.s := if_neg fun h => absurd h.2 (by decide)
  have claim : SigningClaim Secp256k1.n LCT.Secp256k1.G validOptions ⟨key, hash, text⟩ := by
    refine ⟨_, _, _, Published.signable _, Published.usable, ?_⟩
    rw [hlead, Published.r_eq, Published.s_eq]
    exact congrArg (p1363Text _ _) hs.symm
  have noclaim : ¬ SigningClaim Secp256k1.n LCT.Secp256k1.G validOptions ⟨key, hash, other⟩ := by
    rintro ⟨d, bs, k, ⟨h1, -, -, h2, -⟩, h3, h4⟩
    have hh : bs = octets 32 Published.e := Codecs.hexOf_injective (h2.symm.trans (lower_hexOf _))
    have hd : (d : Int) = Published.d := reading_unique (number_reads (w := 64) _) h1 Published.secret_text
    rw [hh, Int.ofNat_inj.mp hd] at h3 h4
    rw [C26_unique _ _ _ _ _ _ _ _ _ h3.1 Published.usable.1, hlead, Published.r_eq, Published.s_eq] at h4
    exact hother (h4.trans (congrArg (p1363Text _ _) hs))
  have zero : NumberText (fixedHex 1 0) 0 :=
    .inr ⟨[], fixedHex 1 0, [0, 0], 1, rfl, .none, ⟨by decide, by decide, by decide⟩, by decide, by decide⟩
  have noempty : ∀ o : SigningOptions, signingComplaint Secp256k1.n [] o ≠ none := fun o => by
    unfold signingComplaint
    rw [if_pos rfl]
    nofun
  have hz : leadingBits (bitLength Secp256k1.n) (octets 32 0) = 0 := by decide +kernel
  have hl : (octets 32 0).length * 8 = bitLength Secp256k1.n := by decide +kernel
  have nozero : ∀ o : SigningOptions, o.isZeroHashAllowed = false → signingComplaint Secp256k1.n (octets 32 0) o ≠ none := fun o ho => by
    unfold signingComplaint
    rw [if_neg (by decide), if_neg (fun h => h.2 hl), if_pos ⟨ho, hz⟩]
    nofun
  have fair0 : ∀ o : SigningOptions, HasNonce Secp256k1.n LCT.Secp256k1.G o (fixedHex 1 0) hash := by
    rintro o d bs ⟨h1, h2, -⟩
    have : (d : Int) = 0 := reading_unique (number_reads (w := 64) _) h1 zero
    omega
  have fair1 : ∀ o : SigningOptions, HasNonce Secp256k1.n LCT.Secp256k1.G o key [] := by
    rintro o d bs ⟨-, -, -, h1, h2⟩
    have hb : bs = [] := Codecs.hexOf_injective (h1.symm.trans rfl)
    subst hb
    exact absurd h2 (noempty o)
  have fair2 : ∀ o : SigningOptions, o.isZeroHashAllowed = false → HasNonce Secp256k1.n LCT.Secp256k1.G o key (fixedHex 32 0) := by
    rintro o ho d bs ⟨-, -, -, h1, h2⟩
    have hb : bs = octets 32 0 := Codecs.hexOf_injective (h1.symm.trans (lower_hexOf _))
    rw [hb] at h2
    exact absurd h2 (nozero o ho)
  obtain ⟨f1, g1⟩ := C96_signing m w cp _ _ 0 7 _ hD rand validOptions rfl (fun _ => h8) hbits [⟨key, hash, text⟩] (by
    simp only [List.forall_mem_cons]
    exact ⟨Published.has_nonce _, nofun⟩)
  obtain ⟨f2, g2⟩ := C96_signing m w cp _ _ 0 7 _ hD rand validOptions rfl (fun _ => h8) hbits [⟨key, hash, text⟩, ⟨key, hash, other⟩] (by
    simp only [List.forall_mem_cons]
    exact ⟨Published.has_nonce _, Published.has_nonce _, nofun⟩)
  obtain ⟨f3, g3⟩ := C96_invalid_signing m w cp _ _ 0 7 _ hD rand h8 hbits [(fixedHex 1 0, hash), (key, []), (key, fixedHex 32 0)] (by
    simp only [List.forall_mem_cons]
    exact ⟨fair0 _, fair1 _, fair2 _ rfl, nofun⟩)
  obtain ⟨f4, g4⟩ := C96_invalid_signing m w cp _ _ 0 7 _ hD rand h8 hbits [(key, hash)] (by
    simp only [List.forall_mem_cons]
    exact ⟨Published.has_nonce _, nofun⟩)
  obtain ⟨f5, g5⟩ := C96_recovery m w cp _ _ 0 7 _ hD rand hcof (by decide) h8 hbits true [(key, hash), (key, fixedHex 32 0)] (by
    simp only [List.forall_mem_cons]
    exact ⟨Published.has_nonce _, fair2 _ rfl, nofun⟩)
  refine ⟨cp, ecp, max f1 (max f2 (max f3 (max f4 f5))), fun f nf k1 k2 => ⟨?_, ?_, ?_, ?_, ?_⟩⟩
  · rw [g1 f nf (by omega) (by omega), if_pos]
    simp only [List.forall_mem_cons]
    exact ⟨claim, nofun⟩
  · rw [g2 f nf (by omega) (by omega), if_neg]
    simp only [List.forall_mem_cons]
    exact fun h => noclaim h.2.1
  · rw [g3 f nf (by omega) (by omega), if_pos]
    simp only [List.forall_mem_cons]
    exact ⟨⟨0, zero, .inl (by decide)⟩, ⟨_, Published.secret_text, .inr ⟨[], rfl, noempty _⟩⟩,
      ⟨_, Published.secret_text, .inr ⟨_, lower_hexOf _, nozero _ rfl⟩⟩, nofun⟩
  · rw [g4 f nf (by omega) (by omega), if_neg]
    simp only [List.forall_mem_cons]
    rintro ⟨⟨z, h1, h2⟩, -⟩
    have hz' : z = Published.d := reading_unique (number_reads (w := 64) _) h1 Published.secret_text
    subst hz'
    rcases h2 with h2 | ⟨bs, h2, h3⟩
    · exact h2 (by decide)
    · have hb : bs = octets 32 Published.e := Codecs.hexOf_injective (h2.symm.trans (lower_hexOf _))
      rw [hb] at h3
      exact h3 (Published.signable _).2.2.2.2
  · rw [g5 f nf (by omega) (by omega), if_pos]
    simp only [List.forall_mem_cons]
    refine ⟨⟨_, lower_hexOf _, .inr ⟨_, _, Published.signable _, Published.usable, ?_⟩⟩, ⟨_, lower_hexOf _, .inl (by decide)⟩, nofun⟩
    have hnp : Fact Secp256k1.n.Prime := ⟨hD.n_prime⟩
    have hk : ((Published.k : Nat) : ZMod Secp256k1.n) ≠ 0 := cast_ne_zero_of_lt (by decide) (by decide)
    refine C96_other_key w cp _ _ 0 7 _ hD _ _ _ true hk Published.usable.2 ?_
    rw [hlead, Published.r_eq]
    decide +kernel

end LCT.Props
