import Verif.Props.Accounts

/-!
# Signing with the built-in curve and the default hash function: C21, C27

The general theorems of `Verif.Props.Signing` and `Verif.Props.Recovery` for `secp256k1` and SHA-256, without assumptions about the curve and
the hash function.
-/

namespace LCT.Props
open LCT.BigInt LCT.Spec LCT.Out LCT.Modular LCT.Curve LCT.Crypto LCT.Hash LCT.Random LCT.Ethereum
variable {ε : Type}

/-- C21, C22 and C23 for the default settings: make a private key for the built-in curve, sign a 32-byte hash that is not zero, and the result
has a low `s`, is accepted by `verify` with the public key of the private key, and `recover_public_keys_from_signature` returns exactly this
public key for it. -/
theorem C21_default (m : Build) (w : Nat) [DigitWidth w] : ∃ cp, (secp256k1 w : Out ε _) = .ok cp ∧
    ∀ (z : Int) (x : BInt) (key : PrivateKey), Denotes w x z → (PrivateKey.new m w x cp : Out ε _) = .ok (some key) →
    ∀ (hash : List UInt8) (rand : Nat → Out RandomError (List UInt8)) (fuel nonceFuel : Nat) (sig : Signature) (id : RecoveryId),
      hash.length = 32 → ofBE hash ≠ 0 → (∀ i bytes, rand i = .ok bytes → bytes.length = 32) →
      signDefault m w fuel nonceFuel rand hash key .default = .ok (sig, id) →
      ∃ pk, (key.publicKey m w : Out ε _) = .ok pk ∧ verify m w hash sig pk = .ok true ∧ sig.isLowS m w = (.ok true : Out ε _) ∧
        ∃ pk', recover m w sig hash (some id) = .ok [pk'] ∧ pk'.params = pk.params ∧
          toInt w pk'.data.x = toInt w pk.data.x ∧ toInt w pk'.data.y = toInt w pk.data.y := by
  obtain ⟨cp, ecp, hD, hcof⟩ := secp256k1_y (ε := ε) w
  refine ⟨cp, ecp, fun z x key hx hnew hash rand fuel nf sig id hh hz hrand hok => ?_⟩
  obtain ⟨_, e, rfl⟩ := privateKeyNew_y (ε := ε) m hx hD.order
  rw [hnew] at e
  injection e with e
  split at e
  · rename_i hz'
    cases e
    obtain ⟨d, rfl⟩ : ∃ d : Nat, z = d := ⟨z.toNat, by omega⟩
    have hd0 : 0 < d := by omega
    have hdn : d < Secp256k1.n := by omega
    have hlead : leadingBits (bitLength Secp256k1.n) hash = ofBE hash := by
      unfold leadingBits
      rw [bitLength_n, hh, show 32 * 8 - 256 = 0 from rfl, Nat.pow_zero, Nat.div_one]
    have hl : ∀ i bytes, Drawn SigningOptions.default.employExtraRandomData (rand i) bytes →
        Sha2.Sha256.blockLen + Sha2.Sha256.outLen + 1 + 2 * ((bitLength Secp256k1.n + 7) / 8) + bytes.length < 2 ^ 61 := by
      intro i bytes hb
      rw [bitLength_n, hrand i bytes hb]
      decide
    obtain ⟨hne, r, s, hp, hr, hs, hr0, hrn, hs0, hsn, hlow, hver, hid⟩ := signed m w cp Secp256k1.p Secp256k1.n 0 7 LCT.Secp256k1.G hD
      Sha2.Sha256 Sha2.sha256 (2 ^ 61) Hash.Sha2.computes256 (by decide) (by decide) d hd0 hdn ⟨x, cp⟩ rfl hx hash .default
      (fun _ => by rw [bitLength_n]) rand hl fuel nf _ sig id hok
    obtain ⟨pk, epk, hpk1, hpk2⟩ := publicKey_y (ε := ε) m hD (key := ⟨x, cp⟩) rfl hx (cast_ne_zero_of_lt hd0 hdn)
    refine ⟨pk, epk, ?_, ?_, ?_⟩
    · obtain ⟨v, ev, hv⟩ := (verifyWithOptions_eq m hD hpk1 hpk2 (smul_smul_zero hD.G_order d) hp hr hs hr0 hs0 hsn hash .default (fun _ => by rw [bitLength_n])).2.2.2.2
        hne (fun h => by cases h) (fun _ => by rw [bitLength_n, hh]) (by rw [hlead]; exact hz)
      rw [hv.mpr hver] at ev
      exact ev
    · obtain ⟨_, e, rfl⟩ := isLowS_y (ε := ε) m hs (by rw [hp]; exact hD.order) hD.n_odd
      rw [e, decide_eq_true (hlow rfl)]
    · obtain ⟨pk', e, h1, h2⟩ := C23_unique m w cp Secp256k1.p Secp256k1.n 0 7 LCT.Secp256k1.G hD (by rw [hcof]; decide) sig hp r s hr0 hrn hs0
        hsn hr hs hash (some id) .default (fun _ => by rw [bitLength_n]) hcof (by decide +kernel) hne (fun _ => by rw [bitLength_n, hh])
        (by rw [hlead]; exact hz) _ (smul_ne_zero' hD.G_ne hD.G_order (cast_ne_zero_of_lt hd0 hdn)) hver id rfl hid
      refine ⟨pk', e, h1.trans hpk1.symm, ?_, ?_⟩
      · rw [(point_x h2).1.2, (point_x hpk2).1.2]
      · rw [(point_x h2).2.2, (point_x hpk2).2.2]
  · cases e

/-- C27 for the default settings: signing a 32-byte hash that is not zero does not panic; the only error it can return is a failure to obtain random bytes,
and this only if the operating system reports one. -/
theorem C27_default (m : Build) (w : Nat) [DigitWidth w] : ∃ cp, (secp256k1 w : Out ε _) = .ok cp ∧
    ∀ (z : Int) (x : BInt) (key : PrivateKey), Denotes w x z → (PrivateKey.new m w x cp : Out ε _) = .ok (some key) →
    ∀ (hash : List UInt8) (rand : Nat → Out RandomError (List UInt8)) (fuel nonceFuel : Nat),
      hash.length = 32 → ofBE hash ≠ 0 → (∀ i bytes, rand i = .ok bytes → bytes.length = 32) → (∀ i, rand i ≠ .panic) →
      signDefault m w fuel nonceFuel rand hash key .default ≠ .panic ∧
      ∀ er, signDefault m w fuel nonceFuel rand hash key .default = .err er →
        ∃ i e, rand i = .err e ∧ er = .FailedToGenerateNonce (.FailedToGenerateRandomBytes e) := by
  obtain ⟨cp, ecp, hD, hcof⟩ := secp256k1_y (ε := ε) w
  refine ⟨cp, ecp, fun z x key hx hnew hash rand fuel nf hh hz hrand hpanic => ?_⟩
  obtain ⟨_, e, rfl⟩ := privateKeyNew_y (ε := ε) m hx hD.order
  rw [hnew] at e
  injection e with e
  split at e
  · rename_i hz'
    cases e
    obtain ⟨d, rfl⟩ : ∃ d : Nat, z = d := ⟨z.toNat, by omega⟩
    have hd0 : 0 < d := by omega
    have hdn : d < Secp256k1.n := by omega
    have hlead : leadingBits (bitLength Secp256k1.n) hash = ofBE hash := by
      unfold leadingBits
      rw [bitLength_n, hh, show 32 * 8 - 256 = 0 from rfl, Nat.pow_zero, Nat.div_one]
    have hl : ∀ i bytes, Drawn SigningOptions.default.employExtraRandomData (rand i) bytes →
        Sha2.Sha256.blockLen + Sha2.Sha256.outLen + 1 + 2 * ((bitLength Secp256k1.n + 7) / 8) + bytes.length < 2 ^ 61 := by
      intro i bytes hb
      rw [bitLength_n, hrand i bytes hb]
      decide
    refine ⟨C27_no_panic m w cp Secp256k1.p Secp256k1.n 0 7 LCT.Secp256k1.G hD Sha2.Sha256 Sha2.sha256 (2 ^ 61) Hash.Sha2.computes256
      (by decide) (by decide) d hd0 hdn ⟨x, cp⟩ rfl hx hash .default (fun _ => by rw [bitLength_n]) rand hl hpanic fuel nf _,
      fun er he => ?_⟩
    obtain ⟨-, i, e, h1, h2, -⟩ := C27_error_source m w cp Secp256k1.p Secp256k1.n 0 7 LCT.Secp256k1.G hD Sha2.Sha256 Sha2.sha256 (2 ^ 61)
        Hash.Sha2.computes256 (by decide) (by decide) d hd0 hdn ⟨x, cp⟩ rfl hx hash .default (fun _ => by rw [bitLength_n]) rand hl
        (by rintro rfl; cases hh) (fun _ => by rw [bitLength_n, hh]) (fun _ => by rw [hlead]; exact hz) fuel nf _ er he
    exact ⟨i, e, h1, h2⟩
  · cases e

end LCT.Props
