import Verif.Lemmas.Crypto.W25519
import Verif.Props.Cofactor
import Verif.Props.UserCurves

/-!
# C91: the other forms and the cofactor

P-256 with the coefficient written as a residue, and Curve25519 in short Weierstrass form, whose cofactor is 8, as the test suite supplies them.
-/

namespace LCT.Props
open LCT.BigInt LCT.Spec LCT.Out LCT.Modular LCT.Curve LCT.Crypto LCT.Hash LCT.Random
open WeierstrassCurve.Affine (Point.some Point.zero)
variable {ε : Type}

/-- The base point with another way of writing the coefficients. -/
theorem P256_of {A B : ZMod P256.p} (hA : A = ((-3 : Int) : ZMod P256.p)) (hB : B = ((P256.b : Int) : ZMod P256.p)) :
    ∃ (h : (curve A B).Nonsingular (P256.gx : ZMod P256.p) (P256.gy : ZMod P256.p)),
      P256.n • (Point.some _ _ h : (curve A B).Point) = 0 ∧ Nat.card (curve A B).Point = P256.n ∧
      4 * A ^ 3 + 27 * B ^ 2 ≠ 0 ∧ B ≠ 0 := by
  subst hA hB
  obtain ⟨cp, -, hD, -⟩ := nistP256_y (ε := Unit) 64
  exact ⟨LCT.P256.base_nonsingular, LCT.P256.n_mul_G, LCT.P256.card_points, hD.disc, hD.b_ne⟩

/-- C91: P-256 with `p - 3` for `-3` is supplied correctly too: the parameters are valid, for the same field, order and base point. -/
theorem C91_secp256r1 (w : Nat) [DigitWidth w] : ∃ cp, (secp256r1 w : Out ε _) = .ok cp ∧ cp.cofactor = 1 ∧
    ∃ G : (curve (((P256.p - 3 : Nat) : Int) : ZMod P256.p) ((P256.b : Int) : ZMod P256.p)).Point,
      Domain w cp P256.p P256.n (P256.p - 3 : Nat) P256.b G ∧ xCoord G = P256.gx ∧ yCoord G = P256.gy := by
  have hA : (((P256.p - 3 : Nat) : Int) : ZMod P256.p) = ((-3 : Int) : ZMod P256.p) := by
    rw [LCT.P256.a_cast]
    exact Int.cast_natCast _
  obtain ⟨h, hn, hcard, hdisc, hb0⟩ := P256_of hA rfl
  have hx : ((P256.gx : Nat) : ZMod P256.p).val = P256.gx := ZMod.val_cast_of_lt (by decide)
  have hy : ((P256.gy : Nat) : ZMod P256.p).val = P256.gy := ZMod.val_cast_of_lt (by decide)
  have key : (secp256r1 w : Out ε _).Yields fun cp => Domain w cp P256.p P256.n (P256.p - 3 : Nat) P256.b (Point.some _ _ h) ∧ cp.cofactor = 1 := by
    unfold secp256r1
    run (fromHexUnwrap_y (z := (P256.p - 3 : Nat)) (by decide +kernel)) with a ha
    run (fromHexUnwrap_y (z := P256.b) (by decide +kernel)) with b hb
    run (fromHexUnwrap_y (z := P256.p) (by decide +kernel)) with p hp
    run (fromHexUnwrap_y (z := P256.gx) (by decide +kernel)) with gx hgx
    run (fromHexUnwrap_y (z := P256.gy) (by decide +kernel)) with gy hgy
    run (fromHexUnwrap_y (z := P256.n) (by decide +kernel)) with n hn'
    refine .pure ⟨⟨LCT.P256.p_ne_two, LCT.P256.prime_n, by decide, ⟨ha, hb, hp⟩, hdisc, hb0, ?_, hn',
      WeierstrassCurve.Affine.Point.some_ne_zero _, hn, by rw [hcard]; exact (Nat.one_mul _).symm⟩, rfl⟩
    show Denotes w gx _ ∧ Denotes w gy _
    rw [hx, hy]
    exact ⟨hgx, hgy⟩
  obtain ⟨cp, e, hD, hc⟩ := key
  exact ⟨cp, e, hc, _, hD, hx, hy⟩

/-! ## Curve25519 in short Weierstrass form -/

theorem bitLength_25519 : bitLength W25519.n = 253 := by decide +kernel

/-- C91: the parameters of Curve25519 in the test suite are valid; the curve has eight times as many points as the subgroup that the base point
generates. -/
theorem C91_w25519 (w : Nat) [DigitWidth w] : ∃ cp, (w25519 w : Out ε _) = .ok cp ∧ cp.cofactor = 8 ∧
    Denotes w cp.curve.p ((2 ^ 255 - 19 : Nat) : Int) ∧ Denotes w cp.curve.a W25519.a ∧ Denotes w cp.curve.b W25519.b ∧
    Denotes w cp.basePoint.x W25519.gx ∧ Denotes w cp.basePoint.y W25519.gy ∧ Denotes w cp.order W25519.n ∧
    W25519.p.Prime ∧ W25519.n.Prime ∧ (∃ h, LCT.W25519.G = .some (W25519.gx : ZMod W25519.p) (W25519.gy : ZMod W25519.p) h) ∧
    addOrderOf LCT.W25519.G = W25519.n ∧
    Nat.card (curve (W25519.a : ZMod W25519.p) (W25519.b : ZMod W25519.p)).Point = 8 * W25519.n := by
  obtain ⟨cp, ecp, hD, hcof⟩ := w25519_y (ε := ε) w
  have hb : Denotes w cp.basePoint.x _ ∧ Denotes w cp.basePoint.y _ := hD.base
  have hc := LCT.W25519.card_points
  rw [show ((W25519.gx : Nat) : ZMod W25519.p).val = W25519.gx from ZMod.val_cast_of_lt (by decide),
    show ((W25519.gy : Nat) : ZMod W25519.p).val = W25519.gy from ZMod.val_cast_of_lt (by decide)] at hb
  refine ⟨cp, ecp, hcof, hD.curve.p, hD.curve.a, hD.curve.b, hb.1, hb.2, hD.order, LCT.W25519.prime_p, LCT.W25519.prime_n, ⟨_, rfl⟩,
    LCT.W25519.order_G, ?_⟩
  simp only [LCT.W25519.E, Int.cast_natCast] at hc
  exact hc

/-- The short Weierstrass form is that of Curve25519: `x = u + 486662/3` turns `v² = u³ + 486662·u² + u` into `v² = x³ + a·x + b`, and the base
point has `u = 9`. -/
theorem C91_w25519_form (u : ZMod W25519.p) :
    u ^ 3 + 486662 * u ^ 2 + u = (u + 486662 / 3) ^ 3 + (W25519.a : ZMod W25519.p) * (u + 486662 / 3) + (W25519.b : ZMod W25519.p) ∧
    (W25519.gx : ZMod W25519.p) = 9 + 486662 / 3 := by
  have h3 : (3 : ZMod W25519.p) ≠ 0 := by
    have := LCT.W25519.cast_ne_zero (k := 3) (by decide) (by decide)
    exact_mod_cast this
  have ha : (3 * W25519.a + 486662 ^ 2) % W25519.p = 3 % W25519.p := by decide +kernel
  have hb : (27 * W25519.b + 9 * 486662) % W25519.p = (2 * 486662 ^ 3) % W25519.p := by decide +kernel
  have hg : (3 * W25519.gx) % W25519.p = (27 + 486662) % W25519.p := by decide +kernel
  have ha := (ZMod.natCast_eq_natCast_iff' _ _ _).mpr ha
  have hb := (ZMod.natCast_eq_natCast_iff' _ _ _).mpr hb
  have hg := (ZMod.natCast_eq_natCast_iff' _ _ _).mpr hg
  push_cast at ha hb hg
  constructor
  · apply mul_left_cancel₀ (pow_ne_zero 3 h3)
    field_simp
    linear_combination (-9 * u - 3 * 486662) * ha - hb
  · apply mul_left_cancel₀ h3
    field_simp
    linear_combination hg

/-- C91: what a key on Curve25519 signs verifies with its public key, also with hashes that are shorter or longer than the order. -/
theorem C91_w25519_sign_verify (m : Build) (w : Nat) [DigitWidth w] : ∃ cp, (w25519 w : Out ε _) = .ok cp ∧
    ∀ (z : Int) (x : BInt) (key : PrivateKey), Denotes w x z → (PrivateKey.new m w x cp : Out ε _) = .ok (some key) →
    ∀ (hash : List UInt8) (low : Bool) (rand : Nat → Out RandomError (List UInt8)) (fuel nonceFuel : Nat) (st : Sha2.Sha256.State)
      (sig : Signature) (id : RecoveryId), leadingBits 253 hash ≠ 0 →
      signWithOptions m w Sha2.Sha256 fuel nonceFuel st rand hash key ⟨low, false, false, false⟩ = .ok (sig, id) →
      ∃ pk, (key.publicKey m w : Out VerifyingError _) = .ok pk ∧
        verifyWithOptions m w hash sig pk { VerifyingOptions.default with strictHashByteLength := false, enforceLowS := low } = .ok true := by
  obtain ⟨cp, ecp, hD, hcof⟩ := w25519_y (ε := ε) w
  refine ⟨cp, ecp, fun z x key hx hnew hash low rand fuel nf st sig id hz hok => ?_⟩
  obtain ⟨_, e, rfl⟩ := privateKeyNew_y (ε := ε) m hx hD.order
  rw [hnew] at e
  injection e with e
  split at e
  · rename_i hz'
    cases e
    obtain ⟨d, rfl⟩ : ∃ d : Nat, z = d := ⟨z.toNat, by omega⟩
    have hl : ∀ i bytes, Drawn false (rand i) bytes →
        Sha2.Sha256.blockLen + Sha2.Sha256.outLen + 1 + 2 * ((bitLength W25519.n + 7) / 8) + bytes.length < 2 ^ 61 := by
      intro i bytes hb
      cases (hb : bytes = [])
      rw [bitLength_25519]
      decide
    obtain ⟨pk, epk, -, hv⟩ := C21_sign_then_verify m w cp W25519.p W25519.n W25519.a W25519.b LCT.W25519.G hD Sha2.Sha256 Spec.Sha2.sha256
      (2 ^ 61) Hash.Sha2.computes256 (by decide) (by decide) d (by omega) (by omega) ⟨x, cp⟩ rfl hx hash ⟨low, false, false, false⟩
      nofun rand hl fuel nf st sig id hok
      { VerifyingOptions.default with strictHashByteLength := false, enforceLowS := low } (fun h => h) nofun
      (by rw [bitLength_25519]; exact hz)
    exact ⟨pk, epk, hv⟩
  · cases e

/-- C91 fails on Curve25519: the point with `u = 0` is on the curve, and asking for a public key with it panics instead of refusing it, from its
coordinates and from its compressed encoding; and recovery panics for every signature whose first half is the remainder of its abscissa. -/
theorem C91_w25519_violated (m : Build) (w : Nat) [DigitWidth w] : ∃ cp, (w25519 w : Out ε _) = .ok cp ∧
    (∀ pt : Curve.Point, Denotes w pt.x (0x2aaaaaaaaaaaaaaaaaaaaaaaaaaaaaaaaaaaaaaaaaaaaaaaaaaaaaaaaaad2451 : Nat) → Denotes w pt.y 0 →
      (PublicKey.new m w pt cp : Out ε _) = .panic) ∧
    PublicKey.fromSec1Hex m w ([48, 50] ++ fixedHex 32 0x2aaaaaaaaaaaaaaaaaaaaaaaaaaaaaaaaaaaaaaaaaaaaaaaaaaaaaaaaaad2451) cp = .panic ∧
    (∀ (sig : Signature) (s : Nat) (hash : List UInt8), sig.params = cp →
      Denotes w sig.r (0x2aaaaaaaaaaaaaaaaaaaaaaaaaaaaaaaaaaaaaaaaaaaaaaaaaaaaaaaaaad2451 % W25519.n : Nat) → Denotes w sig.s s → 0 < s →
      s < W25519.n → leadingBits 253 hash ≠ 0 → recoverWithOptions m w sig hash none ⟨false⟩ = .panic) := by
  obtain ⟨cp, ecp, hD, hcof⟩ := w25519_y (ε := ε) w
  have hroot : (LCT.W25519.x2 ^ 3 + W25519.a * LCT.W25519.x2 + W25519.b) % W25519.p = 0 % W25519.p := by decide +kernel
  have hroot := (ZMod.natCast_eq_natCast_iff' _ _ _).mpr hroot
  refine ⟨cp, ecp, fun pt hx hy => ?_, C20_w25519_panics m w cp hD.curve hD.order, fun sig s hash hp hr hs hs0 hsn hz => ?_⟩
  · obtain ⟨h, e⟩ := LCT.W25519.four_T
    have hP : PointDenotes w pt (Point.some _ _ h : LCT.W25519.E.Point) := by
      refine ⟨?_, ?_⟩
      · rw [show ((LCT.W25519.x2 : Nat) : ZMod W25519.p).val = LCT.W25519.x2 from ZMod.val_cast_of_lt (by decide)]
        exact hx
      · rw [show ((0 : Nat) : ZMod W25519.p).val = 0 from by simp]
        exact hy
    have hm : MeetsOrderTwo (bitLength W25519.n) (Point.some _ _ h : LCT.W25519.E.Point) := by
      refine ⟨0, by rw [bitLength_25519]; decide, ?_, ?_⟩
      · rw [pow_zero, one_nsmul]
        exact WeierstrassCurve.Affine.Point.some_ne_zero _
      · rw [Nat.zero_add, pow_one, two_nsmul]
        exact WeierstrassCurve.Affine.Point.add_of_Y_eq rfl (by simp [WeierstrassCurve.Affine.negY])
    unfold PublicKey.new
    rw [validatePoint_panic m hD (by rw [hcof]; decide) hP hm]
    rfl
  · have hne : hash ≠ [] := by
      rintro rfl
      exact hz rfl
    have hsum : LCT.W25519.x2 % W25519.n + 2 * W25519.n = LCT.W25519.x2 := by decide +kernel
    refine recoverWithOptions_panic m hD (by rw [hcof]; decide) hp hr hs (by decide +kernel) (by decide +kernel) hs0 hsn none nofun hne nofun
      (by rw [bitLength_25519]; exact hz) (i := 2) (Nat.zero_le _) (by show 2 ≤ cp.cofactor; rw [hcof]; decide) ?_ ?_
    · show LCT.W25519.x2 % W25519.n + 2 * W25519.n < W25519.p
      rw [hsum]
      decide
    · rw [show 0x2aaaaaaaaaaaaaaaaaaaaaaaaaaaaaaaaaaaaaaaaaaaaaaaaaaaaaaaaaad2451 % W25519.n + 2 * W25519.n = LCT.W25519.x2 from hsum]
      push_cast at hroot ⊢
      exact hroot

end LCT.Props
