import Verif.Props.Curve
import Verif.Lemmas.Crypto.Secp256k1Params
import Verif.Lemmas.Crypto.Ecdsa
import Verif.Lemmas.Crypto.TwoTorsion
import Verif.Lemmas.Crypto.Toy

/-!
# Properties of curve parameters and keys: C53, C24, C54
-/

namespace LCT.Props
open LCT.BigInt LCT.Spec LCT.Modular LCT.Curve LCT.Crypto
open WeierstrassCurve.Affine (Point.some Point.zero)
variable {ε : Type}

/-! ## C53: the built-in curve -/

/-- C53: the built-in parameters store the numbers of SEC 2 (written out in `Verif.Spec.Secp256k1`): field order, coefficients 0 and 7,
base point, order, cofactor 1. -/
theorem C53_parameters (w : Nat) [DigitWidth w] :
    ∃ cp, (secp256k1 w : Out ε _) = .ok cp ∧ Denotes w cp.curve.p Secp256k1.p ∧ Denotes w cp.curve.a 0 ∧ Denotes w cp.curve.b 7 ∧
      Denotes w cp.basePoint.x Secp256k1.gx ∧ Denotes w cp.basePoint.y Secp256k1.gy ∧ Denotes w cp.order Secp256k1.n ∧
      cp.cofactor = 1 := by
  obtain ⟨cp, e, hD, hc⟩ := secp256k1_y (ε := ε) w
  have hb : Denotes w cp.basePoint.x (((Secp256k1.gx : Nat) : ZMod Secp256k1.p).val : Nat) ∧
    Denotes w cp.basePoint.y (((Secp256k1.gy : Nat) : ZMod Secp256k1.p).val : Nat) := hD.base
  rw [gx_val, gy_val] at hb
  exact ⟨cp, e, hD.curve.p, hD.curve.a, hD.curve.b, hb.1, hb.2, hD.order, hc⟩

/-- C53: the field order and the order of the base point are prime. -/
theorem C53_primes : Nat.Prime Secp256k1.p ∧ Nat.Prime Secp256k1.n := ⟨LCT.Secp256k1.prime_p, LCT.Secp256k1.prime_n⟩

local instance : Fact (Nat.Prime Secp256k1.p) := ⟨LCT.Secp256k1.prime_p⟩

/-- C53: the curve `y² = x³ + 7` is non-singular, the base point lies on it, and no solution has `y = 0`. -/
theorem C53_curve : (4 * 0 ^ 3 + 27 * 7 ^ 2 : ZMod Secp256k1.p) ≠ 0 ∧
    (Secp256k1.gy : ZMod Secp256k1.p) ^ 2 = (Secp256k1.gx : ZMod Secp256k1.p) ^ 3 + 7 ∧
    ∀ x y : ZMod Secp256k1.p, y ^ 2 = x ^ 3 + 7 → y ≠ 0 := by
  have hd : (4 * 0 ^ 3 + 27 * 7 ^ 2 : ZMod Secp256k1.p) ≠ 0 := by
    have := LCT.Secp256k1.cast_ne_zero (k := 27 * 7 ^ 2) (by decide) (by decide)
    push_cast at this
    intro h
    apply this
    linear_combination h
  refine ⟨hd, ?_, ?_⟩
  · have := equation_of_nonsingular LCT.Secp256k1.base_nonsingular
    push_cast at this
    linear_combination this
  · intro x y h
    refine LCT.Secp256k1.no_y_zero (x := x) (nonsingular_of_equation (by decide) ?_ ?_)
    · push_cast
      exact hd
    · push_cast
      linear_combination h

/-- C53: in the group of points, `n • G` is the point at infinity while `G` is not; `G` has order exactly `n`, and there are exactly
`n` points (so every point is a multiple of `G` and the cofactor is 1). -/
theorem C53_base_point : ∃ h : (curve (0 : ZMod Secp256k1.p) 7).Nonsingular Secp256k1.gx Secp256k1.gy,
    let G : (curve (0 : ZMod Secp256k1.p) 7).Point := Point.some _ _ h
    G ≠ 0 ∧ Secp256k1.n • G = 0 ∧ addOrderOf G = Secp256k1.n ∧ Nat.card (curve (0 : ZMod Secp256k1.p) 7).Point = Secp256k1.n := by
  have hE : (curve (0 : ZMod Secp256k1.p) 7) = LCT.Secp256k1.E := by
    unfold LCT.Secp256k1.E
    push_cast
    rfl
  have key : ∀ (W : WeierstrassCurve.Affine (ZMod Secp256k1.p)), W = LCT.Secp256k1.E →
      ∃ h : W.Nonsingular Secp256k1.gx Secp256k1.gy,
        (Point.some _ _ h : W.Point) ≠ 0 ∧ Secp256k1.n • (Point.some _ _ h : W.Point) = 0 ∧
        addOrderOf (Point.some _ _ h : W.Point) = Secp256k1.n ∧ Nat.card W.Point = Secp256k1.n := by
    rintro W rfl
    exact ⟨LCT.Secp256k1.base_nonsingular, LCT.Secp256k1.G_ne_zero, LCT.Secp256k1.n_mul_G, LCT.Secp256k1.order_G, LCT.Secp256k1.card_points⟩
  exact key _ hE

set_option linter.constructorNameAsVariable false in
/-- C53: run on the built-in parameters, `mul_point` takes the base point and its order to the point at infinity `(0, 0)`, and
`validate_point` accepts the base point. -/
theorem C53_run (m : Build) (w : Nat) [DigitWidth w] : ∃ cp r, (secp256k1 w : Out ε _) = .ok cp ∧
    (mulPoint m w cp.curve cp.basePoint cp.order : Out ε _) = .ok r ∧ Denotes w r.x 0 ∧ Denotes w r.y 0 ∧
    (cp.validatePoint m w cp.basePoint : Out ε _) = .ok true := by
  obtain ⟨cp, e, hD, -⟩ := secp256k1_y (ε := ε) w
  obtain ⟨r, er, hr⟩ := hD.mul (ε := ε) m hD.base hD.G_order hD.order
  rw [hD.G_order] at hr
  obtain ⟨hx, hy⟩ := point_x hD.base
  obtain ⟨v, ev, hv⟩ := validatePoint_z (ε := ε) m hD hx hy (clear_sub hD hD.base hD.G_order)
  rw [hv.mpr ⟨_, hD.base, hD.G_ne, hD.G_order⟩] at ev
  exact ⟨cp, r, e, er, hr.1, hr.2, ev⟩

/-! ## C24: keys -/

/-- C24: a private key is constructed from an integer exactly if it lies strictly between zero and the order. -/
theorem C24_private_key (m : Build) (w : Nat) [DigitWidth w] (cp : Params) (n : Nat) (hn : Denotes w cp.order n) (d : Int) (x : BInt)
    (hx : Denotes w x d) :
    (0 < d ∧ d < n → (PrivateKey.new m w x cp : Out ε _) = .ok (some ⟨x, cp⟩)) ∧
    (¬ (0 < d ∧ d < n) → (PrivateKey.new m w x cp : Out ε _) = .ok none) := by
  obtain ⟨_, e, rfl⟩ := privateKeyNew_y (ε := ε) m hx hn
  rw [e]
  constructor
  · intro h; rw [if_pos h]
  · intro h; rw [if_neg h]

/-- C24: the public key of a private key `d` in range is `d • G`, and computing it does not panic: it passes the point validation
that the code performs on it. -/
theorem C24_public_key_of_private (m : Build) (w : Nat) [DigitWidth w] (cp : Params) (p n : Nat) [Fact p.Prime] (a b : Int)
    (G : (curve (a : ZMod p) (b : ZMod p)).Point) (hD : Domain w cp p n a b G) (d : Nat) (hd0 : 0 < d) (hdn : d < n) (x : BInt)
    (hx : Denotes w x d) :
    ∃ pk, (PrivateKey.publicKey m w ⟨x, cp⟩ : Out ε _) = .ok pk ∧ pk.params = cp ∧ PointDenotes w pk.data (d • G) ∧
      ValidPoint w n (W := curve (a : ZMod p) (b : ZMod p)) pk.data ∧
      (PublicKey.new m w pk.data cp : Out ε _) = .ok (some pk) := by
  have hnp : Fact n.Prime := ⟨hD.n_prime⟩
  obtain ⟨pk, e, h1, h2⟩ := publicKey_y (ε := ε) m hD (key := ⟨x, cp⟩) rfl hx (cast_ne_zero_of_lt hd0 hdn)
  have hv : ValidPoint w n (W := curve (a : ZMod p) (b : ZMod p)) pk.data :=
    ⟨_, h2, smul_ne_zero' hD.G_ne hD.G_order (cast_ne_zero_of_lt hd0 hdn), smul_smul_zero hD.G_order d⟩
  obtain ⟨hpx, hpy⟩ := point_x h2
  obtain ⟨o, eo, ho⟩ := publicKeyNew_z (ε := ε) m hD hpx hpy (clear_sub hD h2 (smul_smul_zero hD.G_order d))
  refine ⟨pk, e, h1, h2, hv, ?_⟩
  rcases ho with ⟨-, rfl⟩ | ⟨h, -⟩
  · rw [eo, ← h1]
  · exact absurd hv h

/-- C24: a public key is constructed from a pair of integers exactly if they are the coordinates, reduced modulo `p`, of a point of
the curve other than the point at infinity and in the subgroup of order `n`.  From any other pair none is constructed: the answer is `None`, or,
if the cofactor is not one and one of `P`, `2•P`, `4•P`, … (as many as `n` has bits) is a point of order two, a panic. -/
theorem C24_public_key (m : Build) (w : Nat) [DigitWidth w] (cp : Params) (p n : Nat) [Fact p.Prime] (a b : Int)
    (G : (curve (a : ZMod p) (b : ZMod p)).Point) (hD : Domain w cp p n a b G) (x y : Int) (pt : Curve.Point)
    (hx : Denotes w pt.x x) (hy : Denotes w pt.y y) :
    let Valid := 0 ≤ x ∧ x < p ∧ 0 ≤ y ∧ y < p ∧
      ∃ h : (curve (a : ZMod p) (b : ZMod p)).Nonsingular x y, n • (Point.some _ _ h : (curve (a : ZMod p) (b : ZMod p)).Point) = 0
    let Stuck := cp.cofactor ≠ 1 ∧ 0 ≤ x ∧ x < p ∧ 0 ≤ y ∧ y < p ∧
      ∃ h : (curve (a : ZMod p) (b : ZMod p)).Nonsingular x y,
        MeetsOrderTwo (bitLength n) (Point.some _ _ h : (curve (a : ZMod p) (b : ZMod p)).Point)
    (Valid → (PublicKey.new m w pt cp : Out ε _) = .ok (some ⟨pt, cp⟩)) ∧
    (¬ Valid → ¬ Stuck → (PublicKey.new m w pt cp : Out ε _) = .ok none) ∧
    (Stuck → (PublicKey.new m w pt cp : Out ε _) = .panic) := by
  have hiff : ValidPoint w n (W := curve (a : ZMod p) (b : ZMod p)) pt ↔ (0 ≤ x ∧ x < p ∧ 0 ≤ y ∧ y < p ∧
      ∃ h : (curve (a : ZMod p) (b : ZMod p)).Nonsingular x y, n • (Point.some _ _ h : (curve (a : ZMod p) (b : ZMod p)).Point) = 0) := by
    constructor
    · rintro ⟨P, hP, hP0, hnP⟩
      cases P with
      | zero => exact absurd rfl hP0
      | some x' y' h =>
        have hx' : Denotes w pt.x (x'.val : Nat) := hP.1
        have hy' : Denotes w pt.y (y'.val : Nat) := hP.2
        have e1 : x = x'.val := hx.2.symm.trans hx'.2
        have e2 : y = y'.val := hy.2.symm.trans hy'.2
        have b1 := val_lt_int x'
        have b2 := val_lt_int y'
        refine ⟨by omega, by omega, by omega, by omega, ?_⟩
        have c1 : (x : ZMod p) = x' := by rw [e1, int_val]
        have c2 : (y : ZMod p) = y' := by rw [e2, int_val]
        subst c1 c2
        exact ⟨h, hnP⟩
    · rintro ⟨h1, h2, h3, h4, h, h5⟩
      exact ⟨Point.some _ _ h, ⟨res_of_int hx h1 h2, res_of_int hy h3 h4⟩, WeierstrassCurve.Affine.Point.some_ne_zero _, h5⟩
  have hclear : ¬ (cp.cofactor ≠ 1 ∧ 0 ≤ x ∧ x < p ∧ 0 ≤ y ∧ y < p ∧
      ∃ h : (curve (a : ZMod p) (b : ZMod p)).Nonsingular x y,
        MeetsOrderTwo (bitLength n) (Point.some _ _ h : (curve (a : ZMod p) (b : ZMod p)).Point)) →
      Clear w n cp (curve (a : ZMod p) (b : ZMod p)) pt := by
    intro hns hc P hP hm
    apply hns
    cases P with
    | zero =>
      obtain ⟨i, -, h, -⟩ := hm
      exact absurd (nsmul_zero _) h
    | some x' y' h =>
      have hx' : Denotes w pt.x (x'.val : Nat) := hP.1
      have hy' : Denotes w pt.y (y'.val : Nat) := hP.2
      have e1 : x = x'.val := hx.2.symm.trans hx'.2
      have e2 : y = y'.val := hy.2.symm.trans hy'.2
      have b1 := val_lt_int x'
      have b2 := val_lt_int y'
      refine ⟨hc, by omega, by omega, by omega, by omega, ?_⟩
      have c1 : (x : ZMod p) = x' := by rw [e1, int_val]
      have c2 : (y : ZMod p) = y' := by rw [e2, int_val]
      subst c1 c2
      exact ⟨h, hm⟩
  refine ⟨fun h => ?_, fun h hns => ?_, fun h => ?_⟩
  · have hv := hiff.mpr h
    have ⟨P, hP, _, hnP⟩ := hv
    obtain ⟨o, eo, ho⟩ := publicKeyNew_z (ε := ε) m hD hx hy (clear_sub hD hP hnP)
    rcases ho with ⟨-, rfl⟩ | ⟨h', -⟩
    · exact eo
    · exact absurd hv h'
  · obtain ⟨o, eo, ho⟩ := publicKeyNew_z (ε := ε) m hD hx hy (hclear hns)
    rcases ho with ⟨h', -⟩ | ⟨-, rfl⟩
    · exact absurd (hiff.mp h') h
    · exact eo
  · obtain ⟨hc, h1, h2, h3, h4, hn, hm⟩ := h
    have hP : PointDenotes w pt (Point.some _ _ hn : (curve (a : ZMod p) (b : ZMod p)).Point) := ⟨res_of_int hx h1 h2, res_of_int hy h3 h4⟩
    unfold PublicKey.new
    rw [validatePoint_panic m hD hc hP hm]
    rfl

/-- C24: the pair `(0, 0)`, which stands for the point at infinity, is not constructed as a public key, whatever the curve over a prime
field is (in particular if `b = 0` and `(0, 0)` solves the equation). -/
theorem C24_infinity (m : Build) (w : Nat) [DigitWidth w] (cp : Params) (p : Nat) [Fact p.Prime] (a b : Int)
    (hc : CurveDenotes w cp.curve p a b) (pt : Curve.Point) (hx : Denotes w pt.x 0) (hy : Denotes w pt.y 0) :
    (PublicKey.new m w pt cp : Out ε _) = .ok none :=
  publicKeyNew_zero m hc hx hy

/-- The curve `y² = x³ + x` modulo 251, on which `(0, 0)` solves the equation. -/
example : let cp : Params := ⟨⟨Toy.byte 1, Toy.byte 0, Toy.byte 251⟩, ⟨Toy.byte 1, Toy.byte 1⟩, Toy.byte 233, 1⟩
    CurveDenotes 8 cp.curve 251 1 0 ∧
      (PublicKey.new .debug 8 ⟨Toy.byte 0, Toy.byte 0⟩ cp : Out Unit _).bind (fun o => .ok o.isSome) = .ok false :=
  ⟨⟨Toy.byte_denotes (by decide), Toy.byte_denotes (by decide), Toy.byte_denotes (by decide)⟩, by decide +kernel⟩

/-- The assumption on the domain parameters is met by the built-in curve and by the small example curve `y² = x³ + 4·x + 3` modulo 251
with 233 points. -/
theorem C24_domain_secp256k1 (w : Nat) [DigitWidth w] : ∃ cp, (secp256k1 w : Out ε _) = .ok cp ∧
    Domain w cp Secp256k1.p Secp256k1.n 0 7 LCT.Secp256k1.G :=
  let ⟨cp, e, hD, _⟩ := secp256k1_y (ε := ε) w
  ⟨cp, e, hD⟩

example : Domain 8 Toy.params 251 233 4 3 Toy.G := Toy.domain

/-- Private key 2 on the example curve. -/
example : (PrivateKey.publicKey .debug 8 ⟨Toy.byte 2, Toy.params⟩ : Out Unit _).bind
    (fun pk => .ok (toInt 8 pk.data.x, toInt 8 pk.data.y)) = .ok (233, 226) := by decide +kernel

/-! ## C54: recovery ids and parities -/

/-- C54: conversion from `u8` accepts exactly `0, 1, 2, 3` and inverts the projection to `u8`. -/
theorem C54_recovery_id (n : UInt8) :
    (n < 4 → ∃ id, RecoveryId.fromU8 n = some id ∧ id.toU8 = n) ∧ (¬ n < 4 → RecoveryId.fromU8 n = none) ∧
    ∀ id : RecoveryId, id.toU8 = n → RecoveryId.fromU8 n = some id := by
  have key : ∀ k < 256, (k < 4 → ∃ id, RecoveryId.fromU8 (UInt8.ofNat k) = some id ∧ id.toU8 = UInt8.ofNat k) ∧
      (¬ k < 4 → RecoveryId.fromU8 (UInt8.ofNat k) = none) := by
    intro k hk
    constructor
    · intro h
      have : k = 0 ∨ k = 1 ∨ k = 2 ∨ k = 3 := by omega
      rcases this with rfl | rfl | rfl | rfl
      · exact ⟨.LowXEvenY, rfl, rfl⟩
      · exact ⟨.LowXOddY, rfl, rfl⟩
      · exact ⟨.HighXEvenY, rfl, rfl⟩
      · exact ⟨.HighXOddY, rfl, rfl⟩
    · intro h
      have hne : ∀ j < 4, UInt8.ofNat k ≠ UInt8.ofNat j := by
        intro j hj e
        have := congrArg UInt8.toNat e
        simp only [UInt8.toNat_ofNat'] at this
        omega
      unfold RecoveryId.fromU8
      split
      · exact absurd (by assumption) (hne 0 (by decide))
      · exact absurd (by assumption) (hne 1 (by decide))
      · exact absurd (by assumption) (hne 2 (by decide))
      · exact absurd (by assumption) (hne 3 (by decide))
      · rfl
  have hn : n = UInt8.ofNat n.toNat := by simp
  have hlt : n < 4 ↔ n.toNat < 4 := UInt8.lt_iff_toNat_lt
  have := key n.toNat (UInt8.toNat_lt n)
  rw [← hn] at this
  rw [hlt]
  refine ⟨this.1, this.2, ?_⟩
  rintro id rfl
  cases id <;> rfl

/-- C54: conversion of parities accepts exactly `0` and `1` and inverts the projection. -/
theorem C54_parity (n : UInt8) :
    (n = 0 → YParity.fromU8 n = some .Even) ∧ (n = 1 → YParity.fromU8 n = some .Odd) ∧ (n ≠ 0 → n ≠ 1 → YParity.fromU8 n = none) ∧
    ∀ y : YParity, y.toU8 = n → YParity.fromU8 n = some y := by
  refine ⟨by rintro rfl; rfl, by rintro rfl; rfl, ?_, ?_⟩
  · intro h0 h1
    unfold YParity.fromU8
    split
    · exact absurd rfl h0
    · exact absurd rfl h1
    · rfl
  · rintro y rfl
    cases y <;> rfl

/-- C54: the parity of a recovery id is its lowest bit. -/
theorem C54_id_parity (id : RecoveryId) : id.yParity.toU8 = id.toU8 &&& 1 := by
  cases id <;> rfl

example : (3 : UInt8) < 4 ∧ RecoveryId.fromU8 3 = some .HighXOddY ∧ ¬ (4 : UInt8) < 4 := by decide

end LCT.Props
