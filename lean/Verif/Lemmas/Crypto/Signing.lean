import Verif.Model.Crypto.Signing
import Verif.Spec.Signing
import Verif.Lemmas.Crypto.Rfc6979

/-!
# The signing loop
-/

namespace LCT.Crypto
open LCT.Spec LCT.Out LCT.BigInt LCT.Modular LCT.Curve LCT.Hash LCT.Random
open WeierstrassCurve.Affine (Point.some Point.zero)

section Math
variable {p n : Nat} [hpr : Fact p.Prime] {W : WeierstrassCurve.Affine (ZMod p)} {G Q : W.Point}

/-- Negating a point with `y ≠ 0` flips the parity of the ordinate. -/
theorem yCoord_neg {a b : ZMod p} (hp2 : p ≠ 2) {x y : ZMod p} {h : (curve a b).Nonsingular x y} (hy : y ≠ 0) :
    decide (yCoord (-(Point.some x y h)) % 2 = 1) = !decide (yCoord (Point.some x y h) % 2 = 1) := by
  have hodd : p % 2 = 1 := (hpr.out.eq_two_or_odd).resolve_left hp2
  have hneg : yCoord (-(Point.some x y h)) = (-y).val := by
    rw [WeierstrassCurve.Affine.Point.neg_some]
    unfold yCoord WeierstrassCurve.Affine.negY curve
    simp
  rw [hneg]
  have hv : (-y).val = p - y.val := by
    have : NeZero y := ⟨hy⟩
    exact ZMod.val_neg_of_ne_zero y
  have hlt := ZMod.val_lt y
  rw [hv]
  show decide ((p - y.val) % 2 = 1) = !decide (y.val % 2 = 1)
  rw [← decide_not]
  apply decide_eq_decide.mpr
  omega

end Math

variable {w : Nat} [hw : DigitWidth w] {p n : Nat} [hpr : Fact p.Prime] {cp : Params} {a b : Int}
  {G : (curve (a : ZMod p) (b : ZMod p)).Point} (m : Build)

/-- The second half of a signature after normalisation. -/
def lowered (low : Bool) (n s : Nat) : Nat := if low ∧ ¬ s ≤ n / 2 then n - s else s

/-- What is returned for the nonce `k`. -/
def Normalised (w n : Nat) {W : WeierstrassCurve.Affine (ZMod p)} (cp : Params) (low : Bool) (G : W.Point) (d e k : Nat)
    (o : Signature × RecoveryId) : Prop :=
  o.1.params = cp ∧ Denotes w o.1.r (ecdsaR n G k : Nat) ∧ Denotes w o.1.s (lowered low n (ecdsaS n G d e k) : Nat) ∧
    IdDescribes n G (d • G) e (ecdsaR n G k) (lowered low n (ecdsaS n G d e k)) o.2

theorem describes_of_sign (hD : Domain w cp p n a b G) {d e k : Nat} (hk : (k : ZMod n) ≠ 0) (hs : ecdsaS n G d e k ≠ 0) {id : RecoveryId}
    (h1 : idHigh id = decide (n ≤ xCoord (k • G))) (h2 : idOdd id = decide (yCoord (k • G) % 2 = 1)) :
    IdDescribes n G (d • G) e (ecdsaR n G k) (ecdsaS n G d e k) id := by
  have hnp : Fact n.Prime := ⟨hD.n_prime⟩
  have hcast : ((ecdsaS n G d e k : Nat) : ZMod n) = ((e : ZMod n) + (ecdsaR n G k : ZMod n) * (d : ZMod n)) * (k : ZMod n)⁻¹ := by
    unfold ecdsaS; rw [ZMod.natCast_zmod_val]
  have hs0 : ((ecdsaS n G d e k : Nat) : ZMod n) ≠ 0 := cast_ne_zero_of_lt (by omega) (by unfold ecdsaS; exact ZMod.val_lt _)
  show idHigh id = decide (n ≤ xCoord _) ∧ idOdd id = decide (yCoord _ % 2 = 1)
  rw [verifier_point hD.G_order hk hs0 hcast]
  exact ⟨h1, h2⟩

/-- Negating `s` negates the verifier's point. -/
theorem describes_neg (hD : Domain w cp p n a b G) {Q : (curve (a : ZMod p) (b : ZMod p)).Point} (hQ : n • Q = 0) {e r s : Nat} (hs : s ≤ n)
    {id id' : RecoveryId} (hR : EcdsaVerifies n G Q e r s) (h : IdDescribes n G Q e r s id)
    (h1 : idHigh id' = idHigh id) (h2 : idOdd id' = !idOdd id) : IdDescribes n G Q e r (n - s) id' := by
  have hnp : Fact n.Prime := ⟨hD.n_prime⟩
  have hc : ((n - s : Nat) : ZMod n) = -(s : ZMod n) := by rw [Nat.cast_sub hs]; simp
  have e1 : ∀ z : ZMod n, z * (-(s : ZMod n))⁻¹ = -(z * (s : ZMod n)⁻¹) := by intro z; rw [inv_neg, mul_neg]
  unfold IdDescribes at h ⊢
  obtain ⟨hR0, -⟩ := hR
  rw [hc, e1, e1, val_neg_smul hD.G_order, val_neg_smul hQ, ← neg_add]
  show idHigh id' = decide (n ≤ xCoord _) ∧ idOdd id' = decide (yCoord _ % 2 = 1)
  obtain ⟨h3, h4⟩ := h
  rw [xCoord_neg, h1, h2, h3, h4]
  refine ⟨rfl, ?_⟩
  have hRn : n • (((e : ZMod n) * (s : ZMod n)⁻¹).val • G + ((r : ZMod n) * (s : ZMod n)⁻¹).val • Q) = 0 := by
    rw [nsmul_add, smul_smul_zero hD.G_order, smul_smul_zero hQ, add_zero]
  revert hR0 hRn
  generalize ((e : ZMod n) * (s : ZMod n)⁻¹).val • G + ((r : ZMod n) * (s : ZMod n)⁻¹).val • Q = R
  intro hR0 hRn
  cases R with
  | zero => exact absurd rfl hR0
  | some x y hn => exact (yCoord_neg hD.p_ne (hD.y_ne_sub hRn)).symm

/-- A point is determined by its abscissa modulo `n` and a description of it, if `p ≤ 2·n`. -/
theorem point_unique (hD : Domain w cp p n a b G) (hpn : p ≤ 2 * n) {R R' : (curve (a : ZMod p) (b : ZMod p)).Point} (hR : R ≠ 0)
    (hR' : R' ≠ 0) (hx : xCoord R % n = xCoord R' % n) (hh : decide (n ≤ xCoord R) = decide (n ≤ xCoord R'))
    (ho : decide (yCoord R % 2 = 1) = decide (yCoord R' % 2 = 1)) : R = R' := by
  cases R with
  | zero => exact absurd rfl hR
  | some x y hn =>
  cases R' with
  | zero => exact absurd rfl hR'
  | some x' y' hn' =>
    have hx1 : x.val % n = x'.val % n := hx
    have hh1 : n ≤ x.val ↔ n ≤ x'.val := decide_eq_decide.mp hh
    have l1 := ZMod.val_lt x
    have l2 := ZMod.val_lt x'
    have hxe : x = x' := by
      apply ZMod.val_injective
      by_cases hlt : x.val < n
      · rw [Nat.mod_eq_of_lt hlt, Nat.mod_eq_of_lt (by omega)] at hx1
        exact hx1
      · rw [Nat.mod_eq_sub_mod (by omega), Nat.mod_eq_of_lt (by omega), Nat.mod_eq_sub_mod (by omega : n ≤ x'.val),
          Nat.mod_eq_of_lt (by omega)] at hx1
        omega
    subst hxe
    have hsq : (y - y') * (y + y') = 0 := by
      have h1 := equation_of_nonsingular hn
      have h2 := equation_of_nonsingular hn'
      linear_combination h1 - h2
    rcases mul_eq_zero.mp hsq with h0 | h0
    · have : y = y' := sub_eq_zero.mp h0
      subst this
      rfl
    · have hy' : y' = -y := eq_neg_of_add_eq_zero_right h0
      subst hy'
      by_cases hy0 : y = 0
      · subst hy0
        simp only [neg_zero]
      exfalso
      have hodd : p % 2 = 1 := (hpr.out.eq_two_or_odd).resolve_left hD.p_ne
      have hne : NeZero y := ⟨hy0⟩
      have hv : (-y).val = p - y.val := ZMod.val_neg_of_ne_zero y
      have ho' : (y.val % 2 = 1) ↔ ((-y).val % 2 = 1) := decide_eq_decide.mp ho
      have := ZMod.val_lt y
      rw [hv] at ho'
      omega

/-- The signature, the hash and the recovery id determine the public key, if `p ≤ 2·n`. -/
theorem signer_unique (hD : Domain w cp p n a b G) (hpn : p ≤ 2 * n) {Q Q' : (curve (a : ZMod p) (b : ZMod p)).Point} (hQ : n • Q = 0)
    (hQ' : n • Q' = 0) {e r s : Nat} (hr : (r : ZMod n) ≠ 0) (hs : (s : ZMod n) ≠ 0) {id : RecoveryId} (h1 : EcdsaVerifies n G Q e r s)
    (h2 : EcdsaVerifies n G Q' e r s) (d1 : IdDescribes n G Q e r s id) (d2 : IdDescribes n G Q' e r s id) : Q = Q' := by
  have hnp : Fact n.Prime := ⟨hD.n_prime⟩
  have hRR : ((e : ZMod n) * (s : ZMod n)⁻¹).val • G + ((r : ZMod n) * (s : ZMod n)⁻¹).val • Q =
      ((e : ZMod n) * (s : ZMod n)⁻¹).val • G + ((r : ZMod n) * (s : ZMod n)⁻¹).val • Q' :=
    point_unique hD hpn h1.1 h2.1 (h1.2.trans h2.2.symm) (d1.1.symm.trans d2.1) (d1.2.symm.trans d2.2)
  have hv := add_left_cancel hRR
  have hinv : ∀ P : (curve (a : ZMod p) (b : ZMod p)).Point, n • P = 0 →
      ((r : ZMod n) * (s : ZMod n)⁻¹)⁻¹.val • (((r : ZMod n) * (s : ZMod n)⁻¹).val • P) = P := by
    intro P hP
    rw [← mul_nsmul]
    conv_rhs => rw [← one_nsmul P]
    apply smul_congr hP
    push_cast
    rw [ZMod.natCast_zmod_val, ZMod.natCast_zmod_val]
    exact mul_inv_cancel₀ (mul_ne_zero hr (inv_ne_zero hs))
  rw [← hinv Q hQ, hv, hinv Q' hQ']

theorem flip_id (id : RecoveryId) : ∃ id', RecoveryId.fromU8 (id.toU8 ^^^ 1) = some id' ∧ idHigh id' = idHigh id ∧ idOdd id' = !idOdd id := by
  cases id <;> exact ⟨_, rfl, rfl, rfl⟩

theorem normalise_y (hD : Domain w cp p n a b G) (o : SigningOptions) {d e k : Nat} (hk : (k : ZMod n) ≠ 0)
    (hs0 : ecdsaS n G d e k ≠ 0) (hr0 : ecdsaR n G k ≠ 0) {sig : Signature} {id : RecoveryId} (hsig : sig.params = cp)
    (hr : Denotes w sig.r (ecdsaR n G k : Nat)) (hs : Denotes w sig.s (ecdsaS n G d e k : Nat))
    (h1 : idHigh id = decide (n ≤ xCoord (k • G))) (h2 : idOdd id = decide (yCoord (k • G) % 2 = 1)) :
    (normalise m w o sig id).Yields (Normalised w n cp o.enforceLowS G d e k) := by
  have hnp : Fact n.Prime := ⟨hD.n_prime⟩
  subst hsig
  have hdes := describes_of_sign hD hk hs0 h1 h2
  have hslt : ecdsaS n G d e k < n := ZMod.val_lt _
  have hrlt : ecdsaR n G k < n := Nat.mod_lt _ hD.n_prime.pos
  unfold normalise
  have hlow : ((if o.enforceLowS then sig.isLowS m w else pure true : Out SigningError Bool)).Yields
      (· = !decide (o.enforceLowS = true ∧ ¬ ecdsaS n G d e k ≤ n / 2)) := by
    cases he : o.enforceLowS
    · exact .pure (by simp)
    · exact (isLowS_y m hs hD.order hD.n_odd).mono (by
        rintro _ rfl; rw [← decide_not]; apply decide_eq_decide.mpr; simp)
  run hlow with _ rfl
  unfold Normalised lowered
  by_cases h : o.enforceLowS = true ∧ ¬ ecdsaS n G d e k ≤ n / 2
  · rw [decide_eq_true h, if_pos h]
    simp only [Bool.not_true, Bool.not_false, if_true]
    run (sub_y m hD.order hs) with s' hs'
    have hs'' : Denotes w s' ((n - ecdsaS n G d e k : Nat) : Int) := by
      rw [Nat.cast_sub (by omega)]; exact hs'
    run (signatureNew_y m hr hs'' hD.order) with _ rfl
    rw [if_pos (by omega)]
    obtain ⟨id', e1, e2, e3⟩ := flip_id id
    rw [e1]
    exact .pure ⟨rfl, hr, hs'', describes_neg hD (smul_smul_zero hD.G_order d) (by omega)
      (sign_verifies hD.G_ne hD.G_order hk hs0) hdes e2 e3⟩
  · rw [decide_eq_false h, if_neg h]
    exact .pure ⟨rfl, hr, hs, hdes⟩

section Loop
variable {H : Hasher} {h : List UInt8 → List UInt8} {limit : Nat} (hc : Computes H h limit) (ho : H.outLen ≤ H.blockLen)
  (ho0 : 0 < H.outLen)

/-- First element satisfying a decidable property, below a bound. -/
theorem first_or_none (P : Nat → Prop) (f : Nat) : (∃ i < f, P i ∧ ∀ j < i, ¬ P j) ∨ ∀ j < f, ¬ P j := by
  classical
  by_cases hex : ∃ i, P i
  · by_cases hlt : Nat.find hex < f
    · exact Or.inl ⟨_, hlt, Nat.find_spec hex, fun j hj => Nat.find_min hex hj⟩
    · exact Or.inr fun j hj => Nat.find_min hex (by omega)
  · exact Or.inr fun j _ hp => hex ⟨j, hp⟩

include hc ho ho0

/-- Whatever the outcome, a nonce that is returned is the one of RFC 6979. -/
theorem generateNonce_sound {q : Nat} {g : Rfc6979} {extra : Bool} (hg : IsGen w q extra g) {key : PrivateKey} {d : Nat}
    (hd : Denotes w key.data d) (hdq : d < q) (hko : Denotes w key.params.order (q : Int)) {hash : List UInt8} (hh : hash ≠ [])
    (st : H.State) {rand : Out RandomError (List UInt8)} (fuel : Nat)
    (hl : ∀ bytes, Drawn extra rand bytes → H.blockLen + H.outLen + 1 + 2 * ((bitLength q + 7) / 8) + bytes.length < limit)
    {x : BInt} {st' : H.State} (hok : g.generateNonce m w H fuel hash key st rand = .ok (x, st')) :
    ∃ bytes k, Drawn extra rand bytes ∧ Denotes w x (k : Nat) ∧
      Spec.Rfc6979.IsNonce (mac H h) H.outLen q (Spec.Rfc6979.seed q d hash bytes) k := by
  have hex : ∃ bytes, Drawn extra rand bytes := by
    unfold Drawn
    cases extra
    · exact ⟨[], by simp⟩
    · cases rand with
      | ok bytes => exact ⟨bytes, rfl⟩
      | err er => rw [generateNonce_err m hg hd hdq hko hh st er fuel] at hok; cases hok
      | panic | hang =>
        obtain ⟨_, ea, -⟩ := dassertM_y (ε := GenerateNonceError) m (beq_y m hg.q hko |>.mono (by rintro _ rfl; exact decide_eq_true rfl))
        unfold Rfc6979.generateNonce at hok
        simp only [keyAndMsg_eq m hg hd hdq hh, ea, bind_ok, mapErr, if_true, bind_panic, bind_hang] at hok
        cases hok
  obtain ⟨bytes, hb⟩ := hex
  have hl' := hl bytes hb
  refine ⟨bytes, ?_⟩
  obtain ⟨st1, e1⟩ := generateNonce_eq m hc ho ho0 hg hd hdq hko hh st hb fuel hl'
  rw [e1] at hok
  rcases first_or_none (fun i => Suitable q (Spec.Rfc6979.candidate (mac H h) H.outLen q (Spec.Rfc6979.seed q d hash bytes) (0 + i))) fuel with
    ⟨i, hi, hgood, hbad⟩ | hnone
  · obtain ⟨o, e2, ho⟩ := nonceLoop_y (ε := GenerateNonceError) m hc ho ho0 hg (by omega) (by omega) _ i 0 fuel st1 hi hgood hbad
    rw [e2] at hok
    cases hok
    simp only [Nat.zero_add] at ho hgood hbad
    exact ⟨_, hb, ho, i, rfl, hgood.1, hgood.2, hbad⟩
  · rw [nonceLoop_hang m hc ho ho0 hg (by omega) (by omega) _ 0 fuel st1 hnone] at hok
    cases hok

/-- If the nonce of RFC 6979 exists it is returned, for all sufficiently large fuel. -/
theorem generateNonce_complete {q : Nat} {g : Rfc6979} {extra : Bool} (hg : IsGen w q extra g) {key : PrivateKey} {d : Nat}
    (hd : Denotes w key.data d) (hdq : d < q) (hko : Denotes w key.params.order (q : Int)) {hash : List UInt8} (hh : hash ≠ [])
    {rand : Out RandomError (List UInt8)} {bytes : List UInt8} (hb : Drawn extra rand bytes)
    (hl : H.blockLen + H.outLen + 1 + 2 * ((bitLength q + 7) / 8) + bytes.length < limit) {k : Nat}
    (hk : Spec.Rfc6979.IsNonce (mac H h) H.outLen q (Spec.Rfc6979.seed q d hash bytes) k) :
    ∃ f0, ∀ (fuel : Nat) (st : H.State), f0 ≤ fuel →
      (g.generateNonce m w H fuel hash key st rand).Yields (fun o => Denotes w o.1 (k : Nat)) := by
  obtain ⟨i, hi, h1, h2, h3⟩ := hk
  refine ⟨i + 1, fun fuel st hf => ?_⟩
  obtain ⟨st1, e1⟩ := generateNonce_eq m hc ho ho0 hg hd hdq hko hh st hb fuel hl
  rw [e1]
  have := nonceLoop_y (ε := GenerateNonceError) m hc ho ho0 hg (by omega) (by omega) (Spec.Rfc6979.seed q d hash bytes) i 0 fuel st1
    (by omega) (by rw [Nat.zero_add, hi]; exact ⟨h1, h2⟩) (fun j hj => by rw [Nat.zero_add]; exact h3 j hj)
  rw [Nat.zero_add, hi] at this
  exact this

omit hc ho ho0 in
theorem isNonce_unique {mc : List UInt8 → List UInt8 → List UInt8} {hl q : Nat} {seed : List UInt8} {k k' : Nat}
    (h1 : Spec.Rfc6979.IsNonce mc hl q seed k) (h2 : Spec.Rfc6979.IsNonce mc hl q seed k') : k = k' := by
  obtain ⟨i, rfl, a1, a2, a3⟩ := h1
  obtain ⟨j, rfl, b1, b2, b3⟩ := h2
  rcases Nat.lt_trichotomy i j with hlt | rfl | hlt
  · exact absurd ⟨a1, a2⟩ (b3 i hlt)
  · rfl
  · exact absurd ⟨b1, b2⟩ (a3 j hlt)

/-- Everything the loop is called with. -/
structure LoopCtx (w p n : Nat) [Fact p.Prime] (a b : Int) (G : (curve (a : ZMod p) (b : ZMod p)).Point) (H : Hasher)
    (h : List UInt8 → List UInt8) (limit : Nat) (extra : Bool) (g : Rfc6979) (key : PrivateKey) (d : Nat) (hash : List UInt8) (xe : BInt)
    (rand : Nat → Out RandomError (List UInt8)) : Prop where
  dom : Domain w key.params p n a b G
  gen : IsGen w n extra g
  key : Denotes w key.data d
  d_lt : d < n
  ne : hash ≠ []
  e : Denotes w xe (leadingBits (bitLength n) hash : Nat)
  short : ∀ i bytes, Drawn extra (rand i) bytes → H.blockLen + H.outLen + 1 + 2 * ((bitLength n + 7) / 8) + bytes.length < limit

variable {extra : Bool} {g : Rfc6979} {key : PrivateKey} {d : Nat} {hash : List UInt8} {xe : BInt}
  {rand : Nat → Out RandomError (List UInt8)} (o : SigningOptions)

theorem signLoop_sound (ctx : LoopCtx w p n a b G H h limit extra g key d hash xe rand) (nf f i : Nat) (st : H.State)
    {res : Signature × RecoveryId} (hok : signLoop m w H nf o g hash xe key rand f i st = .ok res) :
    ∃ j k, i ≤ j ∧ NonceOf H h n d hash extra (rand j) k ∧ ¬ Unusable n G d (leadingBits (bitLength n) hash) k ∧
      Normalised w n key.params o.enforceLowS G d (leadingBits (bitLength n) hash) k res ∧
      ∀ i', i ≤ i' → i' < j → ∃ k', NonceOf H h n d hash extra (rand i') k' ∧ Unusable n G d (leadingBits (bitLength n) hash) k' := by
  have hnp : Fact n.Prime := ⟨ctx.dom.n_prime⟩
  induction f generalizing i st with
  | zero => cases hok
  | succ f ih =>
    unfold signLoop at hok
    cases hg : g.generateNonce m w H nf hash key st (rand i) with
    | ok ks =>
      obtain ⟨x, st'⟩ := ks
      obtain ⟨bytes, k, hdr, hx, hnon⟩ := generateNonce_sound m hc ho ho0 ctx.gen ctx.key ctx.d_lt ctx.dom.order ctx.ne st nf (ctx.short i) hg
      obtain ⟨-, -, hk0, hkn, -⟩ := id hnon
      obtain ⟨r, er, hr⟩ := sign_y (ε := SigningError) m ctx.dom rfl ctx.key ctx.e (bitLength_leadingBits hash _) hx hk0 hkn
      simp only [hg, mapErr, bind_ok, er] at hok
      rcases hr with ⟨hun, rfl⟩ | ⟨h1, h2, sig, id, rfl, hsig, hsr, hss, hi1, hi2⟩
      · simp only at hok
        obtain ⟨j, k2, hij, a1, a2, a3, a4⟩ := ih (i + 1) st' hok
        refine ⟨j, k2, by omega, a1, a2, a3, fun i' h1 h2 => ?_⟩
        by_cases hi : i' = i
        · subst hi
          exact ⟨k, ⟨bytes, hdr, hnon⟩, hun⟩
        · exact a4 i' (by omega) h2
      · simp only at hok
        obtain ⟨res', e2, hres⟩ := normalise_y m ctx.dom o (cast_ne_zero_of_lt hk0 hkn) h2 h1 hsig hsr hss hi1 hi2
        rw [e2] at hok
        cases hok
        exact ⟨i, k, Nat.le_refl _, ⟨bytes, hdr, hnon⟩, fun h => h.elim h1 h2, hres, fun i' h1 h2 => absurd h2 (by omega)⟩
    | err e => simp only [hg, mapErr, bind_err] at hok; cases hok
    | panic => simp only [hg, mapErr, bind_panic] at hok; cases hok
    | hang => simp only [hg, mapErr, bind_hang] at hok; cases hok

/-- One round in which the nonce exists. -/
theorem signLoop_round (ctx : LoopCtx w p n a b G H h limit extra g key d hash xe rand) (i : Nat) {k : Nat}
    (hk : NonceOf H h n d hash extra (rand i) k) :
    ∃ nf0, ∀ nf f st, nf0 ≤ nf →
      (Unusable n G d (leadingBits (bitLength n) hash) k → ∃ st', signLoop m w H nf o g hash xe key rand (f + 1) i st =
        signLoop m w H nf o g hash xe key rand f (i + 1) st') ∧
      (¬ Unusable n G d (leadingBits (bitLength n) hash) k → (signLoop m w H nf o g hash xe key rand (f + 1) i st).Yields
        (Normalised w n key.params o.enforceLowS G d (leadingBits (bitLength n) hash) k)) := by
  have hnp : Fact n.Prime := ⟨ctx.dom.n_prime⟩
  obtain ⟨bytes, hdr, hnon⟩ := hk
  obtain ⟨nf0, hnf⟩ := generateNonce_complete m hc ho ho0 ctx.gen ctx.key ctx.d_lt ctx.dom.order ctx.ne hdr (ctx.short i bytes hdr) hnon
  refine ⟨nf0, fun nf f st hle => ?_⟩
  obtain ⟨⟨x, st'⟩, e1, hx⟩ := hnf nf st hle
  obtain ⟨-, -, hk0, hkn, -⟩ := hnon
  obtain ⟨r, er, hr⟩ := sign_y (ε := SigningError) m ctx.dom rfl ctx.key ctx.e (bitLength_leadingBits hash _) hx hk0 hkn
  simp only [signLoop, e1, mapErr, bind_ok, er]
  rcases hr with ⟨hun, rfl⟩ | ⟨h1, h2, sig, id, rfl, hsig, hsr, hss, hi1, hi2⟩
  · exact ⟨fun _ => ⟨st', rfl⟩, fun h => absurd hun h⟩
  · exact ⟨fun h => absurd h (fun h => h.elim h1 h2), fun _ =>
      normalise_y m ctx.dom o (cast_ne_zero_of_lt hk0 hkn) h2 h1 hsig hsr hss hi1 hi2⟩

/-- Skipping unusable rounds. -/
theorem signLoop_skip (ctx : LoopCtx w p n a b G H h limit extra g key d hash xe rand) (j i : Nat)
    (hbad : ∀ i', i ≤ i' → i' < i + j → ∃ k', NonceOf H h n d hash extra (rand i') k' ∧ Unusable n G d (leadingBits (bitLength n) hash) k') :
    ∃ nf0, ∀ nf f st, nf0 ≤ nf → ∃ st', signLoop m w H nf o g hash xe key rand (f + j) i st =
      signLoop m w H nf o g hash xe key rand f (i + j) st' := by
  induction j generalizing i with
  | zero => exact ⟨0, fun nf f st _ => ⟨st, rfl⟩⟩
  | succ j ih =>
    obtain ⟨k', hk', hun⟩ := hbad i (Nat.le_refl _) (by omega)
    obtain ⟨nf1, h1⟩ := signLoop_round m hc ho ho0 o ctx i hk'
    obtain ⟨nf2, h2⟩ := ih (i + 1) (fun i' a1 a2 => hbad i' (by omega) (by omega))
    refine ⟨max nf1 nf2, fun nf f st hle => ?_⟩
    obtain ⟨st1, e1⟩ := (h1 nf (f + j) st (by omega)).1 hun
    obtain ⟨st2, e2⟩ := h2 nf f st1 (by omega)
    refine ⟨st2, ?_⟩
    rw [show f + (j + 1) = f + j + 1 by omega, e1, e2, show i + 1 + j = i + (j + 1) by omega]

theorem signLoop_complete (ctx : LoopCtx w p n a b G H h limit extra g key d hash xe rand) (j : Nat) {k : Nat}
    (hbad : ∀ i < j, ∃ k', NonceOf H h n d hash extra (rand i) k' ∧ Unusable n G d (leadingBits (bitLength n) hash) k')
    (hk : NonceOf H h n d hash extra (rand j) k) (hus : ¬ Unusable n G d (leadingBits (bitLength n) hash) k) :
    ∃ nf0, ∀ nf f st, nf0 ≤ nf → j < f → (signLoop m w H nf o g hash xe key rand f 0 st).Yields
      (Normalised w n key.params o.enforceLowS G d (leadingBits (bitLength n) hash) k) := by
  obtain ⟨nf1, h1⟩ := signLoop_skip m hc ho ho0 o ctx j 0 (fun i' _ h => hbad i' (by omega))
  obtain ⟨nf2, h2⟩ := signLoop_round m hc ho ho0 o ctx j hk
  refine ⟨max nf1 nf2, fun nf f st hle hf => ?_⟩
  obtain ⟨st1, e1⟩ := h1 nf (f - j) st (by omega)
  rw [show f = f - j + j by omega, e1, show f - j = (f - j - 1) + 1 by omega, Nat.zero_add]
  exact (h2 nf _ st1 (by omega)).2 hus

/-- If obtaining random bytes fails in a round that is reached, the error is returned. -/
theorem signLoop_err (ctx : LoopCtx w p n a b G H h limit true g key d hash xe rand) (j : Nat) {er : RandomError}
    (hbad : ∀ i < j, ∃ k', NonceOf H h n d hash true (rand i) k' ∧ Unusable n G d (leadingBits (bitLength n) hash) k')
    (hr : rand j = .err er) :
    ∃ nf0, ∀ nf f st, nf0 ≤ nf → j < f →
      signLoop m w H nf o g hash xe key rand f 0 st = .err (.FailedToGenerateNonce (.FailedToGenerateRandomBytes er)) := by
  obtain ⟨nf1, h1⟩ := signLoop_skip m hc ho ho0 o ctx j 0 (fun i' _ h => hbad i' (by omega))
  refine ⟨nf1, fun nf f st hle hf => ?_⟩
  obtain ⟨st1, e1⟩ := h1 nf (f - j) st (by omega)
  rw [show f = f - j + j by omega, e1, show f - j = (f - j - 1) + 1 by omega, Nat.zero_add]
  simp only [signLoop, hr, generateNonce_err m ctx.gen ctx.key ctx.d_lt ctx.dom.order ctx.ne, mapErr, bind_err]

/-- If no round gives a usable nonce the loop does not end. -/
theorem signLoop_stall (ctx : LoopCtx w p n a b G H h limit extra g key d hash xe rand) (nf f i : Nat) (st : H.State)
    (hbad : ∀ i, ∃ k', NonceOf H h n d hash extra (rand i) k' ∧ Unusable n G d (leadingBits (bitLength n) hash) k') :
    signLoop m w H nf o g hash xe key rand f i st = .hang := by
  induction f generalizing i st with
  | zero => rfl
  | succ f ih =>
    obtain ⟨k, ⟨bytes, hb, hnon⟩, hun⟩ := hbad i
    obtain ⟨idx, hidx, hk0, hkn, hall⟩ := id hnon
    obtain ⟨st1, e1⟩ := generateNonce_eq m hc ho ho0 ctx.gen ctx.key ctx.d_lt ctx.dom.order ctx.ne st hb nf (ctx.short i bytes hb)
    have hl := ctx.short i bytes hb
    have hn0 := ctx.dom.n_prime.pos
    by_cases hlt : idx < nf
    · have := nonceLoop_y (ε := GenerateNonceError) m hc ho ho0 ctx.gen hn0 (by omega) (Spec.Rfc6979.seed n d hash bytes) idx 0 nf
        st1 hlt (by rw [Nat.zero_add, hidx]; exact ⟨hk0, hkn⟩) (fun j hj => by rw [Nat.zero_add]; exact hall j hj)
      rw [Nat.zero_add, hidx] at this
      obtain ⟨⟨x, st2⟩, e2, hx⟩ := this
      obtain ⟨r, er, hr⟩ := sign_y (ε := SigningError) m ctx.dom rfl ctx.key ctx.e (bitLength_leadingBits hash _) hx hk0 hkn
      rcases hr with ⟨-, rfl⟩ | ⟨h1, h2, -⟩
      · simp only [signLoop, e1, e2, mapErr, bind_ok, er]
        exact ih (i + 1) st2
      · exact absurd hun (fun h => h.elim h1 h2)
    · have := nonceLoop_hang (ε := GenerateNonceError) m hc ho ho0 ctx.gen hn0 (by omega) (Spec.Rfc6979.seed n d hash bytes) 0 nf
        st1 (fun j hj => by rw [Nat.zero_add]; exact hall j (by omega))
      simp only [signLoop, e1, this, mapErr, bind_hang]

/-- The only errors of the loop are those of the nonce generation. -/
theorem signLoop_errors (ctx : LoopCtx w p n a b G H h limit extra g key d hash xe rand) (nf f i : Nat) (st : H.State) {er : SigningError}
    (he : signLoop m w H nf o g hash xe key rand f i st = .err er) : ∃ e', er = .FailedToGenerateNonce e' := by
  have hnp : Fact n.Prime := ⟨ctx.dom.n_prime⟩
  induction f generalizing i st with
  | zero => cases he
  | succ f ih =>
    cases hg : g.generateNonce m w H nf hash key st (rand i) with
    | ok ks =>
      obtain ⟨x, st'⟩ := ks
      obtain ⟨bytes, k, hdr, hx, hnon⟩ := generateNonce_sound m hc ho ho0 ctx.gen ctx.key ctx.d_lt ctx.dom.order ctx.ne st nf (ctx.short i) hg
      obtain ⟨-, -, hk0, hkn, -⟩ := id hnon
      obtain ⟨r, er, hr⟩ := sign_y (ε := SigningError) m ctx.dom rfl ctx.key ctx.e (bitLength_leadingBits hash _) hx hk0 hkn
      simp only [signLoop, hg, mapErr, bind_ok, er] at he
      rcases hr with ⟨hun, rfl⟩ | ⟨h1, h2, sig, id, rfl, hsig, hsr, hss, hi1, hi2⟩
      · exact ih (i + 1) st' he
      · obtain ⟨res', e2, hres⟩ := normalise_y m ctx.dom o (cast_ne_zero_of_lt hk0 hkn) h2 h1 hsig hsr hss hi1 hi2
        simp only [e2] at he
        cases he
    | err e =>
      simp only [signLoop, hg, mapErr, bind_err] at he
      cases he
      exact ⟨e, rfl⟩
    | hang => simp only [signLoop, hg, mapErr, bind_hang] at he; cases he
    | panic => simp only [signLoop, hg, mapErr, bind_panic] at he; cases he

/-- An error of the loop is one reported by the random source, in a round that is reached. -/
theorem signLoop_error_source (ctx : LoopCtx w p n a b G H h limit extra g key d hash xe rand) (nf f i : Nat) (st : H.State)
    {er : SigningError} (he : signLoop m w H nf o g hash xe key rand f i st = .err er) :
    extra = true ∧ ∃ j e', i ≤ j ∧ rand j = .err e' ∧ er = .FailedToGenerateNonce (.FailedToGenerateRandomBytes e') ∧
      ∀ i', i ≤ i' → i' < j → ∃ k', NonceOf H h n d hash extra (rand i') k' ∧ Unusable n G d (leadingBits (bitLength n) hash) k' := by
  have hnp : Fact n.Prime := ⟨ctx.dom.n_prime⟩
  induction f generalizing i st with
  | zero => cases he
  | succ f ih =>
    cases hg : g.generateNonce m w H nf hash key st (rand i) with
    | ok ks =>
      obtain ⟨x, st'⟩ := ks
      obtain ⟨bytes, k, hdr, hx, hnon⟩ := generateNonce_sound m hc ho ho0 ctx.gen ctx.key ctx.d_lt ctx.dom.order ctx.ne st nf (ctx.short i) hg
      obtain ⟨-, -, hk0, hkn, -⟩ := id hnon
      obtain ⟨r, er, hr⟩ := sign_y (ε := SigningError) m ctx.dom rfl ctx.key ctx.e (bitLength_leadingBits hash _) hx hk0 hkn
      simp only [signLoop, hg, mapErr, bind_ok, er] at he
      rcases hr with ⟨hun, rfl⟩ | ⟨h1, h2, sig, id, rfl, hsig, hsr, hss, hi1, hi2⟩
      · obtain ⟨hext, j, e', hij, a1, a2, a3⟩ := ih (i + 1) st' he
        refine ⟨hext, j, e', by omega, a1, a2, fun i' h1 h2 => ?_⟩
        by_cases hi : i' = i
        · subst hi
          exact ⟨k, ⟨bytes, hdr, hnon⟩, hun⟩
        · exact a3 i' (by omega) h2
      · obtain ⟨res', e2, hres⟩ := normalise_y m ctx.dom o (cast_ne_zero_of_lt hk0 hkn) h2 h1 hsig hsr hss hi1 hi2
        simp only [e2] at he
        cases he
    | err e =>
      simp only [signLoop, hg, mapErr, bind_err] at he
      cases he
      by_cases hex : ∃ bytes, Drawn extra (rand i) bytes
      · exfalso
        obtain ⟨bytes, hb⟩ := hex
        obtain ⟨st1, e1⟩ := generateNonce_eq m hc ho ho0 ctx.gen ctx.key ctx.d_lt ctx.dom.order ctx.ne st hb nf (ctx.short i bytes hb)
        have hl := ctx.short i bytes hb
        have hn0 := ctx.dom.n_prime.pos
        rw [e1] at hg
        rcases first_or_none (fun i => Suitable n (Spec.Rfc6979.candidate (mac H h) H.outLen n (Spec.Rfc6979.seed n d hash bytes) (0 + i))) nf
          with ⟨i, hi, hgood, hbad⟩ | hnone
        · obtain ⟨o, e2, ho⟩ := nonceLoop_y (ε := GenerateNonceError) m hc ho ho0 ctx.gen hn0 (by omega) _ i 0 nf st1 hi hgood hbad
          rw [e2] at hg; cases hg
        · rw [nonceLoop_hang m hc ho ho0 ctx.gen hn0 (by omega) _ 0 nf st1 hnone] at hg
          cases hg
      · have hext : extra = true := by
          cases extra
          · exact absurd ⟨[], rfl⟩ hex
          · rfl
        subst hext
        obtain ⟨_, ea, -⟩ := dassertM_y (ε := GenerateNonceError) m
            (beq_y m ctx.gen.q ctx.dom.order |>.mono (by rintro _ rfl; exact decide_eq_true rfl))
        cases hrd : rand i with
        | ok bytes => exact absurd ⟨bytes, hrd⟩ hex
        | panic =>
          unfold Rfc6979.generateNonce at hg
          simp only [hrd, keyAndMsg_eq m ctx.gen ctx.key ctx.d_lt ctx.ne, ea, bind_ok, mapErr, if_true, bind_panic] at hg
          cases hg
        | err er =>
          rw [hrd, generateNonce_err m ctx.gen ctx.key ctx.d_lt ctx.dom.order ctx.ne] at hg
          cases hg
          exact ⟨rfl, i, er, Nat.le_refl _, hrd, rfl, fun i' h1 h2 => absurd h2 (by omega)⟩
        | hang =>
          unfold Rfc6979.generateNonce at hg
          simp only [hrd, keyAndMsg_eq m ctx.gen ctx.key ctx.d_lt ctx.ne, ea, bind_ok, mapErr, if_true, bind_hang] at hg
          cases hg
    | hang => simp only [signLoop, hg, mapErr, bind_hang] at he; cases he
    | panic => simp only [signLoop, hg, mapErr, bind_panic] at he; cases he

/-- Signing never panics (unless the random source does). -/
theorem signLoop_no_panic (ctx : LoopCtx w p n a b G H h limit extra g key d hash xe rand) (nf f i : Nat) (st : H.State)
    (hrand : ∀ i, rand i ≠ .panic) : signLoop m w H nf o g hash xe key rand f i st ≠ .panic := by
  have hnp : Fact n.Prime := ⟨ctx.dom.n_prime⟩
  induction f generalizing i st with
  | zero => intro h; cases h
  | succ f ih =>
    cases hg : g.generateNonce m w H nf hash key st (rand i) with
    | ok ks =>
      obtain ⟨x, st'⟩ := ks
      obtain ⟨bytes, k, hdr, hx, hnon⟩ := generateNonce_sound m hc ho ho0 ctx.gen ctx.key ctx.d_lt ctx.dom.order ctx.ne st nf (ctx.short i) hg
      obtain ⟨-, -, hk0, hkn, -⟩ := id hnon
      obtain ⟨r, er, hr⟩ := sign_y (ε := SigningError) m ctx.dom rfl ctx.key ctx.e (bitLength_leadingBits hash _) hx hk0 hkn
      simp only [signLoop, hg, mapErr, bind_ok, er]
      rcases hr with ⟨hun, rfl⟩ | ⟨h1, h2, sig, id, rfl, hsig, hsr, hss, hi1, hi2⟩
      · exact ih (i + 1) st'
      · obtain ⟨res', e2, hres⟩ := normalise_y m ctx.dom o (cast_ne_zero_of_lt hk0 hkn) h2 h1 hsig hsr hss hi1 hi2
        simp only [e2]
        intro h; cases h
    | err e => simp only [signLoop, hg, mapErr, bind_err]; intro h; cases h
    | hang => simp only [signLoop, hg, mapErr, bind_hang]; intro h; cases h
    | panic =>
      exfalso
      by_cases hex : ∃ bytes, Drawn extra (rand i) bytes
      · obtain ⟨bytes, hb⟩ := hex
        obtain ⟨st1, e1⟩ := generateNonce_eq m hc ho ho0 ctx.gen ctx.key ctx.d_lt ctx.dom.order ctx.ne st hb nf (ctx.short i bytes hb)
        have hl := ctx.short i bytes hb
        have hn0 := ctx.dom.n_prime.pos
        rw [e1] at hg
        rcases first_or_none (fun i => Suitable n (Spec.Rfc6979.candidate (mac H h) H.outLen n (Spec.Rfc6979.seed n d hash bytes) (0 + i))) nf
          with ⟨i, hi, hgood, hbad⟩ | hnone
        · obtain ⟨o, e2, ho⟩ := nonceLoop_y (ε := GenerateNonceError) m hc ho ho0 ctx.gen hn0 (by omega) _ i 0 nf st1 hi hgood hbad
          rw [e2] at hg; cases hg
        · rw [nonceLoop_hang m hc ho ho0 ctx.gen hn0 (by omega) _ 0 nf st1 hnone] at hg
          cases hg
      · have hext : extra = true := by
          cases extra
          · exact absurd ⟨[], rfl⟩ hex
          · rfl
        subst hext
        cases hrd : rand i with
        | ok bytes => exact hex ⟨bytes, hrd⟩
        | panic => exact hrand i hrd
        | err er =>
          rw [hrd, generateNonce_err m ctx.gen ctx.key ctx.d_lt ctx.dom.order ctx.ne] at hg
          cases hg
        | hang =>
          obtain ⟨_, ea, -⟩ := dassertM_y (ε := GenerateNonceError) m
            (beq_y m ctx.gen.q ctx.dom.order |>.mono (by rintro _ rfl; exact decide_eq_true rfl))
          unfold Rfc6979.generateNonce at hg
          simp only [hrd, keyAndMsg_eq m ctx.gen ctx.key ctx.d_lt ctx.ne, ea, bind_ok, mapErr, if_true, bind_hang] at hg
          cases hg

end Loop

/-- The checks before the loop. -/
theorem signWithOptions_eq (H : Hasher) (hD : Domain w cp p n a b G) {key : PrivateKey} (hkey : key.params = cp) (hash : List UInt8)
    (o : SigningOptions) (h8 : o.strictHashByteLength = true → bitLength n % 8 = 0) :
    (hash = [] → ∀ f nf st rand, signWithOptions m w H f nf st rand hash key o = .err .EmptyHashNotAllowed) ∧
    (hash ≠ [] → o.strictHashByteLength = true → hash.length * 8 ≠ bitLength n → ∀ f nf st rand,
      signWithOptions m w H f nf st rand hash key o = .err .HashBitLengthDoesNotMatchBasePointOrder) ∧
    (hash ≠ [] → (o.strictHashByteLength = true → hash.length * 8 = bitLength n) → o.isZeroHashAllowed = false →
      leadingBits (bitLength n) hash = 0 → ∀ f nf st rand, signWithOptions m w H f nf st rand hash key o = .err .ZeroHashNotAllowed) ∧
    (hash ≠ [] → (o.strictHashByteLength = true → hash.length * 8 = bitLength n) →
      (o.isZeroHashAllowed = false → leadingBits (bitLength n) hash ≠ 0) →
      ∃ g xe, IsGen w n o.employExtraRandomData g ∧ Denotes w xe (leadingBits (bitLength n) hash : Nat) ∧ ∀ f nf st rand,
        signWithOptions m w H f nf st rand hash key o = signLoop m w H nf o g hash xe key rand f 0 st) := by
  subst hkey
  have hlen : ((if o.strictHashByteLength then hashLengthMatches m w hash.length key.params else pure true : Out SigningError Bool)).Yields
      (fun len => len = true ↔ (o.strictHashByteLength = true → hash.length * 8 = bitLength n)) := by
    cases he : o.strictHashByteLength
    · exact .pure (by simp)
    · exact (hashLengthMatches_y m hD.order (h8 he)).mono (by rintro _ rfl; simp)
  obtain ⟨len, elen, hlen⟩ := hlen
  by_cases he : hash = []
  · subst he
    exact ⟨fun _ _ _ _ _ => rfl, fun h => absurd rfl h, fun h => absurd rfl h, fun h => absurd rfl h⟩
  have h1 : failIf SigningError.EmptyHashNotAllowed hash.isEmpty = .ok () := by
    cases hash with
    | nil => exact absurd rfl he
    | cons _ _ => rfl
  obtain ⟨nl, e1, rfl⟩ := bitLen_y (ε := SigningError) m hD.order
  obtain ⟨hn, e2, hhn⟩ := fromBeBytesMaxBits_y (ε := SigningError) (w := w) m he (bitLength_pos hD.n_prime.pos)
  have e2' : (fromBeBytesMaxBits m w hash (bitLength (n : Int).natAbs) : Out SigningError BInt) = .ok hn := e2
  have ez : ((if o.isZeroHashAllowed then pure false else BInt.isZero m hn : Out SigningError Bool)).Yields
      (· = decide (o.isZeroHashAllowed = false ∧ leadingBits (bitLength n) hash = 0)) := by
    cases o.isZeroHashAllowed
    · refine (isZero_y m hhn).mono ?_
      rintro _ rfl
      simp
    · exact .pure (by simp)
  obtain ⟨z, e3, rfl⟩ := ez
  obtain ⟨g, e4, hg⟩ := rfcNew_y (ε := SigningError) m hD.order o.employExtraRandomData
  refine ⟨fun h => absurd h he, ?_, ?_, ?_⟩
  · intro _ h' h'' f nf st rand
    have : len = false := by rw [← Bool.not_eq_true, hlen]; exact fun h3 => h'' (h3 h')
    unfold signWithOptions
    simp only [elen, h1, bind_ok]
    rw [this]; rfl
  · intro _ h h' h'' f nf st rand
    unfold signWithOptions
    simp only [elen, h1, bind_ok]
    rw [hlen.mpr h]
    simp only [e1, bind_ok, e2', e3, failIf, Bool.not_true, Bool.false_eq_true, if_false]
    rw [if_pos (decide_eq_true ⟨h', h''⟩)]; rfl
  · intro _ h h'
    refine ⟨g, hn, hg, hhn, fun f nf st rand => ?_⟩
    unfold signWithOptions
    simp only [elen, h1, bind_ok]
    rw [hlen.mpr h]
    simp only [e1, bind_ok, e2', e3, failIf, Bool.not_true, Bool.false_eq_true, if_false]
    rw [if_neg (by rw [decide_eq_true_iff]; exact fun h3 => h' h3.1 h3.2)]
    simp only [bind_ok, e4]

end LCT.Crypto
