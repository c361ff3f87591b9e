import Verif.Lemmas.Crypto.Signing
import Mathlib.Data.Fintype.Prod
import Mathlib.Data.Fintype.Card

/-!
# How many keys, hashes and values of `s` fit one verification equation

The verifier's point `R` satisfies `s•R = e•G + r•Q`, and only few points have an abscissa that is `r` modulo `n`.
-/

namespace LCT.Crypto
open LCT.Spec LCT.BigInt
open WeierstrassCurve.Affine (Point.some Point.zero)

/-- The point that the verifier computes. -/
noncomputable def verifierPoint {p : Nat} [Fact p.Prime] {W : WeierstrassCurve.Affine (ZMod p)} (n : Nat) (G Q : W.Point) (e r s : Nat) :
    W.Point :=
  ((e : ZMod n) * (s : ZMod n)⁻¹).val • G + ((r : ZMod n) * (s : ZMod n)⁻¹).val • Q

section
variable {p n : Nat} [hpr : Fact p.Prime] [hn : Fact n.Prime] {W : WeierstrassCurve.Affine (ZMod p)} {G Q : W.Point}

theorem smul_verifierPoint (hG : n • G = 0) (hQ : n • Q = 0) {e r s : Nat} (hs : (s : ZMod n) ≠ 0) :
    s • verifierPoint n G Q e r s = e • G + r • Q := by
  unfold verifierPoint
  rw [nsmul_add, ← mul_nsmul, ← mul_nsmul]
  congr 1
  · apply smul_congr hG
    push_cast
    rw [ZMod.natCast_zmod_val, mul_assoc, inv_mul_cancel₀ hs, mul_one]
  · apply smul_congr hQ
    push_cast
    rw [ZMod.natCast_zmod_val, mul_assoc, inv_mul_cancel₀ hs, mul_one]

theorem verifierPoint_order (hG : n • G = 0) (hQ : n • Q = 0) (e r s : Nat) : n • verifierPoint n G Q e r s = 0 := by
  unfold verifierPoint
  rw [nsmul_add, smul_smul_zero hG, smul_smul_zero hQ, add_zero]

theorem smul_inj {P : W.Point} (h0 : P ≠ 0) (h : n • P = 0) {i j : Nat} (e : i • P = j • P) : (i : ZMod n) = (j : ZMod n) := by
  rw [ZMod.natCast_eq_natCast_iff, ← order_eq h0 h]
  exact nsmul_eq_nsmul_iff_modEq.mp e

theorem smul_cancel {P P' : W.Point} (h : n • P = 0) (h' : n • P' = 0) {r : Nat} (hr : (r : ZMod n) ≠ 0) (e : r • P = r • P') : P = P' := by
  have hinv : ∀ P : W.Point, n • P = 0 → ((r : ZMod n)⁻¹).val • (r • P) = P := by
    intro P hP
    rw [← mul_nsmul]
    conv_rhs => rw [← one_nsmul P]
    apply smul_congr hP
    push_cast
    rw [ZMod.natCast_zmod_val, mul_inv_cancel₀ hr]
  rw [← hinv P h, e, hinv P' h']

end

section
variable {w : Nat} [DigitWidth w] {cp : Params} {p n : Nat} [hpr : Fact p.Prime] {a b : Int}
  {G : (curve (a : ZMod p) (b : ZMod p)).Point}

/-- Two points with the same abscissa modulo `n`, on the same side of `n`, are equal or opposite, if `p ≤ 2·n`. -/
theorem same_or_opposite (hpn : p ≤ 2 * n) {R R' : (curve (a : ZMod p) (b : ZMod p)).Point} (hR : R ≠ 0) (hR' : R' ≠ 0)
    (hx : xCoord R % n = xCoord R' % n) (hh : (n ≤ xCoord R) ↔ (n ≤ xCoord R')) : R' = R ∨ R' = -R := by
  cases R with
  | zero => exact absurd rfl hR
  | some x y hn =>
  cases R' with
  | zero => exact absurd rfl hR'
  | some x' y' hn' =>
    have hx1 : x.val % n = x'.val % n := hx
    have hh1 : n ≤ x.val ↔ n ≤ x'.val := hh
    have l1 := ZMod.val_lt x
    have l2 := ZMod.val_lt x'
    have hxe : x = x' := by
      apply ZMod.val_injective
      by_cases hlt : x.val < n
      · rw [Nat.mod_eq_of_lt hlt, Nat.mod_eq_of_lt (by omega)] at hx1
        exact hx1
      · rw [Nat.mod_eq_sub_mod (by omega), Nat.mod_eq_of_lt (by omega), Nat.mod_eq_sub_mod (by omega : n ≤ x'.val),
          Nat.mod_eq_of_lt (by omega)] at hx1
        omega
    subst hxe
    have hsq : (y - y') * (y + y') = 0 := by
      have h1 := equation_of_nonsingular hn
      have h2 := equation_of_nonsingular hn'
      linear_combination h1 - h2
    rcases mul_eq_zero.mp hsq with h0 | h0
    · have : y = y' := sub_eq_zero.mp h0
      subst this
      exact .inl rfl
    · have hy' : y' = -y := eq_neg_of_add_eq_zero_right h0
      subst hy'
      refine .inr ?_
      rw [WeierstrassCurve.Affine.Point.neg_some]
      congr 1
      simp [WeierstrassCurve.Affine.negY]

/-- The abscissa of the verifier's point is below `n` when `r + n ≥ p`. -/
theorem low_of_large {r : Nat} (hr : p ≤ r + n) {R : (curve (a : ZMod p) (b : ZMod p)).Point} (hx : xCoord R % n = r) (hR : R ≠ 0) :
    ¬ n ≤ xCoord R := by
  have hlt : xCoord R < p := by
    cases R with
    | zero => exact absurd rfl hR
    | some x y hn => exact ZMod.val_lt x
  intro hc
  have h1 := Nat.div_add_mod (xCoord R) n
  have h2 : 1 ≤ xCoord R / n := by
    rcases Nat.eq_zero_or_pos n with h0 | h0
    · subst h0; simp at hx; omega
    · exact (Nat.one_le_div_iff h0).mpr hc
  have h3 := Nat.mul_le_mul_left n h2
  omega

/-- At most `2` objects have verifier's points with distinct descriptions and abscissa `r` when `r + n ≥ p`, and at most `4` otherwise. -/
theorem card_le_points {α : Type} (hD : Domain w cp p n a b G) (hpn : p ≤ 2 * n) {r : Nat} (S : Finset α)
    (f : α → (curve (a : ZMod p) (b : ZMod p)).Point) (hf : ∀ x ∈ S, f x ≠ 0 ∧ xCoord (f x) % n = r)
    (hinj : ∀ x ∈ S, ∀ y ∈ S, f x = f y → x = y) : S.card ≤ if p ≤ r + n then 2 else 4 := by
  classical
  let g : α → Bool × Bool := fun x => (decide (n ≤ xCoord (f x)), decide (yCoord (f x) % 2 = 1))
  have hg : Set.InjOn g S := by
    intro x hx y hy e
    obtain ⟨h1, h2⟩ := Prod.mk.inj e
    exact hinj x hx y hy (point_unique hD hpn (hf x hx).1 (hf y hy).1 ((hf x hx).2.trans (hf y hy).2.symm) h1 h2)
  split
  · rename_i hr
    have hsub : S.image g ⊆ ({(false, false), (false, true)} : Finset (Bool × Bool)) := by
      intro z hz
      obtain ⟨x, hx, rfl⟩ := Finset.mem_image.mp hz
      have : decide (n ≤ xCoord (f x)) = false := decide_eq_false (low_of_large hr (hf x hx).2 (hf x hx).1)
      simp only [g, this]
      cases decide (yCoord (f x) % 2 = 1) <;> decide
    rw [← Finset.card_image_of_injOn hg]
    exact Finset.card_le_card hsub
  · rw [← Finset.card_image_of_injOn hg]
    exact Finset.card_le_univ _

/-- The same for objects that are told apart by the point up to its sign: at most `1`, or `2`. -/
theorem card_le_abscissas {α : Type} (hpn : p ≤ 2 * n) {r : Nat} (S : Finset α)
    (f : α → (curve (a : ZMod p) (b : ZMod p)).Point) (hf : ∀ x ∈ S, f x ≠ 0 ∧ xCoord (f x) % n = r)
    (hinj : ∀ x ∈ S, ∀ y ∈ S, f y = f x ∨ f y = -f x → x = y) : S.card ≤ if p ≤ r + n then 1 else 2 := by
  classical
  let g : α → Bool := fun x => decide (n ≤ xCoord (f x))
  have hg : Set.InjOn g S := by
    intro x hx y hy e
    exact hinj x hx y hy (same_or_opposite hpn (hf x hx).1 (hf y hy).1 ((hf x hx).2.trans (hf y hy).2.symm) (decide_eq_decide.mp e))
  split
  · rename_i hr
    have hsub : S.image g ⊆ ({false} : Finset Bool) := by
      intro z hz
      obtain ⟨x, hx, rfl⟩ := Finset.mem_image.mp hz
      have : decide (n ≤ xCoord (f x)) = false := decide_eq_false (low_of_large hr (hf x hx).2 (hf x hx).1)
      simp [g, this]
    rw [← Finset.card_image_of_injOn hg]
    exact Finset.card_le_card hsub
  · rw [← Finset.card_image_of_injOn hg]
    exact Finset.card_le_univ _

variable {Q : (curve (a : ZMod p) (b : ZMod p)).Point}

/-- The number of values of `s` in the lower half. -/
theorem card_s (hD : Domain w cp p n a b G) (hpn : p ≤ 2 * n) (hQ : n • Q = 0) {e r : Nat} (S : Finset Nat)
    (hS : ∀ s ∈ S, 0 < s ∧ s ≤ n / 2 ∧ EcdsaVerifies n G Q e r s) : S.card ≤ if p ≤ r + n then 1 else 2 := by
  have hnp : Fact n.Prime := ⟨hD.n_prime⟩
  have hodd := hD.n_odd
  have hn2 := hD.n_prime.two_le
  refine card_le_abscissas hpn S (fun s => verifierPoint n G Q e r s) (fun s hs => (hS s hs).2.2) ?_
  intro s hs t ht h
  obtain ⟨hs0, hsl, hsv⟩ := hS s hs
  obtain ⟨ht0, htl, htv⟩ := hS t ht
  have e1 := smul_verifierPoint hD.G_order hQ (e := e) (r := r) (cast_ne_zero_of_lt hs0 (by omega : s < n))
  have e2 := smul_verifierPoint hD.G_order hQ (e := e) (r := r) (cast_ne_zero_of_lt ht0 (by omega : t < n))
  have hne : verifierPoint n G Q e r s ≠ 0 := hsv.1
  have hord := verifierPoint_order hD.G_order hQ e r s
  rcases h with h | h
  · rw [h] at e2
    have := smul_inj hne hord (e1.trans e2.symm)
    rw [ZMod.natCast_eq_natCast_iff'] at this
    rwa [Nat.mod_eq_of_lt (by omega), Nat.mod_eq_of_lt (by omega)] at this
  · exfalso
    rw [h] at e2
    have h3 : (s + t) • verifierPoint n G Q e r s = 0 • verifierPoint n G Q e r s := by
      rw [add_nsmul, zero_nsmul, e1, ← e2, ← nsmul_add, neg_add_cancel, nsmul_zero]
    have := smul_inj hne hord h3
    rw [ZMod.natCast_eq_natCast_iff', Nat.zero_mod, Nat.mod_eq_of_lt (by omega)] at this
    omega

/-- The number of hashes, modulo `n`. -/
theorem card_e (hD : Domain w cp p n a b G) (hpn : p ≤ 2 * n) (hQ : n • Q = 0) {r s : Nat} (hs0 : 0 < s) (hsn : s < n) (S : Finset Nat)
    (hS : ∀ e ∈ S, e < n ∧ EcdsaVerifies n G Q e r s) : S.card ≤ if p ≤ r + n then 2 else 4 := by
  have hnp : Fact n.Prime := ⟨hD.n_prime⟩
  have hs := cast_ne_zero_of_lt hs0 hsn
  refine card_le_points hD hpn S (fun e => verifierPoint n G Q e r s) (fun e he => (hS e he).2) ?_
  intro e he e' he' h
  have e1 := smul_verifierPoint hD.G_order hQ (e := e) (r := r) hs
  have e2 := smul_verifierPoint hD.G_order hQ (e := e') (r := r) hs
  rw [h, e2] at e1
  have := smul_inj hD.G_ne hD.G_order (add_right_cancel e1)
  rw [ZMod.natCast_eq_natCast_iff', Nat.mod_eq_of_lt (hS e he).1, Nat.mod_eq_of_lt (hS e' he').1] at this
  exact this.symm

/-- The number of keys. -/
theorem card_q (hD : Domain w cp p n a b G) (hpn : p ≤ 2 * n) {e r s : Nat} (hr0 : 0 < r) (hrn : r < n) (hs0 : 0 < s) (hsn : s < n)
    (S : Finset (curve (a : ZMod p) (b : ZMod p)).Point) (hS : ∀ Q ∈ S, n • Q = 0 ∧ EcdsaVerifies n G Q e r s) :
    S.card ≤ if p ≤ r + n then 2 else 4 := by
  have hnp : Fact n.Prime := ⟨hD.n_prime⟩
  have hs := cast_ne_zero_of_lt hs0 hsn
  refine card_le_points hD hpn S (fun Q => verifierPoint n G Q e r s) (fun Q hQ => (hS Q hQ).2) ?_
  intro Q hQ Q' hQ' h
  have e1 := smul_verifierPoint hD.G_order (hS Q hQ).1 (e := e) (r := r) hs
  have e2 := smul_verifierPoint hD.G_order (hS Q' hQ').1 (e := e) (r := r) hs
  rw [h, e2] at e1
  exact (smul_cancel (hS Q' hQ').1 (hS Q hQ).1 (cast_ne_zero_of_lt hr0 hrn) (add_left_cancel e1)).symm

omit [DigitWidth w] in
/-- The hash `-(e + 2·r·d)` gives the opposite point, so that it verifies too. -/
theorem second_hash (hD : Domain w cp p n a b G) {d e e' r s : Nat} (hv : EcdsaVerifies n G (d • G) e r s)
    (he : (e' : ZMod n) = -((e : ZMod n) + 2 * (r : ZMod n) * (d : ZMod n))) : EcdsaVerifies n G (d • G) e' r s := by
  have hnp : Fact n.Prime := ⟨hD.n_prime⟩
  have hneg : verifierPoint n G (d • G) e' r s = -verifierPoint n G (d • G) e r s := by
    rw [eq_neg_iff_add_eq_zero]
    unfold verifierPoint
    rw [← mul_nsmul, ← add_nsmul, ← add_nsmul, ← add_nsmul, ← zero_nsmul G]
    apply smul_congr hD.G_order
    push_cast
    rw [ZMod.natCast_zmod_val, ZMod.natCast_zmod_val, ZMod.natCast_zmod_val, he]
    ring
  show verifierPoint n G (d • G) e' r s ≠ 0 ∧ xCoord (verifierPoint n G (d • G) e' r s) % n = r
  rw [hneg, xCoord_neg, neg_ne_zero]
  exact hv

end

end LCT.Crypto
