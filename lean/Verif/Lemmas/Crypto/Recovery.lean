import Verif.Model.Crypto.Recovery
import Verif.Lemmas.Crypto.Signing
import Verif.Lemmas.Crypto.TwoTorsion
import Verif.Lemmas.Math.Sqrt

/-!
# Public key recovery refines the specification
-/

namespace LCT.Crypto
open LCT.Spec LCT.Out LCT.BigInt LCT.Modular LCT.Curve
open WeierstrassCurve.Affine (Point.some Point.zero)
variable {ε : Type} {w : Nat} [hw : DigitWidth w] {p n : Nat} [hpr : Fact p.Prime] {cp : Params} {a b : Int}
  {G : (curve (a : ZMod p) (b : ZMod p)).Point} (m : Build)

theorem ofNat_y {k : Nat} (hk : k < 2 ^ 128) : (BInt.ofNat w k : Out ε _).Yields (Denotes w · (k : Int)) := by
  obtain ⟨k8, h8, rfl⟩ := hw.bytes
  obtain ⟨x, e, wf, mg, sg⟩ := fromU128_spec (ε := ε) h8 k hk .positive
  refine ⟨x, e, wf, ?_⟩
  unfold mag at mg
  rw [toInt, sg]
  simp only
  rw [← mg]

/-! ## The algebra -/

section
variable [hn : Fact n.Prime] {W : WeierstrassCurve.Affine (ZMod p)} {G Q R : W.Point}

/-- The key recovered from the point `R`. -/
def cand (n : Nat) {W : WeierstrassCurve.Affine (ZMod p)} (G : W.Point) (e r s : Nat) (R : W.Point) : W.Point :=
  ((r : ZMod n)⁻¹).val • (s • R + (-(e : ZMod n)).val • G)

/-- The point a verifier computes. -/
def verPoint (n : Nat) {W : WeierstrassCurve.Affine (ZMod p)} (G : W.Point) (e r s : Nat) (Q : W.Point) : W.Point :=
  ((e : ZMod n) * (s : ZMod n)⁻¹).val • G + ((r : ZMod n) * (s : ZMod n)⁻¹).val • Q

/-- A key that recovery must return. -/
def Good (n : Nat) {W : WeierstrassCurve.Affine (ZMod p)} (G : W.Point) (e r s : Nat) (Q : W.Point) : Prop :=
  Q ≠ 0 ∧ n • Q = 0 ∧ EcdsaVerifies n G Q e r s

theorem cand_verPoint (hG : n • G = 0) (hQ : n • Q = 0) {e r s : Nat} (hr : (r : ZMod n) ≠ 0) (hs : (s : ZMod n) ≠ 0) :
    cand n G e r s (verPoint n G e r s Q) = Q := by
  unfold cand verPoint
  rw [nsmul_add, nsmul_add, nsmul_add, ← mul_nsmul', ← mul_nsmul', ← mul_nsmul', ← mul_nsmul', ← mul_nsmul', add_right_comm, ← add_nsmul]
  rw [show _ • G = (0 : Nat) • G from smul_congr hG ?_, zero_nsmul, zero_add]
  · rw [show _ • Q = (1 : Nat) • Q from smul_congr hQ ?_, one_nsmul]
    push_cast
    simp only [ZMod.natCast_zmod_val]
    field_simp
  · push_cast
    simp only [ZMod.natCast_zmod_val]
    field_simp
    ring

theorem verPoint_cand (hG : n • G = 0) (hR : n • R = 0) {e r s : Nat} (hr : (r : ZMod n) ≠ 0) (hs : (s : ZMod n) ≠ 0) :
    verPoint n G e r s (cand n G e r s R) = R := by
  unfold cand verPoint
  rw [nsmul_add, nsmul_add, ← mul_nsmul', ← mul_nsmul', ← mul_nsmul', ← mul_nsmul', add_left_comm, ← add_nsmul]
  rw [show _ • G = (0 : Nat) • G from smul_congr hG ?_, zero_nsmul, add_zero]
  · rw [show _ • R = (1 : Nat) • R from smul_congr hR ?_, one_nsmul]
    push_cast
    simp only [ZMod.natCast_zmod_val]
    field_simp
  · push_cast
    simp only [ZMod.natCast_zmod_val]
    field_simp
    ring

end

/-! ## One candidate point -/

section
variable (hD : Domain w cp p n a b G) {sig : Signature} (hsig : sig.params = cp) {e r s : Nat} {hashN eNeg rInv : BInt}
  (he : Denotes w hashN e) (hel : bitLength e ≤ bitLength n) (hr : Denotes w sig.r r) (hs : Denotes w sig.s s) (hr0 : 0 < r)
  (hs0 : (s : ZMod n) ≠ 0) (heN : Denotes w eNeg ((-(e : ZMod n)).val : Nat)) (hrI : Denotes w rInv (((r : ZMod n)⁻¹).val : Nat))
include hD hsig he hel hr hs hr0 hs0 heN hrI

/-- A stored key that is `Q`. -/
def KeyIs (w : Nat) (cp : Params) {W : WeierstrassCurve.Affine (ZMod p)} (pk : PublicKey) (Q : W.Point) : Prop :=
  pk.params = cp ∧ PointDenotes w pk.data Q

/-- Every key is among the right ones; it may panic only if the cofactor is even and the point does not have the order of the base point. -/
theorem recoverKey_y {pt : Point} {R : (curve (a : ZMod p) (b : ZMod p)).Point} (hR : PointDenotes w pt R) :
    Settles (cp.cofactor % 2 = 1 ∨ n • R = 0) (recoverKey m w sig hashN eNeg rInv pt : Out ε _) (fun o =>
      (o = none ∧ ¬ Good n G e r s (cand n G e r s R)) ∨
      ∃ pk, o = some pk ∧ KeyIs w cp pk (cand n G e r s R) ∧ Good n G e r s (cand n G e r s R)) := by
  subst hsig
  unfold recoverKey
  generalize hc : (sig.params.cofactor % 2 = 1 ∨ n • R = 0) = c
  -- every point on the way has odd order
  have hodd : c → ∃ k, k % 2 = 1 ∧ k • G = 0 ∧ k • R = 0 := by
    intro h
    rw [← hc] at h
    rcases h with h | h
    · exact ⟨_, hD.card_odd h, hD.card_smul G, hD.card_smul R⟩
    · exact ⟨n, hD.n_odd, hD.G_order, h⟩
  have hk : ∀ {k : Nat} (j : Nat) {P : (curve (a : ZMod p) (b : ZMod p)).Point}, k • P = 0 → k • (j • P) = 0 := by
    intro k j P h
    rw [← mul_nsmul', Nat.mul_comm, mul_nsmul', h, nsmul_zero]
  have hmul : ∀ {q : Point} {Q : (curve (a : ZMod p) (b : ZMod p)).Point} {xj : BInt} {j : Nat}, PointDenotes w q Q → Denotes w xj j →
      (c → ∃ k, k % 2 = 1 ∧ k • Q = 0) →
      Settles c (mulPoint m w sig.params.curve q xj : Out ε _) (PointDenotes w · (j • Q)) := by
    intro q Q xj j hq hj hQ
    by_cases hm : MeetsOrderTwo (bitLength j) Q
    · refine Or.inr ⟨fun h => ?_, mulPoint_panic m hD.p_ne hD.curve hD.b_ne (invert_zero m hD.curve) hq hj hm⟩
      obtain ⟨k, h1, h2⟩ := hQ h
      exact odd_order_meets h1 h2 _ hm
    · exact Or.inl (mulPoint_z m hD.p_ne hD.curve hD.b_ne hq hj hm)
  refine (hmul hR hs fun h => (hodd h).imp fun _ h => ⟨h.1, h.2.2⟩).bind fun sr hsr => ?_
  refine Settles.bind (Or.inl (hD.mul m hD.base hD.G_order heN)) fun eg heg => ?_
  refine Settles.bind (P := (PointDenotes w · (s • R + (-(e : ZMod n)).val • G))) ?_ fun q hq => ?_
  · by_cases h2 : s • R = (-(e : ZMod n)).val • G ∧ s • R ≠ 0 ∧ s • R + s • R = 0
    · refine Or.inr ⟨fun h => ?_, ?_⟩
      · obtain ⟨k, h3, -, h4⟩ := hodd h
        exact (odd_order_double h3 (hk s h4)).elim h2.2.1 (fun h => h h2.2.2)
      · rw [← h2.1] at heg
        exact addPoints_two m hD.p_ne hD.curve hD.b_ne (invert_zero m hD.curve) hsr heg h2.2.1 h2.2.2
    · exact Or.inl (hD.add m hsr heg fun h => by tauto)
  refine (hmul hq hrI fun h => (hodd h).imp fun _ h => ⟨h.1, by rw [nsmul_add, hk _ h.2.2, hk _ h.2.1, add_zero]⟩).bind fun q' hq' => ?_
  change PointDenotes w q' (cand n G e r s R) at hq'
  obtain ⟨hx, hy⟩ := point_x hq'
  by_cases hclear : Clear w n sig.params (curve (a : ZMod p) (b : ZMod p)) q'
  swap
  · unfold Clear at hclear
    push Not at hclear
    obtain ⟨h1, P, hP, hm⟩ := hclear
    have hv := validatePoint_panic (ε := ε) m hD h1 hP hm
    refine Or.inr ⟨fun h => ?_, by unfold PublicKey.new; rw [hv]; rfl⟩
    obtain ⟨k, g1, g2, g3⟩ := hodd h
    rw [denotes_unique hD.b_ne hP hq'] at hm
    exact odd_order_meets g1 (hk _ (by rw [nsmul_add, hk _ g3, hk _ g2, add_zero])) _ hm
  refine Or.inl ?_
  run (publicKeyNew_z m hD hx hy hclear) with o ho
  rcases ho with ⟨⟨P, hP, hP0, hPn⟩, rfl⟩ | ⟨hno, rfl⟩
  · obtain rfl := denotes_unique hD.b_ne hP hq'
    simp only
    run (verify_y m hD (pk := ⟨q', sig.params⟩) rfl hq' hPn he hel hr hs hr0 hs0) with ok hok
    refine .pure ?_
    cases ok
    · exact Or.inl ⟨rfl, fun hg => absurd (hok.mpr hg.2.2) (by decide)⟩
    · exact Or.inr ⟨_, rfl, ⟨rfl, hq'⟩, hP0, hPn, hok.mp rfl⟩
  · exact .pure (Or.inl ⟨rfl, fun hg => hno ⟨_, hq', hg.1, hg.2.1⟩⟩)

open Classical in
theorem recoverKeys_y {pts : List Point} {Rs : List (curve (a : ZMod p) (b : ZMod p)).Point} (h : List.Forall₂ (PointDenotes w) pts Rs) :
    Settles (∀ R ∈ Rs, cp.cofactor % 2 = 1 ∨ n • R = 0) (recoverKeys m w sig hashN eNeg rInv pts : Out ε _) (fun L =>
      List.Forall₂ (KeyIs w cp) L ((Rs.map (cand n G e r s)).filter (fun Q => decide (Good n G e r s Q)))) := by
  induction h with
  | nil => exact .pure .nil
  | cons h1 _ ih =>
    unfold recoverKeys
    refine ((recoverKey_y m hD hsig he hel hr hs hr0 hs0 heN hrI h1).mono (fun h => h _ (List.mem_cons_self ..)) fun _ h => h).bind fun o ho => ?_
    refine (ih.mono (fun h R hR => h R (List.mem_cons_of_mem _ hR)) fun _ h => h).bind fun rest hrest => ?_
    refine .pure ?_
    rw [List.map_cons]
    rcases ho with ⟨rfl, hn⟩ | ⟨pk, rfl, hk, hg⟩
    · rw [List.filter_cons_of_neg (by simpa using hn)]
      exact hrest
    · rw [List.filter_cons_of_pos (by simpa using hg)]
      exact .cons hk hrest

end

/-! ## The points with a given abscissa -/

/-- The parity of the ordinate is the one the id demands. -/
def Fits {W : WeierstrassCurve.Affine (ZMod p)} (id : Option RecoveryId) (R : W.Point) : Prop :=
  ∀ i, id = some i → idOdd i = decide (yCoord R % 2 = 1)

/-- The list of all points with abscissa `x` that fit the id. -/
def PointsAt {W : WeierstrassCurve.Affine (ZMod p)} (id : Option RecoveryId) (x : Nat) (Rs : List W.Point) : Prop :=
  Rs.Nodup ∧ ∀ R, R ∈ Rs ↔ R ≠ 0 ∧ xCoord R = x ∧ Fits id R

theorem pointsAt_none (hD : Domain w cp p n a b G) {x : ZMod p} (h : ¬ IsSquare (x ^ 3 + (a : ZMod p) * x + (b : ZMod p)))
    (id : Option RecoveryId) : PointsAt (W := curve (a : ZMod p) (b : ZMod p)) id x.val [] := by
  refine ⟨List.nodup_nil, fun R => ⟨fun h => by simp at h, ?_⟩⟩
  rintro ⟨h0, hx, -⟩
  cases R with
  | zero => exact absurd rfl h0
  | some x' y hn =>
    have : x' = x := ZMod.val_injective _ hx
    subst this
    exact absurd ⟨y, by rw [← pow_two]; exact (equation_of_nonsingular hn).symm⟩ h

theorem yParity_neg (hp2 : p ≠ 2) {y : ZMod p} (hy : y ≠ 0) : (2 ∣ ((-y).val : Int)) ↔ ¬ (2 ∣ (y.val : Int)) := by
  have hodd : p % 2 = 1 := (hpr.out.eq_two_or_odd).resolve_left hp2
  have hne : NeZero y := ⟨hy⟩
  have hv : (-y).val = p - y.val := ZMod.val_neg_of_ne_zero y
  have := ZMod.val_lt y
  rw [hv]
  omega

theorem recoveryPoints_y (hD : Domain w cp p n a b G) {xx y1 y2 : BInt} {x y : ZMod p} (hx : Denotes w xx x.val) (h1 : Res w y1 y)
    (h2 : Res w y2 (-y)) (hy : y ^ 2 = x ^ 3 + (a : ZMod p) * x + (b : ZMod p)) (hy0 : y ≠ 0) (id : Option RecoveryId) :
    (recoveryPoints xx y1 y2 id : Out ε _).Yields (fun pts => ∃ Rs : List (curve (a : ZMod p) (b : ZMod p)).Point,
      List.Forall₂ (PointDenotes w) pts Rs ∧ PointsAt id x.val Rs) := by
  have hn : (curve (a : ZMod p) (b : ZMod p)).Nonsingular x y := nonsingular_of_equation hD.p_ne hD.disc hy
  have hn' : (curve (a : ZMod p) (b : ZMod p)).Nonsingular x (-y) := nonsingular_of_equation hD.p_ne hD.disc (by rw [neg_sq]; exact hy)
  have hpar := yParity_neg hD.p_ne hy0
  have hne : y ≠ -y := by
    intro h
    rw [← h] at hpar
    tauto
  have hall : ∀ R : (curve (a : ZMod p) (b : ZMod p)).Point, (R ≠ 0 ∧ xCoord R = x.val) ↔ R = Point.some x y hn ∨ R = Point.some x (-y) hn' := by
    intro R
    constructor
    · rintro ⟨h0, hx⟩
      cases R with
      | zero => exact absurd rfl h0
      | some x' y' hn'' =>
        have : x' = x := ZMod.val_injective _ hx
        subst this
        have hsq : (y' - y) * (y' + y) = 0 := by linear_combination equation_of_nonsingular hn'' - hy
        rcases mul_eq_zero.mp hsq with h | h
        · have : y' = y := sub_eq_zero.mp h
          subst this
          exact Or.inl rfl
        · have : y' = -y := eq_neg_of_add_eq_zero_left h
          subst this
          exact Or.inr rfl
    · rintro (rfl | rfl) <;> exact ⟨WeierstrassCurve.Affine.Point.some_ne_zero _, rfl⟩
  have hd1 : PointDenotes w ⟨xx, y1⟩ (Point.some x y hn) := ⟨hx, h1⟩
  have hd2 : PointDenotes w ⟨xx, y2⟩ (Point.some x (-y) hn') := ⟨hx, h2⟩
  -- one point: the one whose parity is asked for
  have hone : ∀ (i : RecoveryId) (c : Bool), c = decide ((2 ∣ (y.val : Int)) ↔ idOdd i = false) →
      ∃ Rs : List (curve (a : ZMod p) (b : ZMod p)).Point,
      List.Forall₂ (PointDenotes w) (if c then [⟨xx, y1⟩] else [⟨xx, y2⟩]) Rs ∧ PointsAt (some i) x.val Rs := by
    intro i c hc
    have hodd : ∀ z : ZMod p, decide (z.val % 2 = 1) = !decide (2 ∣ (z.val : Int)) := by
      intro z
      rw [← decide_not]
      apply decide_eq_decide.mpr
      omega
    have f1 : Fits (some i) (Point.some x y hn) ↔ c = true := by
      unfold Fits
      simp only [Option.some.injEq, forall_eq']
      show idOdd i = decide (y.val % 2 = 1) ↔ _
      rw [hodd, hc]
      by_cases h : 2 ∣ (y.val : Int) <;> cases idOdd i <;> simp [h]
    have f2 : Fits (some i) (Point.some x (-y) hn') ↔ c = false := by
      unfold Fits
      simp only [Option.some.injEq, forall_eq']
      show idOdd i = decide ((-y).val % 2 = 1) ↔ _
      rw [hodd, hc]
      simp only [hpar]
      by_cases h : 2 ∣ (y.val : Int) <;> cases idOdd i <;> simp [h]
    cases c
    · refine ⟨[_], .cons hd2 .nil, List.nodup_singleton _, fun R => ?_⟩
      rw [List.mem_singleton, ← and_assoc, hall]
      constructor
      · rintro rfl
        exact ⟨Or.inr rfl, f2.mpr rfl⟩
      · rintro ⟨rfl | rfl, hf⟩
        · exact absurd (f1.mp hf) (by decide)
        · rfl
    · refine ⟨[_], .cons hd1 .nil, List.nodup_singleton _, fun R => ?_⟩
      rw [List.mem_singleton, ← and_assoc, hall]
      constructor
      · rintro rfl
        exact ⟨Or.inl rfl, f1.mpr rfl⟩
      · rintro ⟨rfl | rfl, hf⟩
        · rfl
        · exact absurd (f2.mp hf) (by decide)
  unfold recoveryPoints
  split
  · run (isEven_y h1) with _ rfl
    exact .pure (hone _ _ (by simp [idOdd]))
  · run (isEven_y h1) with _ rfl
    exact .pure (hone _ _ (by simp [idOdd]))
  · run (isOdd_y h1) with _ rfl
    exact .pure (hone _ _ (by simp [idOdd]))
  · run (isOdd_y h1) with _ rfl
    exact .pure (hone _ _ (by simp [idOdd]))
  · refine .pure ⟨[_, _], .cons hd1 (.cons hd2 .nil), ?_, fun R => ?_⟩
    · rw [List.nodup_cons]
      refine ⟨?_, List.nodup_singleton _⟩
      rw [List.mem_singleton]
      intro h
      injection h with _ h
      exact hne h
    · rw [← and_assoc, hall, List.mem_cons, List.mem_singleton]
      simp [Fits]

/-! ## The loop -/

/-- The points with abscissa `x` that fit the id: none of them has ordinate zero, and all of them have odd order. -/
def Tame (n : Nat) (cp : Params) (a b : ZMod p) (id : Option RecoveryId) (x : Nat) : Prop :=
  (∀ z : ZMod p, z.val = x → z ^ 3 + a * z + b ≠ 0) ∧
  ∀ R : (curve a b).Point, R ≠ 0 → xCoord R = x → Fits id R → cp.cofactor % 2 = 1 ∨ n • R = 0

theorem tame_odd (hD : Domain w cp p n a b G) (hodd : cp.cofactor % 2 = 1) (id : Option RecoveryId) (x : Nat) :
    Tame n cp (a : ZMod p) (b : ZMod p) id x :=
  ⟨fun z _ => hD.rhs_ne hodd z, fun _ _ _ _ => Or.inl hodd⟩

section
variable (hD : Domain w cp p n a b G) {sig : Signature} (hsig : sig.params = cp) {e r s : Nat} {hashN eNeg rInv : BInt}
  (he : Denotes w hashN e) (hel : bitLength e ≤ bitLength n) (hr : Denotes w sig.r r) (hs : Denotes w sig.s s) (hr0 : 0 < r)
  (hs0 : (s : ZMod n) ≠ 0) (heN : Denotes w eNeg ((-(e : ZMod n)).val : Nat)) (hrI : Denotes w rInv (((r : ZMod n)⁻¹).val : Nat))
include hD hsig he hel hr hs hr0 hs0 heN hrI

open Classical in
theorem recoverLoop_y (id : Option RecoveryId) (count : Nat) : ∀ j, j + count ≤ 2 ^ 32 + 1 →
    Settles (∀ i, j ≤ i → i < j + count → Tame n cp (a : ZMod p) (b : ZMod p) id (r + i * n))
      (recoverLoop m w sig id hashN eNeg rInv j count : Out ε _) (fun L =>
      ∃ Rs : List (curve (a : ZMod p) (b : ZMod p)).Point,
        List.Forall₂ (KeyIs w cp) L ((Rs.map (cand n G e r s)).filter (fun Q => decide (Good n G e r s Q))) ∧
        Rs.Nodup ∧ ∀ R, R ∈ Rs ↔ R ≠ 0 ∧ (∃ i, j ≤ i ∧ i < j + count ∧ xCoord R = r + i * n) ∧ Fits id R) := by
  induction count with
  | zero =>
    intro j _
    refine .pure ⟨[], .nil, List.nodup_nil, fun R => ⟨fun h => by simp at h, ?_⟩⟩
    rintro ⟨-, ⟨i, h1, h2, -⟩, -⟩
    omega
  | succ count ih =>
    intro j hj
    have hrest := (ih (j + 1) (by omega)).mono (c' := ∀ i, j ≤ i → i < j + (count + 1) → Tame n cp (a : ZMod p) (b : ZMod p) id (r + i * n))
      (fun h i h1 h2 => h i (by omega) (by omega)) fun _ h => h
    have hps := hsig
    subst hps
    unfold recoverLoop
    refine Settles.bind (Or.inl (ofNat_y (w := w) (show j < 2 ^ 128 by norm_num; omega))) fun jb hjb => ?_
    refine Settles.bind (Or.inl (mul_y m hjb hD.order)) fun jn hjn => ?_
    refine Settles.bind (Or.inl (add_y m hr hjn)) fun x hx => ?_
    refine Settles.bind (Or.inl (ge_y m hx hD.curve.p)) ?_
    rintro _ rfl
    have hx' : Denotes w x ((r + j * n : Nat) : Int) := by push_cast; exact hx
    have hnpos := hD.n_prime.pos
    by_cases hlarge : (r : Int) + j * n ≥ p
    · rw [if_pos (decide_eq_true hlarge)]
      refine .pure ⟨[], .nil, List.nodup_nil, fun R => ⟨fun h => by simp at h, ?_⟩⟩
      rintro ⟨h0, ⟨i, h1, -, h2⟩, -⟩
      cases R with
      | zero => exact absurd rfl h0
      | some x y hn =>
        have hv := ZMod.val_lt x
        change x.val = _ at h2
        have h3 : j * n ≤ i * n := Nat.mul_le_mul_right n h1
        have h4 : p ≤ r + j * n := by exact_mod_cast hlarge
        omega
    · rw [if_neg (by simpa using hlarge)]
      have hlt : r + j * n < p := by
        have := not_le.mp hlarge
        exact_mod_cast this
      have hxv : (((r + j * n : Nat) : ZMod p)).val = r + j * n := ZMod.val_natCast_of_lt hlt
      generalize hxz : ((r + j * n : Nat) : ZMod p) = xz at hxv
      rw [← hxv] at hx'
      refine Settles.bind (Or.inl (rhs_y m hD.curve.a hD.curve.b hx')) fun y2 hy2 => ?_
      refine Settles.bind (Or.inl (modulo_z m hy2 hD.curve.p)) fun y2' hy2' => ?_
      have hrhs : (((xz.val : Int) * xz.val * xz.val + a * xz.val + b : Int) : ZMod p) = xz ^ 3 + (a : ZMod p) * xz + (b : ZMod p) := by
        push_cast
        rw [ZMod.natCast_zmod_val]
        ring
      rw [hrhs] at hy2'
      by_cases hr0' : xz ^ 3 + (a : ZMod p) * xz + (b : ZMod p) = 0
      · refine Or.inr ⟨fun h => (h j (Nat.le_refl j) (by omega)).1 xz hxv hr0', ?_⟩
        rw [hr0'] at hy2'
        rw [sqrt_zero m hD.p_ne hD.curve.p (by simpa [Res] using hy2')]
        rfl
      refine Settles.bind (Or.inl (sqrt_y m hD.p_ne hD.curve.p hy2' hr0')) fun roots hroots => ?_
      -- gathers the points of this round and those of the later rounds
      have key : ∀ Rs Rs' : List (curve (a : ZMod p) (b : ZMod p)).Point, PointsAt id xz.val Rs → Rs'.Nodup →
          (∀ R, R ∈ Rs' ↔ R ≠ 0 ∧ (∃ i, j + 1 ≤ i ∧ i < j + 1 + count ∧ xCoord R = r + i * n) ∧ Fits id R) →
          (Rs ++ Rs').Nodup ∧ ∀ R, R ∈ Rs ++ Rs' ↔ R ≠ 0 ∧ (∃ i, j ≤ i ∧ i < j + (count + 1) ∧ xCoord R = r + i * n) ∧ Fits id R := by
        intro Rs Rs' h1 h2 h3
        constructor
        · rw [List.nodup_append]
          refine ⟨h1.1, h2, fun A hA B hB hAB => ?_⟩
          subst hAB
          obtain ⟨-, ⟨i, hi1, -, hi2⟩, -⟩ := (h3 A).mp hB
          obtain ⟨-, hi3, -⟩ := (h1.2 A).mp hA
          rw [hi3, hxv] at hi2
          have : j * n = i * n := by omega
          have := Nat.eq_of_mul_eq_mul_right hnpos this
          omega
        · intro R
          rw [List.mem_append, h1.2, h3]
          constructor
          · rintro (⟨q1, q2, q3⟩ | ⟨q1, ⟨i, q2, q3, q4⟩, q5⟩)
            · exact ⟨q1, ⟨j, Nat.le_refl j, by omega, by rw [q2, hxv]⟩, q3⟩
            · exact ⟨q1, ⟨i, by omega, by omega, q4⟩, q5⟩
          · rintro ⟨q1, ⟨i, q2, q3, q4⟩, q5⟩
            rcases Nat.eq_or_lt_of_le q2 with rfl | hlt
            · exact Or.inl ⟨q1, by rw [q4, hxv], q5⟩
            · exact Or.inr ⟨q1, ⟨i, by omega, by omega, q4⟩, q5⟩
      cases roots with
      | none =>
        simp only at hroots ⊢
        refine hrest.mono (fun h => h) ?_
        rintro L ⟨Rs', hL, hnd, hmem⟩
        obtain ⟨k1, k2⟩ := key [] Rs' (pointsAt_none hD hroots id) hnd hmem
        exact ⟨Rs', hL, k1, k2⟩
      | some rt =>
        obtain ⟨r1, r2⟩ := rt
        simp only at hroots ⊢
        obtain ⟨y, hy, hy1, hyn⟩ := hroots
        have hy0 : y ≠ 0 := by
          rintro rfl
          exact hr0' (by rw [← hy]; ring)
        refine Settles.bind (Or.inl (recoveryPoints_y hD hx' hy1 hyn hy hy0 id)) fun pts hpts => ?_
        obtain ⟨Rs, hf, hat⟩ := hpts
        refine ((recoverKeys_y m hD hsig he hel hr hs hr0 hs0 heN hrI hf).mono (fun h R hR => by
          obtain ⟨q1, q2, q3⟩ := (hat.2 R).mp hR
          exact (h j (Nat.le_refl j) (by omega)).2 R q1 (by rw [q2, hxv]) q3) fun _ h => h).bind fun keys hkeys => ?_
        refine hrest.bind fun rest hrest => ?_
        obtain ⟨Rs', hL, hnd, hmem⟩ := hrest
        obtain ⟨k1, k2⟩ := key Rs Rs' hat hnd hmem
        refine .pure ⟨Rs ++ Rs', ?_, k1, k2⟩
        rw [List.map_append, List.filter_append]
        exact List.rel_append hkeys hL

/-- An abscissa in the range at which the right-hand side of the curve equation vanishes makes the loop panic. -/
theorem recoverLoop_panic (id : Option RecoveryId) (count : Nat) : ∀ j i, j + count ≤ 2 ^ 32 + 1 → j ≤ i → i < j + count → r + i * n < p →
    ((r + i * n : Nat) : ZMod p) ^ 3 + (a : ZMod p) * ((r + i * n : Nat) : ZMod p) + (b : ZMod p) = 0 →
    (recoverLoop m w sig id hashN eNeg rInv j count : Out ε _) = .panic := by
  have step : ∀ {α β : Type} {c : Prop} {x : Out ε α} {f : α → Out ε β} {P : α → Prop}, Settles c x P → (∀ v, P v → f v = .panic) →
      (x >>= f) = .panic := by
    rintro α β c x f P (⟨v, rfl, hv⟩ | ⟨-, rfl⟩) h
    · exact h v hv
    · rfl
  induction count with
  | zero => intro j i _ h1 h2; omega
  | succ count ih =>
    intro j i hj h1 h2 hlt hroot
    have hps := hsig
    subst hps
    have hjn' : j * n ≤ i * n := Nat.mul_le_mul_right n h1
    have hltj : r + j * n < p := by omega
    unfold recoverLoop
    refine step (c := True) (Or.inl (ofNat_y (w := w) (show j < 2 ^ 128 by norm_num; omega))) fun jb hjb => ?_
    refine step (c := True) (Or.inl (mul_y m hjb hD.order)) fun jn hjn => ?_
    refine step (c := True) (Or.inl (add_y m hr hjn)) fun x hx => ?_
    refine step (c := True) (Or.inl (ge_y m hx hD.curve.p)) ?_
    rintro _ rfl
    have hx' : Denotes w x ((r + j * n : Nat) : Int) := by push_cast; exact hx
    have hlarge : ¬ ((r : Int) + j * n ≥ p) := by
      have : ((r + j * n : Nat) : Int) < p := by exact_mod_cast hltj
      push_cast at this
      omega
    rw [if_neg (by simpa using hlarge)]
    have hxv : (((r + j * n : Nat) : ZMod p)).val = r + j * n := ZMod.val_natCast_of_lt hltj
    generalize hxz : ((r + j * n : Nat) : ZMod p) = xz at hxv
    rw [← hxv] at hx'
    refine step (c := True) (Or.inl (rhs_y m hD.curve.a hD.curve.b hx')) fun y2 hy2 => ?_
    refine step (c := True) (Or.inl (modulo_z m hy2 hD.curve.p)) fun y2' hy2' => ?_
    have hrhs : (((xz.val : Int) * xz.val * xz.val + a * xz.val + b : Int) : ZMod p) = xz ^ 3 + (a : ZMod p) * xz + (b : ZMod p) := by
      push_cast
      rw [ZMod.natCast_zmod_val]
      ring
    rw [hrhs] at hy2'
    by_cases hr0' : xz ^ 3 + (a : ZMod p) * xz + (b : ZMod p) = 0
    · rw [hr0'] at hy2'
      rw [sqrt_zero m hD.p_ne hD.curve.p (by simpa [Res] using hy2')]
      rfl
    have hij : j ≠ i := by
      rintro rfl
      exact hr0' (by rw [← hxz]; exact hroot)
    have hrest := ih (j + 1) i (by omega) (by omega) (by omega) hlt hroot
    refine step (c := True) (Or.inl (sqrt_y m hD.p_ne hD.curve.p hy2' hr0')) fun roots hroots => ?_
    cases roots with
    | none => exact hrest
    | some rt =>
      obtain ⟨r1, r2⟩ := rt
      simp only at hroots ⊢
      obtain ⟨y, hy, hy1, hyn⟩ := hroots
      have hy0 : y ≠ 0 := by
        rintro rfl
        exact hr0' (by rw [← hy]; ring)
      refine step (c := True) (Or.inl (recoveryPoints_y hD hx' hy1 hyn hy hy0 id)) fun pts hpts => ?_
      obtain ⟨Rs, hf, hat⟩ := hpts
      refine step (recoverKeys_y m hD hsig he hel hr hs hr0 hs0 heN hrI hf) fun keys hkeys => ?_
      rw [hrest]
      rfl

end

/-! ## The whole operation -/

open Classical in
theorem recoverWithOptions_s (hD : Domain w cp p n a b G) (hcof : cp.cofactor < 2 ^ 32) {sig : Signature} (hsig : sig.params = cp) {r s : Nat}
    (hr : Denotes w sig.r r) (hs : Denotes w sig.s s) (hr0 : 0 < r) (hrn : r < n) (hs0 : 0 < s) (hsn : s < n) (hash : List UInt8)
    (id : Option RecoveryId) (o : RecoveryOptions) (h8 : o.strictHashByteLength = true → bitLength n % 8 = 0) :
    (hash = [] → recoverWithOptions m w sig hash id o = .err .EmptyHashNotAllowed) ∧
    (hash ≠ [] → o.strictHashByteLength = true → hash.length * 8 ≠ bitLength n →
      recoverWithOptions m w sig hash id o = .err .HashBitLengthDoesNotMatchBasePointOrder) ∧
    (hash ≠ [] → (o.strictHashByteLength = true → hash.length * 8 = bitLength n) →
      leadingBits (bitLength n) hash = 0 → recoverWithOptions m w sig hash id o = .err .ZeroHashNotAllowed) ∧
    (hash ≠ [] → (o.strictHashByteLength = true → hash.length * 8 = bitLength n) →
      leadingBits (bitLength n) hash ≠ 0 →
      Settles (∀ i, (recoveryBounds cp id).1 ≤ i → i ≤ (recoveryBounds cp id).2 → Tame n cp (a : ZMod p) (b : ZMod p) id (r + i * n))
      (recoverWithOptions m w sig hash id o) (fun L =>
        ∃ Rs : List (curve (a : ZMod p) (b : ZMod p)).Point,
          List.Forall₂ (KeyIs w cp) L ((Rs.map (cand n G (leadingBits (bitLength n) hash) r s)).filter
            (fun Q => decide (Good n G (leadingBits (bitLength n) hash) r s Q))) ∧
          Rs.Nodup ∧ ∀ R, R ∈ Rs ↔ R ≠ 0 ∧
            (∃ i, (recoveryBounds cp id).1 ≤ i ∧ i ≤ (recoveryBounds cp id).2 ∧ xCoord R = r + i * n) ∧ Fits id R)) := by
  have hnp : Fact n.Prime := ⟨hD.n_prime⟩
  subst hsig
  have hlen : ((if o.strictHashByteLength then hashLengthMatches m w hash.length sig.params else pure true : Out RecoveryError Bool)).Yields
      (fun len => len = true ↔ (o.strictHashByteLength = true → hash.length * 8 = bitLength n)) := by
    cases he : o.strictHashByteLength
    · exact .pure (by simp)
    · exact (hashLengthMatches_y m hD.order (h8 he)).mono (by rintro _ rfl; simp)
  obtain ⟨len, elen, hlen⟩ := hlen
  unfold recoverWithOptions
  rw [elen]
  by_cases he : hash = []
  · subst he
    refine ⟨fun _ => rfl, fun h => absurd rfl h, fun h => absurd rfl h, fun h => absurd rfl h⟩
  have h1 : failIf RecoveryError.EmptyHashNotAllowed hash.isEmpty = .ok () := by
    cases hash with
    | nil => exact absurd rfl he
    | cons _ _ => rfl
  rw [h1]
  simp only [bind_ok]
  refine ⟨fun h => absurd h he, ?_, ?_, ?_⟩
  · intro _ h h'
    have : len = false := by rw [← Bool.not_eq_true, hlen]; exact fun h3 => h' (h3 h)
    rw [this]; rfl
  all_goals
    intro _ h' h''
    rw [hlen.mpr h']
    obtain ⟨nl, e1, rfl⟩ := bitLen_y (ε := RecoveryError) m hD.order
    obtain ⟨hn, e2, hhn⟩ := fromBeBytesMaxBits_y (ε := RecoveryError) (w := w) m he (bitLength_pos hD.n_prime.pos)
    obtain ⟨z, e3, rfl⟩ := isZero_y (ε := RecoveryError) m hhn
    have e2' : (fromBeBytesMaxBits m w hash (bitLength (n : Int).natAbs) : Out RecoveryError BInt) = .ok hn := e2
    rw [e1]
    simp only [bind_ok, e2', e3]
    simp only [failIf, Bool.not_true, Bool.false_eq_true, if_false, bind_ok, decide_eq_true_iff]
  · rw [if_pos (by omega)]; rfl
  · rw [if_neg (by omega)]
    simp only [bind_ok]
    have hrz := cast_ne_zero_of_lt hr0 hrn
    refine Settles.bind (Or.inl (invert_z m hr hD.order (by simpa using hrz))) fun inv hinv => ?_
    obtain ⟨rInv, rfl, hrI⟩ := hinv
    simp only
    refine Settles.bind (Or.inl (modulo_z m (neg_d hhn) hD.order)) fun eNeg heN => ?_
    have hrI' : Denotes w rInv (((r : ZMod n)⁻¹).val : Nat) := by
      have : Denotes w rInv ((((r : Int) : ZMod n)⁻¹).val : Nat) := hrI
      simpa using this
    have heN' : Denotes w eNeg ((-((leadingBits (bitLength n) hash : Nat) : ZMod n)).val : Nat) := by
      have : Denotes w eNeg (((-((leadingBits (bitLength n) hash : Nat) : Int) : Int) : ZMod n).val : Nat) := heN
      simpa using this
    have hb : (recoveryBounds sig.params id).1 ≤ 1 ∧ (recoveryBounds sig.params id).2 ≤ sig.params.cofactor ∧
        (recoveryBounds sig.params id).1 ≤ (recoveryBounds sig.params id).2 := by
      have := hD.cofactor_pos
      cases id with
      | none => exact ⟨Nat.zero_le _, Nat.le_refl _, Nat.zero_le _⟩
      | some i => cases i <;> simp [recoveryBounds] <;> omega
    refine (recoverLoop_y m hD rfl hhn (bitLength_leadingBits hash _) hr hs hr0 (cast_ne_zero_of_lt hs0 hsn) heN' hrI' id _ _
      (by omega)).mono (fun h i h1 h2 => h i h1 (by omega)) ?_
    rintro L ⟨Rs, hL, hnd, hmem⟩
    refine ⟨Rs, hL, hnd, fun R => ?_⟩
    rw [hmem]
    have : ∀ i, (recoveryBounds sig.params id).1 ≤ i ∧ i < (recoveryBounds sig.params id).1 +
        ((recoveryBounds sig.params id).2 + 1 - (recoveryBounds sig.params id).1) ∧ xCoord R = r + i * n ↔
        (recoveryBounds sig.params id).1 ≤ i ∧ i ≤ (recoveryBounds sig.params id).2 ∧ xCoord R = r + i * n := by
      intro i
      rw [show i < (recoveryBounds sig.params id).1 +
        ((recoveryBounds sig.params id).2 + 1 - (recoveryBounds sig.params id).1) ↔ i ≤ (recoveryBounds sig.params id).2 by omega]
    simp only [this]

open Classical in
/-- Where no point of even order is met. -/
theorem recoverWithOptions_eq (hD : Domain w cp p n a b G) (hcof : cp.cofactor < 2 ^ 32) {sig : Signature} (hsig : sig.params = cp) {r s : Nat}
    (hr : Denotes w sig.r r) (hs : Denotes w sig.s s) (hr0 : 0 < r) (hrn : r < n) (hs0 : 0 < s) (hsn : s < n) (hash : List UInt8)
    (id : Option RecoveryId) (o : RecoveryOptions) (h8 : o.strictHashByteLength = true → bitLength n % 8 = 0)
    (htame : ∀ i, (recoveryBounds cp id).1 ≤ i → i ≤ (recoveryBounds cp id).2 → Tame n cp (a : ZMod p) (b : ZMod p) id (r + i * n)) :
    (hash = [] → recoverWithOptions m w sig hash id o = .err .EmptyHashNotAllowed) ∧
    (hash ≠ [] → o.strictHashByteLength = true → hash.length * 8 ≠ bitLength n →
      recoverWithOptions m w sig hash id o = .err .HashBitLengthDoesNotMatchBasePointOrder) ∧
    (hash ≠ [] → (o.strictHashByteLength = true → hash.length * 8 = bitLength n) →
      leadingBits (bitLength n) hash = 0 → recoverWithOptions m w sig hash id o = .err .ZeroHashNotAllowed) ∧
    (hash ≠ [] → (o.strictHashByteLength = true → hash.length * 8 = bitLength n) →
      leadingBits (bitLength n) hash ≠ 0 → (recoverWithOptions m w sig hash id o).Yields (fun L =>
        ∃ Rs : List (curve (a : ZMod p) (b : ZMod p)).Point,
          List.Forall₂ (KeyIs w cp) L ((Rs.map (cand n G (leadingBits (bitLength n) hash) r s)).filter
            (fun Q => decide (Good n G (leadingBits (bitLength n) hash) r s Q))) ∧
          Rs.Nodup ∧ ∀ R, R ∈ Rs ↔ R ≠ 0 ∧
            (∃ i, (recoveryBounds cp id).1 ≤ i ∧ i ≤ (recoveryBounds cp id).2 ∧ xCoord R = r + i * n) ∧ Fits id R)) :=
  have ⟨c1, c2, c3, c4⟩ := recoverWithOptions_s m hD hcof hsig hr hs hr0 hrn hs0 hsn hash id o h8
  ⟨c1, c2, c3, fun h1 h2 h3 => (c4 h1 h2 h3).yields htame⟩

/-- Recovery panics if the signature leads to an abscissa at which the right-hand side of the curve equation vanishes. -/
theorem recoverWithOptions_panic (hD : Domain w cp p n a b G) (hcof : cp.cofactor < 2 ^ 32) {sig : Signature} (hsig : sig.params = cp) {r s : Nat}
    (hr : Denotes w sig.r r) (hs : Denotes w sig.s s) (hr0 : 0 < r) (hrn : r < n) (hs0 : 0 < s) (hsn : s < n) {hash : List UInt8}
    (id : Option RecoveryId) {o : RecoveryOptions} (h8 : o.strictHashByteLength = true → bitLength n % 8 = 0) (he : hash ≠ [])
    (h' : o.strictHashByteLength = true → hash.length * 8 = bitLength n) (h'' : leadingBits (bitLength n) hash ≠ 0) {i : Nat}
    (hi1 : (recoveryBounds cp id).1 ≤ i) (hi2 : i ≤ (recoveryBounds cp id).2) (hlt : r + i * n < p)
    (hroot : ((r + i * n : Nat) : ZMod p) ^ 3 + (a : ZMod p) * ((r + i * n : Nat) : ZMod p) + (b : ZMod p) = 0) :
    recoverWithOptions m w sig hash id o = .panic := by
  have hnp : Fact n.Prime := ⟨hD.n_prime⟩
  subst hsig
  have hlen : ((if o.strictHashByteLength then hashLengthMatches m w hash.length sig.params else pure true : Out RecoveryError Bool)) =
      .ok true := by
    cases he : o.strictHashByteLength
    · rfl
    · obtain ⟨_, e, rfl⟩ := hashLengthMatches_y (ε := RecoveryError) m (len := hash.length) hD.order (h8 he)
      rw [if_pos rfl, e, decide_eq_true (h' he)]
  unfold recoverWithOptions
  rw [hlen]
  have h1 : failIf RecoveryError.EmptyHashNotAllowed hash.isEmpty = .ok () := by
    cases hash with
    | nil => exact absurd rfl he
    | cons _ _ => rfl
  rw [h1]
  obtain ⟨nl, e1, rfl⟩ := bitLen_y (ε := RecoveryError) m hD.order
  obtain ⟨hn, e2, hhn⟩ := fromBeBytesMaxBits_y (ε := RecoveryError) (w := w) m he (bitLength_pos hD.n_prime.pos)
  obtain ⟨z, e3, rfl⟩ := isZero_y (ε := RecoveryError) m hhn
  have e2' : (fromBeBytesMaxBits m w hash (bitLength (n : Int).natAbs) : Out RecoveryError BInt) = .ok hn := e2
  rw [e1]
  simp only [bind_ok, e2', e3]
  simp only [failIf, Bool.not_true, Bool.false_eq_true, if_false, bind_ok, decide_eq_true_iff]
  rw [if_neg (by omega)]
  simp only [bind_ok]
  have hrz := cast_ne_zero_of_lt hr0 hrn
  obtain ⟨inv, e4, hinv⟩ := invert_z (ε := RecoveryError) m hr hD.order (by simpa using hrz)
  obtain ⟨rInv, rfl, hrI⟩ := hinv
  obtain ⟨eNeg, e5, heN⟩ := modulo_z (ε := RecoveryError) m (neg_d hhn) hD.order
  rw [e4]
  simp only [bind_ok]
  rw [e5]
  have hrI' : Denotes w rInv (((r : ZMod n)⁻¹).val : Nat) := by
    have : Denotes w rInv ((((r : Int) : ZMod n)⁻¹).val : Nat) := hrI
    simpa using this
  have heN' : Denotes w eNeg ((-((leadingBits (bitLength n) hash : Nat) : ZMod n)).val : Nat) := by
    have : Denotes w eNeg (((-((leadingBits (bitLength n) hash : Nat) : Int) : Int) : ZMod n).val : Nat) := heN
    simpa using this
  have hb : (recoveryBounds sig.params id).1 ≤ 1 ∧ (recoveryBounds sig.params id).2 ≤ sig.params.cofactor := by
    cases id with
    | none => exact ⟨Nat.zero_le _, Nat.le_refl _⟩
    | some i => cases i <;> simp [recoveryBounds]
  exact recoverLoop_panic m hD rfl hhn (bitLength_leadingBits hash _) hr hs hr0 (cast_ne_zero_of_lt hs0 hsn) heN' hrI' id _ _ i
    (by omega) hi1 (by omega) hlt hroot

/-- What the bounds of the loop mean. -/
theorem bounds_iff (hD : Domain w cp p n a b G) (hpn : p ≤ (cp.cofactor + 1) * n) {r : Nat} (hrn : r < n) (id : Option RecoveryId)
    {R : (curve (a : ZMod p) (b : ZMod p)).Point} :
    (∃ i, (recoveryBounds cp id).1 ≤ i ∧ i ≤ (recoveryBounds cp id).2 ∧ xCoord R = r + i * n) ↔
      xCoord R % n = r ∧ ∀ i, id = some i → idHigh i = decide (n ≤ xCoord R) := by
  have hn0 := hD.n_prime.pos
  have hmod : ∀ i, xCoord R = r + i * n → xCoord R % n = r := by
    intro i h
    rw [h, Nat.add_mul_mod_self_right, Nat.mod_eq_of_lt hrn]
  have hxp : xCoord R < p := by
    cases R with
    | zero => exact hpr.out.pos
    | some x y h => exact ZMod.val_lt x
  have hdiv : xCoord R / n ≤ cp.cofactor := by
    apply Nat.le_of_lt_succ
    apply Nat.div_lt_of_lt_mul
    rw [Nat.mul_comm]
    exact Nat.lt_of_lt_of_le hxp hpn
  have hex : xCoord R % n = r → xCoord R = r + xCoord R / n * n := by
    intro h
    have := Nat.mod_add_div (xCoord R) n
    rw [h, Nat.mul_comm] at this
    exact this.symm
  have hle : ∀ i, 1 ≤ i → n ≤ i * n := fun i h => Nat.le_mul_of_pos_left n h
  have hlow : (∃ i, 0 ≤ i ∧ i ≤ 0 ∧ xCoord R = r + i * n) ↔ xCoord R % n = r ∧ ¬ n ≤ xCoord R := by
    constructor
    · rintro ⟨i, -, h1, h2⟩
      have : i = 0 := by omega
      subst this
      exact ⟨hmod 0 h2, by omega⟩
    · rintro ⟨h1, h2⟩
      refine ⟨0, Nat.le_refl _, Nat.le_refl _, ?_⟩
      rw [Nat.mod_eq_of_lt (by omega)] at h1
      omega
  have hhigh : (∃ i, 1 ≤ i ∧ i ≤ cp.cofactor ∧ xCoord R = r + i * n) ↔ xCoord R % n = r ∧ n ≤ xCoord R := by
    constructor
    · rintro ⟨i, h0, h1, h2⟩
      exact ⟨hmod i h2, by have := hle i h0; omega⟩
    · rintro ⟨h1, h2⟩
      exact ⟨_, (Nat.one_le_div_iff hn0).mpr h2, hdiv, hex h1⟩
  cases id with
  | none =>
    simp only [recoveryBounds, reduceCtorEq, false_implies, implies_true, and_true]
    constructor
    · rintro ⟨i, -, h1, h2⟩
      exact hmod i h2
    · intro h
      exact ⟨_, Nat.zero_le _, hdiv, hex h⟩
  | some i =>
    simp only [Option.some.injEq, forall_eq']
    cases i <;> simp only [recoveryBounds, idHigh]
    · rw [hlow]; simp
    · rw [hlow]; simp
    · rw [hhigh]; simp
    · rw [hhigh]; simp

end LCT.Crypto
