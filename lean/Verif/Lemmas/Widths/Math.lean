import Verif.Lemmas.Widths
import Verif.Lemmas.Math.Modular
import Verif.Props.Modular
import Verif.Props.Gcd

/-!
# Agreement of builds with different digit widths: modular arithmetic and curve points
-/

namespace LCT.Widths
open LCT.BigInt LCT.Spec LCT.Out LCT.Modular LCT.Curve
variable {ε : Type} (m : Build) (w w' : Nat) [hw : DigitWidth w] [hw' : DigitWidth w']
variable {x x' y y' z z' : BInt}

theorem modulo (hx : SameInt w w' x x') (hy : SameInt w w' y y') :
    Agree (SameInt w w') (Modular.modulo m w x y : Out ε _) (Modular.modulo m w' x' y') := by
  unfold Modular.modulo
  agree

theorem mulRem (hx : SameInt w w' x x') (hy : SameInt w w' y y') (hz : SameInt w w' z z') :
    Agree (SameInt w w') (Modular.mulRem m w x y z : Out ε _) (Modular.mulRem m w' x' y' z') := by
  unfold Modular.mulRem
  agree

macro_rules | `(tactic| agree_call) => `(tactic| (apply LCT.Widths.modulo <;> agree_arg))
macro_rules | `(tactic| agree_call) => `(tactic| (apply LCT.Widths.mulRem <;> agree_arg))

theorem powLoop (hz : SameInt w w' z z') : ∀ (fuel : Nat) (e e' b b' r r' : BInt), SameInt w w' e e' → SameInt w w' b b' → SameInt w w' r r' →
    Agree (SameInt w w') (Modular.powLoop m w z fuel e b r : Out ε _) (Modular.powLoop m w' z' fuel e' b' r') := by
  intro fuel
  induction fuel with
  | zero => intros; exact .hang
  | succ f ih =>
    intro e e' b b' r r' he hb hr
    unfold Modular.powLoop
    agree
    apply ih <;> assumption

/-- The fuel of `powLoop` does not matter once it exceeds the number of bits. -/
theorem powLoop_fuel (n : BInt) : ∀ (f f' : Nat) (e b r : BInt), WF w e → toInt w e < 2 ^ f → toInt w e < 2 ^ f' →
    (Modular.powLoop m w n (f + 1) e b r : Out ε _) = Modular.powLoop m w n (f' + 1) e b r := by
  have stop : ∀ (f f' : Nat) (e b r : BInt), WF w e → toInt w e ≤ 0 →
      (Modular.powLoop m w n (f + 1) e b r : Out ε _) = Modular.powLoop m w n (f' + 1) e b r := by
    intro f f' e b r he h
    obtain ⟨o, eo, ho⟩ := zero_y (ε := ε) w
    obtain ⟨g, eg, hg⟩ := gt_y (ε := ε) m (⟨he, rfl⟩ : Denotes w e _) ho
    have : g = false := by rw [hg]; simpa using h
    subst this
    unfold Modular.powLoop
    simp only [eo, bind_ok, eg, Bool.not_false, if_true]
  have half : ∀ {a : Int} {n : Nat}, a < 2 ^ (n + 1) → a.tdiv (2 ^ 1) < 2 ^ n := by
    intro a n h
    have hp : (0 : Int) < 2 ^ n := by positivity
    rw [_root_.pow_succ] at h
    by_cases ha : 0 ≤ a
    · rw [pow_one, Int.tdiv_eq_ediv_of_nonneg ha]; omega
    · have : a.tdiv (2 ^ 1) ≤ 0 := by
        rw [← Int.neg_nonneg, ← Int.neg_tdiv]
        exact Int.tdiv_nonneg (by omega) (by norm_num)
      omega
  intro f
  induction f with
  | zero => intro f' e b r he h _; exact stop _ _ e b r he (by simp at h; omega)
  | succ f ih =>
    intro f' e b r he h h'
    cases f' with
    | zero => exact stop _ _ e b r he (by simp at h'; omega)
    | succ f' =>
      conv_lhs => unfold Modular.powLoop
      conv_rhs => unfold Modular.powLoop
      congr 1; funext zero
      congr 1; funext pos
      split
      · rfl
      · congr 1; funext odd
        congr 1; funext r
        obtain ⟨s, es, hs⟩ := shr_y (ε := ε) m (⟨he, rfl⟩ : Denotes w e _) 1
        rw [es, bind_ok, bind_ok]
        congr 1; funext b
        refine ih f' s b r hs.1 ?_ ?_
        · rw [hs.2]; exact half h
        · rw [hs.2]; exact half h'

theorem pow (hx : SameInt w w' x x') (hy : SameInt w w' y y') (hz : SameInt w w' z z') :
    Agree (SameInt w w') (Modular.pow m w x y z : Out ε _) (Modular.pow m w' x' y' z') := by
  unfold Modular.pow
  agree
  rename_i o o' ho
  obtain ⟨e, he, he'⟩ := id hy
  have h1 := natAbs_lt_storage he
  have h2 := natAbs_lt_storage he'
  have c1 : e < 2 ^ BInt.storageBits w y := lt_of_le_of_lt Int.le_natAbs (by exact_mod_cast h1)
  have c2 : e < 2 ^ BInt.storageBits w' y' := lt_of_le_of_lt Int.le_natAbs (by exact_mod_cast h2)
  rw [← he'.2] at c2
  rw [← he.2] at c1
  have key := powLoop (ε := ε) m w w' hz (max (BInt.storageBits w y) (BInt.storageBits w' y') + 1) y y' x x' o o' hy hx ho
  rw [powLoop_fuel m w z _ (max (BInt.storageBits w y) (BInt.storageBits w' y')) y x o he.1 c1
      (lt_of_lt_of_le c1 (by gcongr; norm_num; exact Nat.le_max_left _ _)),
    powLoop_fuel m w' z' _ (max (BInt.storageBits w y) (BInt.storageBits w' y')) y' x' o' he'.1 c2
      (lt_of_lt_of_le c2 (by gcongr; norm_num; exact Nat.le_max_right _ _))]
  exact key

macro_rules | `(tactic| agree_call) => `(tactic| (apply LCT.Widths.pow <;> agree_arg))

private theorem coprime_of {a x n : Int} (h : a * x % n = 1) : IsCoprime a n := by
  refine ⟨x, -(a * x / n), ?_⟩
  have := Int.emod_add_mul_ediv (a * x) n
  rw [h] at this
  linarith

theorem invert (hx : SameInt w w' x x') (hy : SameInt w w' y y') :
    Agree (AgreeOpt (SameInt w w')) (Modular.invert m w x y : Out ε _) (Modular.invert m w' x' y') := by
  obtain ⟨a, ha, ha'⟩ := id hx
  obtain ⟨n, hn, hn'⟩ := id hy
  by_cases h1 : 1 < n
  · by_cases h0 : a % n = 0
    · rw [Props.C13_invert_zero m w x y a n ha hn h1 (Int.dvd_of_emod_eq_zero h0),
        Props.C13_invert_zero m w' x' y' a n ha' hn' h1 (Int.dvd_of_emod_eq_zero h0)]
      exact .panic
    · refine .yields (invert_y m ha hn h1 h0) (invert_y m ha' hn' h1 h0) ?_
      intro o o' ho ho'
      cases o with
      | none =>
        cases o' with
        | none => exact .none
        | some r' =>
          obtain ⟨i, _, _, _, h⟩ := ho'
          exact absurd (Int.isCoprime_iff_gcd_eq_one.mp (coprime_of h)) ho
      | some r =>
        obtain ⟨i, d, g1, g2, h⟩ := ho
        have cop := coprime_of h
        cases o' with
        | none => exact absurd (Int.isCoprime_iff_gcd_eq_one.mp cop) ho'
        | some r' =>
          obtain ⟨i', d', g1', g2', h'⟩ := ho'
          have : i = i' := by
            have hd : n ∣ a * (i - i') := by
              rw [mul_sub]
              exact Int.dvd_of_emod_eq_zero (Int.emod_eq_emod_iff_emod_sub_eq_zero.mp (h.trans h'.symm))
            have hd := cop.symm.dvd_of_dvd_mul_left hd
            have := Int.emod_eq_emod_iff_emod_sub_eq_zero.mpr (Int.emod_eq_zero_of_dvd hd)
            rwa [Int.emod_eq_of_lt g1 g2, Int.emod_eq_of_lt g1' g2'] at this
          subst this
          exact .some ⟨i, d, d'⟩
  · unfold Modular.invert
    refine (Agree.dassertM (by agree)).bind fun _ _ _ => ?_
    refine (Agree.dassertM (by agree)).bind fun _ _ _ => ?_
    refine (modulo m w w' hx hy).bind fun r r' hr => ?_
    obtain ⟨b, hb, hb'⟩ := hr
    obtain ⟨k, hk, rfl⟩ := id hw.bytes
    obtain ⟨k', hk', rfl⟩ := id hw'.bytes
    rw [Props.C11_precondition m k hk y r n b hn hb (by omega), Props.C11_precondition m k' hk' y' r' n b hn' hb' (by omega)]
    exact .panic

macro_rules | `(tactic| agree_call) => `(tactic| (with_reducible apply LCT.Widths.invert <;> agree_arg))

theorem nonResidueLoop (hy : SameInt w w' y y') {o o' t1 t1' t2 t2' : BInt} (ho : SameInt w w' o o') (h1 : SameInt w w' t1 t1')
    (h2 : SameInt w w' t2 t2') : ∀ (fuel : Nat) (n n' : BInt), SameInt w w' n n' →
    Agree (SameInt w w') (Modular.nonResidueLoop m w y o t1 t2 fuel n : Out ε _) (Modular.nonResidueLoop m w' y' o' t1' t2' fuel n') := by
  intro fuel
  induction fuel with
  | zero => intros; exact .hang
  | succ f ih =>
    intro n n' hn
    unfold Modular.nonResidueLoop
    agree
    apply ih; assumption

omit hw in
theorem nonResidueLoop_mono {o t1 t2 : BInt} : ∀ (f f' : Nat) (n : BInt), f ≤ f' →
    (Modular.nonResidueLoop m w y o t1 t2 f n : Out ε _) ≠ .hang →
    (Modular.nonResidueLoop m w y o t1 t2 f' n : Out ε _) = Modular.nonResidueLoop m w y o t1 t2 f n := by
  intro f
  induction f with
  | zero => intro f' n _ h; exact absurd rfl h
  | succ f ih =>
    intro f' n hf h
    obtain ⟨f', rfl⟩ : ∃ g, f' = g + 1 := ⟨f' - 1, by omega⟩
    unfold Modular.nonResidueLoop at h ⊢
    cases e1 : (Modular.pow m w n t1 y : Out ε _) with
    | ok t =>
      rw [e1] at h
      simp only [bind_ok] at h ⊢
      cases e2 : (BInt.beq m t t2 : Out ε _) with
      | ok b =>
        rw [e2] at h
        simp only [bind_ok] at h ⊢
        cases b with
        | true => rfl
        | false =>
          simp only [Bool.false_eq_true, if_false] at h ⊢
          cases e3 : (BInt.add m w n o : Out ε _) with
          | ok n2 =>
            rw [e3] at h
            exact ih f' n2 (by omega) h
          | err _ => rfl
          | panic => rfl
          | hang => rfl
      | err _ => rfl
      | panic => rfl
      | hang => rfl
    | err _ => rfl
    | panic => rfl
    | hang => rfl

/-- In release builds the search is stopped exactly if none of the numbers tried is what is looked for. -/
theorem nonResidueLoop_release {o t1 t2 : BInt} {p t : Int} {h : Nat} (hp : Denotes w y p) (hp1 : 1 < p) (ho : Denotes w o 1)
    (h1 : Denotes w t1 h) (h2 : Denotes w t2 t) : ∀ (f : Nat) (n : BInt) (i : Nat), Denotes w n i →
    ((Modular.nonResidueLoop .release w y o t1 t2 f n : Out ε _) = .hang ↔ ∀ j, i ≤ j → j < i + f → (j : Int) ^ h % p ≠ t) := by
  intro f
  induction f with
  | zero => intro n i _; exact ⟨fun _ j h1 h2 => by omega, fun _ => rfl⟩
  | succ f ih =>
    intro n i hn
    unfold Modular.nonResidueLoop
    obtain ⟨v, ev, hv⟩ := pow_y (ε := ε) .release hn h1 hp hp1 (.inl ⟨rfl, by omega⟩)
    obtain ⟨b, eb, hb⟩ := beq_y (ε := ε) .release hv h2
    obtain ⟨n2, en, hn2⟩ := add_y (ε := ε) .release hn ho
    rw [ev, bind_ok, eb, bind_ok]
    by_cases hf : (i : Int) ^ h % p = t
    · have : b = true := by rw [hb]; simpa using hf
      subst this
      simp only [if_true]
      exact ⟨fun h => (nomatch h), fun H => absurd hf (H i (by omega) (by omega))⟩
    · have : b = false := by rw [hb]; simpa using hf
      subst this
      simp only [Bool.false_eq_true, if_false]
      rw [en, bind_ok, ih n2 (i + 1) (by exact_mod_cast hn2)]
      constructor
      · intro H j g1 g2
        by_cases hj : j = i
        · subst hj; exact hf
        · exact H j (by omega) (by omega)
      · intro H j g1 g2
        exact H j (by omega) (by omega)

/-- In debug builds the search ends: `pow` panics when the modulus is reached. -/
theorem nonResidueLoop_debug {o t1 t2 : BInt} {p t : Int} {h : Nat} (hp : Denotes w y p) (hp1 : 1 < p) (ho : Denotes w o 1)
    (h1 : Denotes w t1 h) (h2 : Denotes w t2 t) : ∀ (f : Nat) (n : BInt) (i : Nat), Denotes w n i → 1 ≤ i → 1 ≤ f → p < i + f →
    (Modular.nonResidueLoop .debug w y o t1 t2 f n : Out ε _) ≠ .hang := by
  intro f
  induction f with
  | zero => intro n i _ _ h; omega
  | succ f ih =>
    intro n i hn hi _ hpf
    unfold Modular.nonResidueLoop
    by_cases hip : (i : Int) < p
    · obtain ⟨v, ev, hv⟩ := pow_y (ε := ε) .debug hn h1 hp hp1 (.inr ⟨by omega, hip⟩)
      obtain ⟨b, eb, hb⟩ := beq_y (ε := ε) .debug hv h2
      obtain ⟨n2, en, hn2⟩ := add_y (ε := ε) .debug hn ho
      rw [ev, bind_ok, eb, bind_ok]
      cases b with
      | true => intro h; cases h
      | false =>
        simp only [Bool.false_eq_true, if_false]
        rw [en, bind_ok]
        exact ih n2 (i + 1) (by exact_mod_cast hn2) (by omega) (by omega) (by omega)
    · have : (Modular.pow .debug w n t1 y : Out ε _) = .panic := by
        unfold Modular.pow
        obtain ⟨z, ez, hz⟩ := zero_y (ε := ε) w
        obtain ⟨g, eg, hg⟩ := gt_y (ε := ε) .debug hn hz
        obtain ⟨l, el, hl⟩ := lt_y (ε := ε) .debug hn hp
        have : l = false := by rw [hl]; simpa using hip
        subst this
        have : g = true := by rw [hg]; exact decide_eq_true (by omega)
        subst this
        simp only [Modular.dassertM, ez, bind_ok, eg, el]
        rfl
      rw [this]
      intro h; cases h

/-- The fuel of the search for a non-residue does not matter once it reaches the modulus. -/
theorem nonResidueLoop_fuel {o t1 t2 n : BInt} {p t : Int} {h : Nat} (hp : Denotes w y p) (hp1 : 1 < p) (ho : Denotes w o 1)
    (h1 : Denotes w t1 h) (h2 : Denotes w t2 t) (hn : Denotes w n 2) {f f' : Nat} (hf : p ≤ f) (hff : f ≤ f') :
    (Modular.nonResidueLoop m w y o t1 t2 f' n : Out ε _) = Modular.nonResidueLoop m w y o t1 t2 f n := by
  by_cases hh : (Modular.nonResidueLoop m w y o t1 t2 f n : Out ε _) = .hang
  · cases m with
    | debug => exact absurd hh (nonResidueLoop_debug w hp hp1 ho h1 h2 f n 2 hn (by omega) (by omega) (by omega))
    | release =>
      rw [hh]
      rw [nonResidueLoop_release w hp hp1 ho h1 h2 f n 2 hn] at hh
      rw [nonResidueLoop_release w hp hp1 ho h1 h2 f' n 2 hn]
      intro j _ _
      obtain ⟨i, hi, g1, g2⟩ : ∃ i : Nat, (i : Int) % p = j % p ∧ 2 ≤ i ∧ i < 2 + f := by
        have b1 := Int.emod_nonneg j (show p ≠ 0 by omega)
        have b2 := Int.emod_lt_of_pos j (show 0 < p by omega)
        by_cases hj : (j : Int) % p < 2
        · refine ⟨((j : Int) % p + p).toNat, ?_, by omega, by omega⟩
          rw [Int.toNat_of_nonneg (by omega), Int.add_emod_right, Int.emod_emod_of_dvd _ (dvd_refl p)]
        · refine ⟨((j : Int) % p).toNat, ?_, by omega, by omega⟩
          rw [Int.toNat_of_nonneg (by omega), Int.emod_emod_of_dvd _ (dvd_refl p)]
      have := hh i g1 g2
      rwa [← (show (i : Int) ^ h % p = (j : Int) ^ h % p from (Int.ModEq.pow h hi))]
  · exact nonResidueLoop_mono m w f f' n hff hh

theorem leastM (hy : SameInt w w' y y') {o o' : BInt} (ho : SameInt w w' o o') (r : Nat) : ∀ (fuel count : Nat) (t t' : BInt), SameInt w w' t t' →
    Agree Eq (Modular.leastM m w y o r fuel count t : Out ε _) (Modular.leastM m w' y' o' r fuel count t') := by
  intro fuel
  induction fuel with
  | zero => intros; exact .hang
  | succ f ih =>
    intro count t t' ht
    unfold Modular.leastM
    agree
    apply ih; assumption

theorem oneShl (n : Nat) : Agree (SameInt w w') (Modular.oneShl w n : Out ε _) (Modular.oneShl w' n) := by
  unfold Modular.oneShl
  obtain ⟨o, e, h⟩ := one_y (ε := ε) w
  obtain ⟨o', e', h'⟩ := one_y (ε := ε) w'
  rw [e, e', bind_ok, bind_ok]
  exact shl w w' ⟨1, h, h'⟩ n (.inl (by rw [h.2]; decide))

macro_rules | `(tactic| agree_call) => `(tactic| (with_reducible apply LCT.Widths.leastM <;> agree_arg))
macro_rules | `(tactic| agree_call) => `(tactic| (with_reducible apply LCT.Widths.oneShl))

theorem sqrtLoop (hy : SameInt w w' y y') {o o' : BInt} (ho : SameInt w w' o o') : ∀ (fuel : Nat) (a a' b b' g g' : BInt) (r : Nat),
    SameInt w w' a a' → SameInt w w' b b' → SameInt w w' g g' →
    Agree (fun z z' => SameInt w w' z.1 z'.1 ∧ SameInt w w' z.2 z'.2) (Modular.sqrtLoop m w y o fuel a b g r : Out ε _)
      (Modular.sqrtLoop m w' y' o' fuel a' b' g' r) := by
  intro fuel
  induction fuel with
  | zero => intros; exact .hang
  | succ f ih =>
    intro a a' b b' g g' r ha hb hg
    unfold Modular.sqrtLoop
    agree
    · exact .pure ⟨ha, by assumption⟩
    · apply ih <;> assumption

theorem sqrt_small {p : Int} (hp : Denotes w y p) (h : ¬ 2 < p) : (Modular.sqrt m w x y : Out ε _) = .panic := by
  unfold Modular.sqrt Modular.sqrtWithin
  obtain ⟨z, ez, hz⟩ := zero_y (ε := ε) w
  obtain ⟨o, eo, ho⟩ := one_y (ε := ε) w
  obtain ⟨t, et, ht⟩ := ofInt_y (ε := ε) w 2 (by norm_num) (by norm_num)
  obtain ⟨g, eg, hg⟩ := gt_y (ε := ε) m hp ht
  have : g = false := by rw [hg]; simpa using h
  subst this
  obtain ⟨k, hk, rfl⟩ := id hw.bytes
  rw [ez, bind_ok, eo, bind_ok, et, bind_ok, (Props.C10_parity k hk _ _ hp).2, bind_ok]
  by_cases hq : p % 2 = 1 <;> simp [rassert, eg, hq]

theorem sqrt (hx : SameInt w w' x x') (hy : SameInt w w' y y') :
    Agree (AgreeOpt fun z z' => SameInt w w' z.1 z'.1 ∧ SameInt w w' z.2 z'.2) (Modular.sqrt m w x y : Out ε _) (Modular.sqrt m w' x' y') := by
  obtain ⟨p, hp, hp'⟩ := id hy
  by_cases hp2 : 2 < p
  · unfold Modular.sqrt Modular.sqrtWithin
    refine (zero' w w').bind fun z z' hz => ?_
    refine (Agree.yields (R := fun a b => Denotes w a 1 ∧ Denotes w' b 1) (one_y w) (one_y w') fun _ _ h h' => ⟨h, h'⟩).bind fun o o' ho => ?_
    have ho1 : SameInt w w' o o' := ⟨1, ho⟩
    refine (Agree.yields (R := fun a b => Denotes w a 2 ∧ Denotes w' b 2) (ofInt_y w 2 (by norm_num) (by norm_num))
      (ofInt_y w' 2 (by norm_num) (by norm_num)) fun _ _ h h' => ⟨h, h'⟩).bind fun two two' htwo => ?_
    have htwo1 : SameInt w w' two two' := ⟨2, htwo⟩
    iterate 8 agree_step
    refine (Agree.yields (R := fun a b => Denotes w a (p - 1) ∧ Denotes w' b (p - 1)) (sub_y m hp ho.1) (sub_y m hp' ho.2)
      fun _ _ h h' => ⟨h, h'⟩).bind fun p1 p1' hp1 => ?_
    have hp11 : SameInt w w' p1 p1' := ⟨_, hp1⟩
    iterate 4 agree_step
    · exact .pure .none
    · iterate 2 agree_step
      refine (Agree.yields (R := fun a b => Denotes w a 2 ∧ Denotes w' b 2) (ofInt_y w 2 (by norm_num) (by norm_num))
        (ofInt_y w' 2 (by norm_num) (by norm_num)) fun _ _ h h' => ⟨h, h'⟩).bind fun n n' hn => ?_
      have hn1 : SameInt w w' n n' := ⟨2, hn⟩
      refine (Agree.yields (R := fun a b => Denotes w a ((p - 1).tdiv 2) ∧ Denotes w' b ((p - 1).tdiv 2)) (div_y m hp1.1 htwo.1 (by norm_num))
        (div_y m hp1.2 htwo.2 (by norm_num)) fun _ _ h h' => ⟨h, h'⟩).bind fun t1 t1' ht1 => ?_
      have ht11 : SameInt w w' t1 t1' := ⟨_, ht1⟩
      obtain ⟨h, hh⟩ : ∃ h : Nat, (p - 1).tdiv 2 = h :=
        ⟨((p - 1).tdiv 2).toNat, (Int.toNat_of_nonneg (Int.tdiv_nonneg (by omega) (by norm_num))).symm⟩
      rw [hh] at ht1
      agree_step
      refine Agree.bind (modulo m w w' (by assumption) hy) fun t2 t2' ht2 => ?_
      obtain ⟨t, ht, ht'⟩ := id ht2
      have key : Agree (SameInt w w') (Modular.nonResidueLoop m w y o t1 t2 (2 ^ BInt.storageBits w y) n : Out ε _)
          (Modular.nonResidueLoop m w' y' o' t1' t2' (2 ^ BInt.storageBits w' y') n') := by
        have c1 : p ≤ (2 ^ BInt.storageBits w y : Nat) := le_trans Int.le_natAbs (by exact_mod_cast (natAbs_lt_storage hp).le)
        have c2 : p ≤ (2 ^ BInt.storageBits w' y' : Nat) := le_trans Int.le_natAbs (by exact_mod_cast (natAbs_lt_storage hp').le)
        rw [← nonResidueLoop_fuel m w hp (by omega) ho.1 ht1.1 ht hn.1 c1 (Nat.le_max_left _ (2 ^ BInt.storageBits w' y')),
          ← nonResidueLoop_fuel m w' hp' (by omega) ho.2 ht1.2 ht' hn.2 c2 (Nat.le_max_right (2 ^ BInt.storageBits w y) _)]
        exact nonResidueLoop m w w' hy ho1 ht11 ht2 _ n n' hn1
      refine key.bind fun nr nr' hnr => ?_
      iterate 5 agree_step
      refine (sqrtLoop m w w' hy ho1 _ _ _ _ _ _ _ _ (by assumption) (by assumption) (by assumption)).bind fun q q' hq => ?_
      exact .pure (.some hq)
  · rw [sqrt_small m w hp hp2, sqrt_small m w' hp' hp2]
    exact .panic

macro_rules | `(tactic| agree_call) => `(tactic| (with_reducible apply LCT.Widths.sqrt <;> agree_arg))

/-! ## Points -/

variable {a a' b b' : Point} {c c' : Curve}

omit hw hw' in
theorem isIdentity (ha : SamePoint w w' a a') : Agree Eq (a.isIdentity m : Out ε _) (a'.isIdentity m) := by
  unfold Point.isIdentity
  agree

theorem identity : Agree (SamePoint w w') (Point.identity w : Out ε _) (Point.identity w') := by
  unfold Point.identity
  agree

omit hw hw' in
theorem pointBeq (ha : SamePoint w w' a a') (hb : SamePoint w w' b b') : Agree Eq (Point.beq m a b : Out ε _) (Point.beq m a' b') := by
  unfold Point.beq
  agree

theorem inRange (hx : SameInt w w' x x') (hy : SameInt w w' y y') : Agree Eq (Curve.inRange m w x y : Out ε _) (Curve.inRange m w' x' y') := by
  unfold Curve.inRange
  agree

theorem invertUnwrap (hx : SameInt w w' x x') (hy : SameInt w w' y y') :
    Agree (SameInt w w') (Curve.invertUnwrap m w x y : Out ε _) (Curve.invertUnwrap m w' x' y') := by
  unfold Curve.invertUnwrap
  agree

macro_rules | `(tactic| agree_call) => `(tactic| (with_reducible apply LCT.Widths.isIdentity; agree_arg))
macro_rules | `(tactic| agree_call) => `(tactic| (with_reducible apply LCT.Widths.identity))
macro_rules | `(tactic| agree_call) => `(tactic| (with_reducible apply LCT.Widths.pointBeq <;> agree_arg))
macro_rules | `(tactic| agree_call) => `(tactic| (with_reducible apply LCT.Widths.inRange <;> agree_arg))
macro_rules | `(tactic| agree_call) => `(tactic| (with_reducible apply LCT.Widths.invertUnwrap <;> agree_arg))

theorem thirdPoint (hc : SameCurve w w' c c') (ha : SamePoint w w' a a') (hx : SameInt w w' x x') (hy : SameInt w w' y y') :
    Agree (SamePoint w w') (Curve.thirdPoint m w c a x y : Out ε _) (Curve.thirdPoint m w' c' a' x' y') := by
  unfold Curve.thirdPoint
  agree

macro_rules | `(tactic| agree_call) => `(tactic| (with_reducible apply LCT.Widths.thirdPoint <;> agree_arg))

theorem doublePoint (hc : SameCurve w w' c c') (ha : SamePoint w w' a a') :
    Agree (SamePoint w w') (Curve.doublePoint m w c a : Out ε _) (Curve.doublePoint m w' c' a') := by
  unfold Curve.doublePoint
  agree

theorem chord (hc : SameCurve w w' c c') (ha : SamePoint w w' a a') (hb : SamePoint w w' b b') :
    Agree (SamePoint w w') (Curve.chord m w c a b : Out ε _) (Curve.chord m w' c' a' b') := by
  unfold Curve.chord
  agree

macro_rules | `(tactic| agree_call) => `(tactic| (with_reducible apply LCT.Widths.doublePoint <;> agree_arg))
macro_rules | `(tactic| agree_call) => `(tactic| (with_reducible apply LCT.Widths.chord <;> agree_arg))

theorem addPoints (hc : SameCurve w w' c c') (ha : SamePoint w w' a a') (hb : SamePoint w w' b b') :
    Agree (SamePoint w w') (Curve.addPoints m w c a b : Out ε _) (Curve.addPoints m w' c' a' b') := by
  unfold Curve.addPoints
  agree

macro_rules | `(tactic| agree_call) => `(tactic| (with_reducible apply LCT.Widths.addPoints <;> agree_arg))

theorem mulLoop (hc : SameCurve w w' c c') : ∀ (bits : List Bool) (a a' b b' : Point), SamePoint w w' a a' → SamePoint w w' b b' →
    Agree (SamePoint w w') (Curve.mulLoop m w c bits a b : Out ε _) (Curve.mulLoop m w' c' bits a' b') := by
  intro bits
  induction bits with
  | nil => intro a a' b b' ha hb; exact .pure hb
  | cons bit bits ih =>
    intro a a' b b' ha hb
    unfold Curve.mulLoop
    agree
    apply ih <;> assumption

macro_rules | `(tactic| agree_call) => `(tactic| (with_reducible apply LCT.Widths.mulLoop <;> agree_arg))

theorem mulPoint (hc : SameCurve w w' c c') (ha : SamePoint w w' a a') (hx : SameInt w w' x x') :
    Agree (SamePoint w w') (Curve.mulPoint m w c a x : Out ε _) (Curve.mulPoint m w' c' a' x') := by
  unfold Curve.mulPoint
  agree

macro_rules | `(tactic| agree_call) => `(tactic| (with_reducible apply LCT.Widths.mulPoint <;> agree_arg))

end LCT.Widths
