import Verif.Spec.Equality
import Verif.Lemmas.Widths.Programs

/-!
# `==` answers whether two values are the same
-/

namespace LCT.Spec
open LCT.BigInt LCT.Out LCT.Curve LCT.Crypto
variable (m : Build) (w : Nat)

theorem answers_and {x y : Out Unit Bool} {P Q : Prop} (hx : Answers x P) (hy : Answers y Q) : Answers (.andAlso x y) (P ∧ Q) := by
  obtain ⟨b, rfl, hb⟩ := hx
  obtain ⟨c, rfl, hc⟩ := hy
  cases b with
  | true => exact ⟨c, rfl, by rw [hc]; exact ⟨fun h => ⟨hb.mp rfl, h⟩, fun h => h.2⟩⟩
  | false => exact ⟨false, rfl, fun h => (nomatch h), fun h => absurd (hb.mpr h.1) Bool.false_ne_true⟩

theorem answers_congr {x : Out Unit Bool} {P Q : Prop} (hx : Answers x P) (h : P ↔ Q) : Answers x Q := by
  obtain ⟨b, e, hb⟩ := hx
  exact ⟨b, e, hb.trans h⟩

theorem Answers.iff {x : Out Unit Bool} {P : Prop} (hx : Answers x P) : x = .ok true ↔ P := by
  obtain ⟨b, rfl, hb⟩ := hx
  exact ⟨fun h => hb.mp (by injection h), fun h => by rw [hb.mpr h]⟩

theorem answers_int (x y : BInt) (hx : SameInt w w x x) (hy : SameInt w w y y) : Answers (BInt.beq m x y) (SameInt w w x y) := by
  obtain ⟨a, hx, -⟩ := hx
  obtain ⟨b, hy, -⟩ := hy
  refine ⟨_, (by rw [beq_spec m hx.1 hy.1, hx.2, hy.2]), ?_⟩
  rw [decide_eq_true_iff]
  constructor
  · rintro rfl
    exact ⟨a, hx, hy⟩
  · rintro ⟨c, hx', hy'⟩
    rw [← hx.2, hx'.2, ← hy.2, hy'.2]

theorem answers_point (a b : Point) (ha : SamePoint w w a a) (hb : SamePoint w w b b) : Answers (Point.beq m a b) (SamePoint w w a b) :=
  answers_congr (answers_and (answers_int m w _ _ ha.x hb.x) (answers_int m w _ _ ha.y hb.y)) ⟨fun h => ⟨h.1, h.2⟩, fun h => ⟨h.1, h.2⟩⟩

theorem answers_curve (c d : Curve) (hc : SameCurve w w c c) (hd : SameCurve w w d d) : Answers (Curve.beq m c d) (SameCurve w w c d) :=
  answers_congr (answers_and (answers_int m w _ _ hc.a hd.a) (answers_and (answers_int m w _ _ hc.b hd.b) (answers_int m w _ _ hc.p hd.p)))
    ⟨fun h => ⟨h.1, h.2.1, h.2.2⟩, fun h => ⟨h.1, h.2, h.3⟩⟩

theorem answers_params (c d : Params) (hc : SameParams w w c c) (hd : SameParams w w d d) : Answers (Params.beq m c d) (SameParams w w c d) :=
  answers_congr (answers_and (answers_curve m w _ _ hc.curve hd.curve) (answers_and (answers_point m w _ _ hc.basePoint hd.basePoint)
    (answers_and (answers_int m w _ _ hc.order hd.order) (Q := c.cofactor = d.cofactor) ⟨_, rfl, beq_iff_eq⟩)))
    ⟨fun h => ⟨h.1, h.2.1, h.2.2.1, h.2.2.2⟩, fun h => ⟨h.1, h.2, h.3, h.4⟩⟩

theorem answers_public (k l : PublicKey) (hk : SamePublic w w k k) (hl : SamePublic w w l l) : Answers (PublicKey.beq m k l) (SamePublic w w k l) :=
  answers_congr (answers_and (answers_point m w _ _ hk.data hl.data) (answers_params m w _ _ hk.params hl.params))
    ⟨fun h => ⟨h.1, h.2⟩, fun h => ⟨h.1, h.2⟩⟩

section
variable {w}

theorem SameInt.left {x y : BInt} (h : SameInt w w x y) : SameInt w w x x := ⟨_, h.choose_spec.1, h.choose_spec.1⟩
theorem SameInt.right {x y : BInt} (h : SameInt w w x y) : SameInt w w y y := ⟨_, h.choose_spec.2, h.choose_spec.2⟩
theorem SamePoint.left {x y : Point} (h : SamePoint w w x y) : SamePoint w w x x := ⟨SameInt.left h.x, SameInt.left h.y⟩
theorem SamePoint.right {x y : Point} (h : SamePoint w w x y) : SamePoint w w y y := ⟨SameInt.right h.x, SameInt.right h.y⟩
theorem SameCurve.left {x y : Curve} (h : SameCurve w w x y) : SameCurve w w x x := ⟨SameInt.left h.a, SameInt.left h.b, SameInt.left h.p⟩
theorem SameCurve.right {x y : Curve} (h : SameCurve w w x y) : SameCurve w w y y := ⟨SameInt.right h.a, SameInt.right h.b, SameInt.right h.p⟩
theorem SameParams.left {x y : Params} (h : SameParams w w x y) : SameParams w w x x :=
  ⟨SameCurve.left h.curve, SamePoint.left h.basePoint, SameInt.left h.order, rfl⟩
theorem SameParams.right {x y : Params} (h : SameParams w w x y) : SameParams w w y y :=
  ⟨SameCurve.right h.curve, SamePoint.right h.basePoint, SameInt.right h.order, rfl⟩
theorem SamePublic.left {x y : PublicKey} (h : SamePublic w w x y) : SamePublic w w x x := ⟨SamePoint.left h.data, SameParams.left h.params⟩
theorem SamePublic.right {x y : PublicKey} (h : SamePublic w w x y) : SamePublic w w y y := ⟨SamePoint.right h.data, SameParams.right h.params⟩

theorem SameInt.equal {x y : BInt} (h : SameInt w w x y) : EqualInt m x y := (answers_int m w x y (SameInt.left h) (SameInt.right h)).iff.mpr h
theorem SamePoint.equal {x y : Point} (h : SamePoint w w x y) : EqualPoint m x y := (answers_point m w x y (SamePoint.left h) (SamePoint.right h)).iff.mpr h
theorem SameParams.equal {x y : Params} (h : SameParams w w x y) : EqualParams m x y :=
  (answers_params m w x y (SameParams.left h) (SameParams.right h)).iff.mpr h
theorem SamePublic.equal {x y : PublicKey} (h : SamePublic w w x y) : EqualPublic m x y :=
  (answers_public m w x y (SamePublic.left h) (SamePublic.right h)).iff.mpr h

end


theorem SameInt.symm {w : Nat} {x y : BInt} (h : SameInt w w x y) : SameInt w w y x := ⟨_, h.choose_spec.2, h.choose_spec.1⟩
theorem SameInt.trans {w : Nat} {x y z : BInt} (h : SameInt w w x y) (h' : SameInt w w y z) : SameInt w w x z := by
  obtain ⟨a, hx, hy⟩ := h
  obtain ⟨b, hy', hz⟩ := h'
  exact ⟨a, hx, hz.1, by rw [hz.2, ← hy'.2, hy.2]⟩
theorem SamePoint.symm {w : Nat} {x y : Point} (h : SamePoint w w x y) : SamePoint w w y x := ⟨h.x.symm, h.y.symm⟩
theorem SamePoint.trans {w : Nat} {x y z : Point} (h : SamePoint w w x y) (h' : SamePoint w w y z) : SamePoint w w x z :=
  ⟨h.x.trans h'.x, h.y.trans h'.y⟩
theorem SameParams.symm {w : Nat} {x y : Params} (h : SameParams w w x y) : SameParams w w y x :=
  ⟨⟨h.curve.a.symm, h.curve.b.symm, h.curve.p.symm⟩, h.basePoint.symm, h.order.symm, h.cofactor.symm⟩
theorem SameParams.trans {w : Nat} {x y z : Params} (h : SameParams w w x y) (h' : SameParams w w y z) : SameParams w w x z :=
  ⟨⟨h.curve.a.trans h'.curve.a, h.curve.b.trans h'.curve.b, h.curve.p.trans h'.curve.p⟩, h.basePoint.trans h'.basePoint,
    h.order.trans h'.order, h.cofactor.trans h'.cofactor⟩
theorem SamePublic.symm {w : Nat} {x y : PublicKey} (h : SamePublic w w x y) : SamePublic w w y x := ⟨h.data.symm, h.params.symm⟩
theorem SamePublic.trans {w : Nat} {x y z : PublicKey} (h : SamePublic w w x y) (h' : SamePublic w w y z) : SamePublic w w x z :=
  ⟨h.data.trans h'.data, h.params.trans h'.params⟩

/-- Spare storage does not matter. -/
theorem Denotes.spare {w : Nat} {x : BInt} {a : Int} (h : Denotes w x a) : Denotes w { x with storage := x.storage ++ [0] } a := by
  obtain ⟨⟨h1, h2, h3, h4, h5⟩, rfl⟩ := h
  refine ⟨⟨?_, h2, ?_, ?_, ?_⟩, ?_⟩
  · intro d hd
    rcases List.mem_append.mp hd with hd | hd
    · exact h1 d hd
    · rw [List.mem_singleton.mp hd]; exact Nat.two_pow_pos w
  · simp; omega
  · refine h4.imp_right fun h => ?_
    dsimp only
    rwa [List.getD_eq_getElem?_getD, List.getElem?_append_left (by omega), ← List.getD_eq_getElem?_getD]
  · intro d hd
    rw [List.drop_append_of_le_length h3] at hd
    rcases List.mem_append.mp hd with hd | hd
    · exact h5 d hd
    · exact List.mem_singleton.mp hd
  · unfold toInt
    simp only [List.take_append_of_le_length h3]

theorem AgreeOpt.mono {α β : Type} {R S : α → β → Prop} {x : Option α} {y : Option β} (hRS : ∀ a b, R a b → S a b)
    (h : AgreeOpt R x y) : AgreeOpt S x y := by
  cases h with
  | some h => exact .some (hRS _ _ h)
  | none => exact .none

end LCT.Spec
