import Verif.Basic

/-!
# Debug and release builds, compared

A function of the build is monotone if whatever it gives in a debug build, other than a panic, it gives in a release build as well.
-/

namespace LCT
open Lean.Order

/-- A panic is below every outcome; otherwise only equal outcomes are comparable. -/
instance Out.order {ε α : Type} : PartialOrder (Out ε α) where
  rel x y := x = .panic ∨ x = y
  rel_refl := .inr rfl
  rel_trans := by
    rintro x y z (rfl | rfl) h
    · exact .inl rfl
    · exact h
  rel_antisymm := by
    rintro x y (rfl | rfl) (h | h)
    · exact h.symm
    · exact h.symm
    · rfl
    · rfl

/-- The debug build is below the release build. -/
instance Build.order : PartialOrder Build where
  rel x y := x = .debug ∨ x = y
  rel_refl := .inr rfl
  rel_trans := by
    rintro x y z (rfl | rfl) h
    · exact .inl rfl
    · exact h
  rel_antisymm := by
    rintro x y (rfl | rfl) (h | h)
    · exact h.symm
    · exact h.symm
    · rfl
    · rfl

instance {ε : Type} : MonoBind (Out ε) where
  bind_mono_left := by
    rintro α β x y f (rfl | rfl)
    · exact .inl rfl
    · exact .inr rfl
  bind_mono_right := by
    intro α β x f g h
    cases x with
    | ok a => exact h a
    | err e => exact .inr rfl
    | panic => exact .inl rfl
    | hang => exact .inr rfl

namespace Mono

theorem iff {ε α : Type} {f : Build → Out ε α} : monotone f ↔ (f .debug = .panic ∨ f .debug = f .release) := by
  constructor
  · intro h
    exact h .debug .release (.inl rfl)
  · rintro h x y (rfl | rfl)
    · cases y
      · exact .inr rfl
      · exact h
    · exact .inr rfl

@[partial_fixpoint_monotone] theorem bind {ε α β : Type} (f : Build → Out ε α) (g : Build → α → Out ε β) (hf : monotone f) (hg : monotone g) :
    monotone fun m => (f m).bind (g m) :=
  monotone_bind (Out ε) f g hf hg

@[partial_fixpoint_monotone] theorem mapErr {ε ε' α : Type} (g : ε → ε') (f : Build → Out ε α) (hf : monotone f) :
    monotone fun m => (f m).mapErr g := by
  rw [iff] at *
  rcases hf with h | h
  · left; simp only [h, Out.mapErr]
  · right; rw [h]

/-- A function of an outcome that keeps panics. -/
theorem comp {ε ε' α β : Type} (g : Out ε α → Out ε' β) (hg : g .panic = .panic) (f : Build → Out ε α) (hf : monotone f) :
    monotone fun m => g (f m) := by
  rw [iff] at *
  rcases hf with h | h
  · left; rw [h, hg]
  · right; rw [h]

@[partial_fixpoint_monotone] theorem map {ε α β : Type} (g : α → β) (f : Build → Out ε α) (hf : monotone f) : monotone fun m => g <$> f m :=
  comp (fun x => g <$> x) rfl f hf

/-- The build may be passed on. -/
theorem pass {ε α : Type} {F : Build → Out ε α} (h : monotone F) {b : Build → Build} (hb : monotone b) : monotone fun m => F (b m) :=
  fun x y hxy => h _ _ (hb x y hxy)

@[partial_fixpoint_monotone] theorem dassert : ∀ (b : Build → Build), monotone b → ∀ ε c, monotone fun m => @LCT.dassert ε (b m) c := by
  intro b hb ε c
  refine pass (F := fun m => @LCT.dassert ε m c) (iff.2 ?_) hb
  cases c
  · exact .inl rfl
  · exact .inr rfl

@[partial_fixpoint_monotone] theorem addU64 : ∀ (b : Build → Build), monotone b → ∀ ε x y, monotone fun m => @LCT.addU64 ε (b m) x y := by
  intro b hb ε x y
  refine pass (F := fun m => @LCT.addU64 ε m x y) (iff.2 ?_) hb
  unfold LCT.addU64
  split
  · exact .inr rfl
  · exact .inl rfl

/-- The outcome is a value or a panic: it is neither an error nor a loop without end. -/
class Plain {ε α : Type} (x : Out ε α) : Prop where
  plain : x = .panic ∨ ∃ a, x = .ok a

section
variable {ε α β : Type}

instance (a : α) : Plain (Out.ok a : Out ε α) := ⟨.inr ⟨a, rfl⟩⟩
instance (a : α) : Plain (pure a : Out ε α) := ⟨.inr ⟨a, rfl⟩⟩
instance : Plain (Out.panic : Out ε α) := ⟨.inl rfl⟩

instance instPlainBind (x : Out ε α) (f : α → Out ε β) [hx : Plain x] [hf : ∀ a, Plain (f a)] : Plain (x >>= f) := by
  rcases hx.plain with h | ⟨a, h⟩
  · exact ⟨.inl (by rw [h]; rfl)⟩
  · rw [h]
    exact hf a

instance (c : Prop) [Decidable c] (x y : Out ε α) [Plain x] [Plain y] : Plain (if c then x else y) := by
  split <;> assumption

instance (c : Bool) : Plain (rassert c : Out ε Unit) := by
  cases c
  · exact ⟨.inl rfl⟩
  · exact ⟨.inr ⟨(), rfl⟩⟩

instance (m : Build) (c : Bool) : Plain (LCT.dassert m c : Out ε Unit) := by
  cases m
  · exact inferInstanceAs (Plain (rassert c))
  · exact ⟨.inr ⟨(), rfl⟩⟩

instance (x : Option α) : Plain (unwrap x : Out ε α) := by cases x <;> (unfold LCT.unwrap; infer_instance)

end

end Mono

/-- Proves that a function of the build is monotone, from the functions it calls. -/
macro "mono" : tactic => `(tactic| repeat' (first
  | with_reducible assumption | monotonicity | with_reducible exact Mono.iff.2 (.inl rfl) | dsimp only | with_reducible intro _))

/-- The same with an induction hypothesis. -/
macro "mono" "using" h:ident : tactic => `(tactic| repeat' (first
  | with_reducible assumption | with_reducible apply $h | monotonicity | with_reducible exact Mono.iff.2 (.inl rfl) | dsimp only | with_reducible intro _ | contradiction))

end LCT
