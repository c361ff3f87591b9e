import Verif.Basic

/-!
# Running a program to a value with a property

`x.Yields Q`: the program `x` returns normally with a value that satisfies `Q`.
-/

namespace LCT.Out
variable {ε α β : Type}

def Yields (x : Out ε α) (Q : α → Prop) : Prop := ∃ a, x = .ok a ∧ Q a

theorem Yields.bind {x : Out ε α} {f : α → Out ε β} {P : α → Prop} {Q : β → Prop} (hx : x.Yields P)
    (hf : ∀ a, P a → (f a).Yields Q) : (x >>= f).Yields Q := by
  obtain ⟨a, rfl, ha⟩ := hx
  exact hf a ha

theorem Yields.mono {x : Out ε α} {P Q : α → Prop} (hx : x.Yields P) (h : ∀ a, P a → Q a) : x.Yields Q := by
  obtain ⟨a, e, ha⟩ := hx
  exact ⟨a, e, h a ha⟩

theorem Yields.ok {a : α} {Q : α → Prop} (h : Q a) : (Out.ok a : Out ε α).Yields Q := ⟨a, rfl, h⟩

theorem Yields.pure {a : α} {Q : α → Prop} (h : Q a) : (Pure.pure a : Out ε α).Yields Q := ⟨a, rfl, h⟩

theorem Yields.of_eq {x : Out ε α} {a : α} {Q : α → Prop} (e : x = .ok a) (h : Q a) : x.Yields Q := ⟨a, e, h⟩

theorem Yields.eq_ok {x : Out ε α} {a : α} (h : x.Yields (fun b => b = a)) : x = .ok a := by
  obtain ⟨b, e, rfl⟩ := h
  exact e

theorem Yields.rassert {b : Bool} (h : b = true) : (LCT.rassert b : Out ε Unit).Yields (fun _ => True) := by
  subst h; exact ⟨(), rfl, trivial⟩

theorem Yields.dassert {m : Build} {b : Bool} (h : b = true) : (LCT.dassert m b : Out ε Unit).Yields (fun _ => True) := by
  subst h; cases m <;> exact ⟨(), rfl, trivial⟩

end LCT.Out

/-- `run h with x hx`: the goal is `(p >>= f).Yields Q` and `h : p.Yields P`; continue with `f x` for a value `x` with `hx : P x`. -/
macro "run " h:term " with " x:rintroPat hx:rintroPat : tactic =>
  `(tactic| (refine LCT.Out.Yields.bind $h ?_; rintro $x $hx))
