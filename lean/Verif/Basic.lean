/-!
# Outcomes of Rust functions

Shared by all model files.
-/

namespace LCT

/-- Outcome of running a Rust function: a value, an error value (`Result::Err`), a panic, or (only for loops that have no
syntactic bound and are modelled with fuel) not having finished within the given fuel. -/
inductive Out (ε : Type) (α : Type) where
  | ok (a : α)
  | err (e : ε)
  | panic
  | hang
  deriving Repr, DecidableEq

namespace Out
variable {ε α β : Type}

@[inline] def bind (x : Out ε α) (f : α → Out ε β) : Out ε β :=
  match x with
  | ok a => f a
  | err e => err e
  | panic => panic
  | hang => hang

instance : Monad (Out ε) where
  pure := ok
  bind := bind

@[simp] theorem pure_def (a : α) : (pure a : Out ε α) = ok a := rfl
@[simp] theorem bind_ok (a : α) (f : α → Out ε β) : (ok a >>= f) = f a := rfl
@[simp] theorem bind_err (e : ε) (f : α → Out ε β) : ((err e : Out ε α) >>= f) = err e := rfl
@[simp] theorem bind_panic (f : α → Out ε β) : ((panic : Out ε α) >>= f) = panic := rfl
@[simp] theorem bind_hang (f : α → Out ε β) : ((hang : Out ε α) >>= f) = hang := rfl

theorem bind_eq_ok {x : Out ε α} {f : α → Out ε β} {b : β} :
    (x >>= f) = ok b ↔ ∃ a, x = ok a ∧ f a = ok b := by
  cases x <;> simp

@[simp] theorem map_ok (g : α → β) (a : α) : (g <$> (ok a : Out ε α)) = ok (g a) := rfl

/-- The function returned normally: with a value or with an error value, but without panicking or running for ever. -/
def Returns (x : Out ε α) : Prop := (∃ a, x = ok a) ∨ (∃ e, x = err e)

theorem Returns.ok (a : α) : (Out.ok a : Out ε α).Returns := Or.inl ⟨a, rfl⟩
theorem Returns.err (e : ε) : (Out.err e : Out ε α).Returns := Or.inr ⟨e, rfl⟩

theorem Returns.bind {x : Out ε α} {f : α → Out ε β} (hx : x.Returns)
    (hf : ∀ a, x = Out.ok a → (f a).Returns) : (x >>= f).Returns := by
  rcases hx with ⟨a, rfl⟩ | ⟨e, rfl⟩
  · exact hf a rfl
  · exact Returns.err e

theorem not_returns_panic : ¬ (panic : Out ε α).Returns := by
  rintro (⟨a, h⟩ | ⟨e, h⟩) <;> cases h

theorem not_returns_hang : ¬ (hang : Out ε α).Returns := by
  rintro (⟨a, h⟩ | ⟨e, h⟩) <;> cases h

theorem returns_iff {x : Out ε α} : x.Returns ↔ x ≠ panic ∧ x ≠ hang := by
  cases x <;> simp [Returns]

/-- `Result::map_err(|_| e)`. -/
def mapErr {ε' : Type} (g : ε → ε') : Out ε α → Out ε' α
  | ok a => ok a
  | err e => err (g e)
  | panic => panic
  | hang => hang

end Out

/-- Rust's `Option::unwrap`. -/
def unwrap {ε α : Type} : Option α → Out ε α
  | some a => .ok a
  | none => .panic

/-- Rust's `assert!`. -/
def rassert {ε : Type} (b : Bool) : Out ε Unit := if b then .ok () else .panic

@[simp] theorem rassert_true {ε : Type} : (rassert true : Out ε Unit) = .ok () := rfl
@[simp] theorem rassert_false {ε : Type} : (rassert false : Out ε Unit) = .panic := rfl
@[simp] theorem unwrap_some {ε α : Type} (a : α) : (unwrap (some a) : Out ε α) = .ok a := rfl
@[simp] theorem unwrap_none {ε α : Type} : (unwrap (none : Option α) : Out ε α) = .panic := rfl

/-- The two cargo profiles: with (`debug`) and without (`release`) overflow checks and `debug_assert!`s. -/
inductive Build where
  | debug
  | release
  deriving Repr, DecidableEq

/-- Rust's `debug_assert!`. -/
def dassert {ε : Type} (m : Build) (b : Bool) : Out ε Unit :=
  match m with
  | .debug => rassert b
  | .release => .ok ()

/-- `a + b` on `usize`/`u64` (64-bit targets): overflow panics in debug builds and wraps in release builds. -/
def addU64 {ε : Type} (m : Build) (a b : Nat) : Out ε Nat :=
  if a + b < 2 ^ 64 then .ok (a + b)
  else match m with
    | .debug => .panic
    | .release => .ok ((a + b) % 2 ^ 64)

end LCT
