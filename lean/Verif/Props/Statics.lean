import Verif.Lemmas.Crypto.Statics
import Verif.Props.Keys

/-!
# The shared curve constants, under every schedule (C67)
-/

namespace LCT.Props
open LCT.Crypto LCT.Crypto.Statics LCT.Spec

/-- C67: whatever the number of threads and the order of their steps, no thread panics or accesses the variable while another one writes to it,
the constants are built at most once, and all calls that have returned gave the same parameters, those of SEC 2. -/
theorem C67_calls (w : Nat) [DigitWidth w] : ∃ cp : Params,
    (Denotes w cp.curve.p Secp256k1.p ∧ Denotes w cp.curve.a 0 ∧ Denotes w cp.curve.b 7 ∧ Denotes w cp.basePoint.x Secp256k1.gx ∧
      Denotes w cp.basePoint.y Secp256k1.gy ∧ Denotes w cp.order Secp256k1.n ∧ cp.cofactor = 1) ∧
    ∀ sched : List Nat, (∀ t, (run w sched).pc t ≠ .dead ∧ (run w sched).pc t ≠ .undefined) ∧ (run w sched).entered ≤ 1 ∧
      ∀ x ∈ (run w sched).returned, x.2 = cp := by
  obtain ⟨cp, hcp, hd⟩ := C53_parameters (ε := Empty) w
  refine ⟨cp, hd, fun sched => ?_⟩
  have h : Inv cp (run w sched) := inv_run hcp sched
  cases h with
  | incomplete ho hc hp hr hn =>
    exact ⟨fun t => by rw [hp t]; exact ⟨nofun, nofun⟩, by omega, fun x hx => by rw [hr] at hx; cases hx⟩
  | running i ho hp hr hi hn =>
    refine ⟨fun t => ?_, by omega, fun x hx => by rw [hr] at hx; cases hx⟩
    by_cases ht : t = i
    · subst ht
      rcases hi with ⟨h1, _⟩ | ⟨h1, _⟩ | ⟨h1, _⟩ | ⟨h1, _⟩ <;> rw [h1] <;> exact ⟨nofun, nofun⟩
    · rw [hp t ht]
      exact ⟨nofun, nofun⟩
  | complete ho hc hp hr hn =>
    exact ⟨fun t => by rcases hp t with h1 | h1 <;> rw [h1] <;> exact ⟨nofun, nofun⟩, by omega, hr⟩

/-- C67: a reference that a call has returned stays good: from then on the variable holds the same parameters, whatever the threads do. -/
theorem C67_stable (w : Nat) [DigitWidth w] (sched later : List Nat) (t : Nat) (cp : Params) (h : (t, cp) ∈ (run w sched).returned) :
    (run w sched).cell = .full cp ∧ (run w (sched ++ later)).cell = .full cp := by
  obtain ⟨cp', hcp, -⟩ := C53_parameters (ε := Empty) w
  have inv : Inv cp' (run w sched) := inv_run hcp sched
  have ho := complete_of_returned inv (List.ne_nil_of_mem h)
  have e : cp = cp' := by
    cases inv with
    | incomplete _ _ _ hr => rw [hr] at h; cases h
    | running _ _ _ hr => rw [hr] at h; cases h
    | complete _ _ _ hr => exact hr _ h
  subst e
  refine ⟨cell_of_complete inv ho, ?_⟩
  have e : run w (sched ++ later) = later.foldl (step w) (run w sched) := List.foldl_append
  rw [e]
  exact cell_of_complete (inv_foldl hcp later inv) (foldl_complete hcp later inv ho)

/-- C67: no call waits for ever: if every thread that takes part goes on making steps, each of them completes any number of calls. -/
theorem C67_progress (w : Nat) [DigitWidth w] (sched : Nat → Nat) (fair : ∀ j n, ∃ k, n ≤ k ∧ sched k = sched j) (t : Nat)
    (ht : ∃ j, sched j = t) (calls : Nat) : ∃ k, calls ≤ ((run w ((List.range k).map sched)).returned.filter fun x => x.1 = t).length := by
  obtain ⟨cp, hcp, -⟩ := C53_parameters (ε := Empty) w
  obtain ⟨k, hk⟩ := many_calls hcp sched fair t calls ht
  refine ⟨k, ?_⟩
  rw [← List.countP_eq_length_filter]
  exact hk

/-- Three threads in turn; each of them completes five calls. -/
example : ∃ k, 5 ≤ ((run 64 ((List.range k).map fun i => i % 3)).returned.filter fun x => x.1 = 2).length := by
  refine C67_progress 64 (fun i => i % 3) (fun j n => ⟨3 * n + j, by omega, ?_⟩) 2 ⟨2, rfl⟩ 5
  show (3 * n + j) % 3 = j % 3
  omega

end LCT.Props
