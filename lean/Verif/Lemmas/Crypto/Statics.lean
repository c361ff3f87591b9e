import Verif.Model.Crypto.Statics
import Mathlib.Data.Nat.Find
import Mathlib.Tactic.ByContra

/-!
# The shared curve constants: the invariant
-/

namespace LCT.Crypto.Statics

/-- What holds whenever no thread is in the middle of a step. -/
inductive Inv (cp : Params) : Sys → Prop where
  | incomplete (σ : Sys) (ho : σ.once = .incomplete) (hc : σ.cell = .empty) (hp : ∀ t, σ.pc t = .idle) (hr : σ.returned = [])
      (hn : σ.entered = 0) : Inv cp σ
  | running (σ : Sys) (i : Nat) (ho : σ.once = .running) (hp : ∀ t, t ≠ i → σ.pc t = .idle) (hr : σ.returned = [])
      (hi : (σ.pc i = .closure ∧ σ.cell = .empty) ∨ (σ.pc i = .store cp ∧ σ.cell = .empty) ∨ (σ.pc i = .storing cp ∧ σ.cell = .torn) ∨
        (σ.pc i = .leave ∧ σ.cell = .full cp)) (hn : σ.entered = 1) : Inv cp σ
  | complete (σ : Sys) (ho : σ.once = .complete) (hc : σ.cell = .full cp) (hp : ∀ t, σ.pc t = .idle ∨ σ.pc t = .load)
      (hr : ∀ x ∈ σ.returned, x.2 = cp) (hn : σ.entered = 1) : Inv cp σ

variable {w : Nat} {cp : Params}

theorem inv_start : Inv cp Sys.start := .incomplete _ rfl rfl (fun _ => rfl) rfl rfl

theorem inv_step (hcp : (secp256k1 w : Out Empty Params) = .ok cp) {σ : Sys} (h : Inv cp σ) (t : Nat) : Inv cp (step w σ t) := by
  cases h with
  | incomplete ho hc hp hr hn =>
    refine .running _ t ?_ ?_ ?_ (.inl ⟨?_, ?_⟩) ?_ <;> simp only [step, hp t, ho]
    · intro u hu
      simp [Sys.goto, hu, hp u]
    · exact hr
    · simp [Sys.goto]
    · exact hc
    · simp [hn]
  | running i ho hp hr hi hn =>
    by_cases hti : t = i
    · subst hti
      rcases hi with ⟨h1, h2⟩ | ⟨h1, h2⟩ | ⟨h1, h2⟩ | ⟨h1, h2⟩
      · refine .running _ t ?_ ?_ ?_ (.inr (.inl ⟨?_, ?_⟩)) ?_ <;> simp only [step, h1, hcp]
        · exact ho
        · intro u hu
          simp [Sys.goto, hu, hp u hu]
        · exact hr
        · simp [Sys.goto]
        · exact h2
        · exact hn
      · refine .running _ t ?_ ?_ ?_ (.inr (.inr (.inl ⟨?_, ?_⟩))) ?_ <;> simp only [step, h1, h2]
        · exact ho
        · intro u hu
          simp [Sys.goto, hu, hp u hu]
        · exact hr
        · simp [Sys.goto]
        · exact hn
      · refine .running _ t ?_ ?_ ?_ (.inr (.inr (.inr ⟨?_, ?_⟩))) ?_ <;> simp only [step, h1]
        · exact ho
        · intro u hu
          simp [Sys.goto, hu, hp u hu]
        · exact hr
        · simp [Sys.goto]
        · exact hn
      · refine .complete _ ?_ ?_ ?_ ?_ ?_ <;> simp only [step, h1]
        · exact h2
        · intro u
          by_cases hu : u = t
          · right
            simp [Sys.goto, hu]
          · left
            simp [Sys.goto, hu, hp u hu]
        · intro x hx
          rw [show ({ σ.goto t .load with once := .complete } : Sys).returned = σ.returned from rfl, hr] at hx
          cases hx
        · exact hn
    · have e : step w σ t = σ := by simp only [step, hp t hti, ho]
      rw [e]
      exact .running _ i ho hp hr hi hn
  | complete ho hc hp hr hn =>
    rcases hp t with h1 | h1
    · refine .complete _ ?_ ?_ ?_ ?_ ?_ <;> simp only [step, h1, ho]
      · exact ho
      · exact hc
      · intro u
        by_cases hu : u = t
        · right
          simp [Sys.goto, hu]
        · simpa [Sys.goto, hu] using hp u
      · exact hr
      · exact hn
    · refine .complete _ ?_ ?_ ?_ ?_ ?_ <;> simp only [step, h1, hc]
      · exact ho
      · exact hc
      · intro u
        by_cases hu : u = t
        · left
          simp [Sys.goto, hu]
        · simpa [Sys.goto, hu] using hp u
      · intro x hx
        rcases List.mem_cons.1 hx with rfl | hx
        · rfl
        · exact hr x hx
      · exact hn

theorem inv_foldl (hcp : (secp256k1 w : Out Empty Params) = .ok cp) (sched : List Nat) :
    ∀ {σ : Sys}, Inv cp σ → Inv cp (sched.foldl (step w) σ) := by
  induction sched with
  | nil => exact fun h => h
  | cons t ts ih => exact fun h => ih (inv_step hcp h t)

theorem inv_run (hcp : (secp256k1 w : Out Empty Params) = .ok cp) (sched : List Nat) : Inv cp (run w sched) := inv_foldl hcp sched inv_start

theorem step_complete {σ : Sys} (h : Inv cp σ) (ho : σ.once = .complete) (t : Nat) : (step w σ t).once = .complete := by
  cases h with
  | incomplete ho' => rw [ho] at ho'; cases ho'
  | running _ ho' => rw [ho] at ho'; cases ho'
  | complete ho hc hp hr =>
    rcases hp t with h1 | h1
    · simp only [step, h1, ho]; exact ho
    · simp only [step, h1, hc]; exact ho

theorem foldl_complete (hcp : (secp256k1 w : Out Empty Params) = .ok cp) (sched : List Nat) :
    ∀ {σ : Sys}, Inv cp σ → σ.once = .complete → (sched.foldl (step w) σ).once = .complete := by
  induction sched with
  | nil => exact fun _ h => h
  | cons t ts ih => exact fun h ho => ih (inv_step hcp h t) (step_complete h ho t)

theorem complete_of_returned {σ : Sys} (h : Inv cp σ) (hr : σ.returned ≠ []) : σ.once = .complete := by
  cases h with
  | incomplete _ _ _ hr' => exact absurd hr' hr
  | running _ _ _ hr' => exact absurd hr' hr
  | complete ho => exact ho

theorem cell_of_complete {σ : Sys} (h : Inv cp σ) (ho : σ.once = .complete) : σ.cell = .full cp := by
  cases h with
  | incomplete ho' => rw [ho] at ho'; cases ho'
  | running _ ho' => rw [ho] at ho'; cases ho'
  | complete _ hc => exact hc

/-! ## Progress -/

/-- The calls of `t` that have returned. -/
def calls (σ : Sys) (t : Nat) : Nat := σ.returned.countP fun x => x.1 = t

/-- The state after `n` steps of an infinite schedule. -/
def after (w : Nat) (sched : Nat → Nat) (n : Nat) : Sys := run w ((List.range n).map sched)

theorem after_succ (w : Nat) (sched : Nat → Nat) (n : Nat) : after w sched (n + 1) = step w (after w sched n) (sched n) := by
  simp [after, run, List.range_succ]

/-- How far a thread in the closure is from its end. -/
def rank : Pc → Nat
  | .closure => 4
  | .store _ => 3
  | .storing _ => 2
  | .leave => 1
  | _ => 0

section
variable (hcp : (secp256k1 w : Out Empty Params) = .ok cp) (sched : Nat → Nat) (fair : ∀ j n, ∃ k, n ≤ k ∧ sched k = sched j)
include hcp fair

theorem reach_of_running (r : Nat) : ∀ (n i : Nat), (∃ j, sched j = i) → (after w sched n).once = .running → (∀ t, t ≠ i → (after w sched n).pc t = .idle) →
    rank ((after w sched n).pc i) = r → 0 < r → ∃ k, (after w sched k).once = .complete := by
  induction r with
  | zero => intro n i _ _ _ _ h; omega
  | succ r ih =>
    intro n i hocc ho hp hrank _
    obtain ⟨j, hj⟩ := hocc
    obtain ⟨k, hnk, hk⟩ := fair j n
    rw [hj] at hk
    -- the first step of `i` from `n`
    have first : ∃ k, n ≤ k ∧ sched k = i ∧ ∀ j, n ≤ j → j < k → sched j ≠ i := by
      classical
      have hex : ∃ k, n ≤ k ∧ sched k = i := ⟨k, hnk, hk⟩
      refine ⟨Nat.find hex, (Nat.find_spec hex).1, (Nat.find_spec hex).2, fun j hj hlt he => ?_⟩
      exact Nat.find_min hex hlt ⟨hj, he⟩
    obtain ⟨k, hnk, hk, hmin⟩ := first
    have same : ∀ d, n + d ≤ k → after w sched (n + d) = after w sched n := by
      intro d
      induction d with
      | zero => intro _; rfl
      | succ d ihd =>
        intro hd
        have e := ihd (by omega)
        rw [← Nat.add_assoc, after_succ, e]
        have hne : sched (n + d) ≠ i := hmin _ (by omega) (by omega)
        simp only [step, hp _ hne, ho]
    have ek : after w sched k = after w sched n := by
      have := same (k - n) (by omega)
      rwa [Nat.add_sub_cancel' hnk] at this
    have enext := after_succ w sched k
    rw [ek, hk] at enext
    have hinv : Inv cp (after w sched n) := inv_run hcp _
    cases hinv with
    | incomplete ho' => rw [ho] at ho'; cases ho'
    | complete ho' => rw [ho] at ho'; cases ho'
    | running i' ho' hp' hr' hi' =>
      have hii : i' = i := by
        by_contra hne
        have := hp i' hne
        rcases hi' with ⟨h1, _⟩ | ⟨h1, _⟩ | ⟨h1, _⟩ | ⟨h1, _⟩ <;> rw [this] at h1 <;> cases h1
      subst hii
      have others : ∀ p, ∀ u, u ≠ i' → ((after w sched n).goto i' p).pc u = .idle := by
        intro p u hu
        simp [Sys.goto, hu, hp u hu]
      have here : ∀ p, ((after w sched n).goto i' p).pc i' = p := by intro p; simp [Sys.goto]
      rcases hi' with ⟨h1, h2⟩ | ⟨h1, h2⟩ | ⟨h1, h2⟩ | ⟨h1, h2⟩
      · have hr : r = 3 := by rw [h1] at hrank; simp only [rank] at hrank; omega
        have e : after w sched (k + 1) = (after w sched n).goto i' (.store cp) := by
          rw [enext]; simp only [step, h1, hcp]
        refine ih (k + 1) i' ⟨j, hj⟩ ?_ ?_ ?_ (by omega) <;> rw [e]
        · exact ho
        · exact others _
        · rw [here, hr]; rfl
      · have hr : r = 2 := by rw [h1] at hrank; simp only [rank] at hrank; omega
        have e : after w sched (k + 1) = { (after w sched n).goto i' (.storing cp) with cell := .torn } := by
          rw [enext]; simp only [step, h1, h2]
        refine ih (k + 1) i' ⟨j, hj⟩ ?_ ?_ ?_ (by omega) <;> rw [e]
        · exact ho
        · exact others _
        · exact (congrArg rank (here _)).trans hr.symm
      · have hr : r = 1 := by rw [h1] at hrank; simp only [rank] at hrank; omega
        have e : after w sched (k + 1) = { (after w sched n).goto i' .leave with cell := .full cp } := by
          rw [enext]; simp only [step, h1]
        refine ih (k + 1) i' ⟨j, hj⟩ ?_ ?_ ?_ (by omega) <;> rw [e]
        · exact ho
        · exact others _
        · exact (congrArg rank (here _)).trans hr.symm
      · exact ⟨k + 1, by rw [enext]; simp only [step, h1]⟩

theorem reach_complete : ∃ k, (after w sched k).once = .complete := by
  have h0 : after w sched 1 = step w Sys.start (sched 0) := by
    rw [after_succ]; rfl
  have e : after w sched 1 = { Sys.start.goto (sched 0) .closure with once := .running, entered := 1 } := by
    rw [h0]; rfl
  refine reach_of_running hcp sched fair 4 1 (sched 0) ⟨0, rfl⟩ ?_ ?_ ?_ (by omega) <;> rw [e]
  · intro t ht
    simp [Sys.goto, ht, Sys.start]
  · simp [Sys.goto, rank]

/-- Once the closure is complete, a thread's next two steps make a call return. -/
theorem one_more (t n : Nat) (occ : ∃ j, sched j = t) (ho : (after w sched n).once = .complete) : ∃ k, n ≤ k ∧ calls (after w sched n) t < calls (after w sched k) t := by
  obtain ⟨j0, hj0⟩ := occ
  have hcomp : ∀ d, (after w sched (n + d)).once = .complete := by
    intro d
    induction d with
    | zero => exact ho
    | succ d ih => rw [← Nat.add_assoc, after_succ]; exact step_complete (inv_run hcp _) ih _
  have hinv : ∀ d, (after w sched (n + d)).cell = .full cp ∧
      (∀ u, (after w sched (n + d)).pc u = .idle ∨ (after w sched (n + d)).pc u = .load) := by
    intro d
    have h : Inv cp (after w sched (n + d)) := inv_run hcp _
    cases h with
    | incomplete ho' => rw [hcomp d] at ho'; cases ho'
    | running _ ho' => rw [hcomp d] at ho'; cases ho'
    | complete _ hc hp => exact ⟨hc, hp⟩
  -- a step of another thread changes nothing for `t`, and no step makes the count smaller
  have mono1 : ∀ d, calls (after w sched (n + d)) t ≤ calls (after w sched (n + (d + 1))) t := by
    intro d
    rw [← Nat.add_assoc, after_succ]
    obtain ⟨hc, hp⟩ := hinv d
    rcases hp (sched (n + d)) with h1 | h1
    · simp only [step, h1, hcomp d]; exact Nat.le_refl _
    · simp only [step, h1, hc, calls]
      rw [List.countP_cons]
      exact Nat.le_add_right _ _
  have mono : ∀ d e, d ≤ e → calls (after w sched (n + d)) t ≤ calls (after w sched (n + e)) t := by
    intro d e hde
    induction e, hde using Nat.le_induction with
    | base => exact Nat.le_refl _
    | succ e _ ih => exact Nat.le_trans ih (mono1 e)
  have stay : ∀ d, sched (n + d) ≠ t → (after w sched (n + d)).pc t = .load → (after w sched (n + (d + 1))).pc t = .load := by
    intro d hne hl
    rw [← Nat.add_assoc, after_succ]
    obtain ⟨hc, hp⟩ := hinv d
    rcases hp (sched (n + d)) with h1 | h1
    · simp only [step, h1, hcomp d]
      simp [Sys.goto, Ne.symm hne, hl]
    · simp only [step, h1, hc]
      simp [Sys.goto, Ne.symm hne, hl]
  -- from a state in which `t` is about to load
  have fromLoad : ∀ d, (after w sched (n + d)).pc t = .load → ∃ k, n ≤ k ∧ calls (after w sched n) t < calls (after w sched k) t := by
    intro d hl
    obtain ⟨k0, hk0, hk0t⟩ := fair j0 (n + d)
    rw [hj0] at hk0t
    have hstay : ∀ e, d ≤ e → (∀ j, d ≤ j → j < e → sched (n + j) ≠ t) → (after w sched (n + e)).pc t = .load := by
      intro e hde
      induction e, hde using Nat.le_induction with
      | base => intro _; exact hl
      | succ e hde ih =>
        intro hj
        exact stay e (hj e hde (by omega)) (ih fun j h1 h2 => hj j h1 (by omega))
    have hex : ∃ e, d ≤ e ∧ sched (n + e) = t := ⟨k0 - n, by omega, by rw [show n + (k0 - n) = k0 by omega]; exact hk0t⟩
    classical
    obtain ⟨h1, h2⟩ := Nat.find_spec hex
    have hload := hstay (Nat.find hex) h1 fun j hj hlt he => Nat.find_min hex hlt ⟨hj, he⟩
    refine ⟨n + (Nat.find hex + 1), by omega, ?_⟩
    have hle := mono 0 (Nat.find hex) (Nat.zero_le _)
    rw [Nat.add_zero] at hle
    refine Nat.lt_of_le_of_lt hle ?_
    rw [← Nat.add_assoc, after_succ, h2]
    simp only [step, hload, (hinv _).1, calls]
    rw [List.countP_cons]
    simp
  rcases (hinv 0).2 t with h1 | h1
  · -- the first step of `t` takes it to `load`
    obtain ⟨k0, hk0, hk0t⟩ := fair j0 n
    rw [hj0] at hk0t
    have hex : ∃ e, sched (n + e) = t := ⟨k0 - n, by rw [show n + (k0 - n) = k0 by omega]; exact hk0t⟩
    classical
    have hidle : ∀ e, (∀ j, j < e → sched (n + j) ≠ t) → (after w sched (n + e)).pc t = .idle := by
      intro e
      induction e with
      | zero => intro _; exact h1
      | succ e ih =>
        intro hj
        have hi := ih fun j hlt => hj j (by omega)
        have hne := hj e (by omega)
        rw [← Nat.add_assoc, after_succ]
        obtain ⟨hc, hp⟩ := hinv e
        rcases hp (sched (n + e)) with h2 | h2
        · simp only [step, h2, hcomp e]
          simp [Sys.goto, Ne.symm hne, hi]
        · simp only [step, h2, hc]
          simp [Sys.goto, Ne.symm hne, hi]
    have hi := hidle (Nat.find hex) fun j hlt he => Nat.find_min hex hlt he
    refine fromLoad (Nat.find hex + 1) ?_
    rw [← Nat.add_assoc, after_succ, Nat.find_spec hex]
    simp only [step, hi, hcomp]
    simp [Sys.goto]
  · exact fromLoad 0 h1

theorem many_calls (t c : Nat) (occ : ∃ j, sched j = t) : ∃ k, c ≤ calls (after w sched k) t := by
  obtain ⟨n, hn⟩ := reach_complete hcp sched fair
  suffices h : ∃ k, n ≤ k ∧ c ≤ calls (after w sched k) t from ⟨h.choose, h.choose_spec.2⟩
  induction c with
  | zero => exact ⟨n, Nat.le_refl _, Nat.zero_le _⟩
  | succ c ih =>
    obtain ⟨k, hk, hc⟩ := ih
    have ho : (after w sched k).once = .complete := by
      have : ∀ d, (after w sched (n + d)).once = .complete := by
        intro d
        induction d with
        | zero => exact hn
        | succ d ih => rw [← Nat.add_assoc, after_succ]; exact step_complete (inv_run hcp _) ih _
      have h := this (k - n)
      rwa [Nat.add_sub_cancel' hk] at h
    obtain ⟨k', hk', hlt⟩ := one_more hcp sched fair t k occ ho
    exact ⟨k', by omega, by omega⟩
end

end LCT.Crypto.Statics
