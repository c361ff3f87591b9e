import Mathlib.Tactic.Push
import Mathlib.Algebra.BigOperators.Group.List.Basic
import Verif.Model.OsRandomTests
import Verif.Props.Random

/-!
# C98: what the tests of the random bytes of the operating system find out
-/

namespace LCT.Props
open LCT.Random LCT.Spec LCT.RandomTests LCT.OsRandomTests

theorem testLength_ok_iff (get : Nat → Out RandomError (List UInt8)) (len : Nat) :
    testLength get len = .ok () ↔ ∃ bytes, get len = .ok bytes ∧ bytes.length = len ∧ ∃ b ∈ bytes, b ≠ 0 := by
  unfold testLength
  constructor
  · intro h
    cases hg : get len with
    | ok bytes =>
      rw [hg] at h
      replace h : (do rassert (bytes.length == len); rassert (bytes != List.replicate len 0) : Out Unit Unit) = .ok () := h
      by_cases hl : bytes.length = len
      · refine ⟨bytes, rfl, hl, ?_⟩
        by_contra hc
        push Not at hc
        have hz : bytes = List.replicate len 0 := List.eq_replicate_iff.mpr ⟨hl, hc⟩
        rw [beq_iff_eq.mpr hl, bne_eq_false_iff_eq.mpr hz] at h
        cases h
      · rw [beq_eq_false_iff_ne.mpr hl] at h
        cases h
    | err e => rw [hg] at h; cases h
    | panic => rw [hg] at h; cases h
    | hang => rw [hg] at h; cases h
  · rintro ⟨bytes, hg, hl, b, hb, hne⟩
    rw [hg]
    show (do rassert (bytes.length == len); rassert (bytes != List.replicate len 0) : Out Unit Unit) = .ok ()
    have hz : bytes ≠ List.replicate len 0 := fun hz => hne ((List.eq_replicate_iff.mp hz).2 b hb)
    rw [beq_iff_eq.mpr hl, bne_iff_ne.mpr hz]
    rfl

/-- C98: asking for no bytes succeeds on Linux, whatever the kernel does: it is not called. -/
theorem C98_none (os : Linux) : testNone (getRandomLinux os) = .ok () := rfl

/-- C98, Linux: if the kernel keeps its contract, the test passes exactly if each call fills the piece it was asked for, and not all the bytes it wrote are
zero. -/
theorem C98_linux (os : Linux) (hos : ∀ j len, GetrandomContract len (os j len)) (len : Nat) :
    testLength (getRandomLinux os) len = .ok () ↔
      (∀ c ∈ (askedFor len).zipIdx, (os c.2 c.1).ret = c.1) ∧ ∃ c ∈ (askedFor len).zipIdx, ∃ b ∈ (os c.2 c.1).written, b ≠ 0 := by
  rw [testLength_ok_iff]
  constructor
  · rintro ⟨bytes, hg, -, b, hb, hne⟩
    obtain ⟨e, -, h⟩ := C52_linux_ok os hos len bytes hg
    refine ⟨fun c hc => (h c hc).1, ?_⟩
    rw [e, List.mem_flatMap] at hb
    obtain ⟨c, hc, hb⟩ := hb
    exact ⟨c, hc, b, hb, hne⟩
  · rintro ⟨h, c, hc, b, hb, hne⟩
    obtain ⟨bytes, hg⟩ := (C52_linux_total os hos len).2 h
    obtain ⟨e, hl, -⟩ := C52_linux_ok os hos len bytes hg
    exact ⟨bytes, hg, hl, b, by rw [e]; exact List.mem_flatMap.mpr ⟨c, hc, hb⟩, hne⟩

/-- C98, Apple: likewise for a successful call. -/
theorem C98_apple (reply : Nat → Int × List UInt8) (len : Nat) (hfill : (reply len).1 = 0 → (reply len).2.length = len) :
    testLength (getRandomApple reply) len = .ok () ↔ (reply len).1 = 0 ∧ ∃ b ∈ (reply len).2, b ≠ 0 := by
  rw [testLength_ok_iff]
  obtain ⟨h1, h2⟩ := C52_apple reply len hfill
  constructor
  · rintro ⟨bytes, hg, -, hb⟩
    by_cases h : (reply len).1 = 0
    · rw [h1 h] at hg
      cases hg
      exact ⟨h, hb⟩
    · rw [h2 h] at hg
      cases hg
  · rintro ⟨h, hb⟩
    exact ⟨_, h1 h, hfill h, hb⟩

/-- C98, Windows: likewise for a call whose status is not an error. -/
theorem C98_windows (reply : Nat → UInt32 × List UInt8) (len : Nat) (hfill : ¬ (reply len).1.toNat ≥ 0xC0000000 → (reply len).2.length = len) :
    testLength (getRandomWindows reply) len = .ok () ↔ ¬ (reply len).1.toNat ≥ 0xC0000000 ∧ ∃ b ∈ (reply len).2, b ≠ 0 := by
  rw [testLength_ok_iff]
  obtain ⟨h1, h2⟩ := C52_windows reply len hfill
  constructor
  · rintro ⟨bytes, hg, -, hb⟩
    by_cases h : (reply len).1.toNat ≥ 0xC0000000
    · rw [h2 h] at hg
      cases hg
    · rw [h1 h] at hg
      cases hg
      exact ⟨h, hb⟩
  · rintro ⟨h, hb⟩
    exact ⟨_, h1 h, hfill h, hb⟩

/-- C98, Linux: a kernel that writes the same bytes at every call, e.g. sevens, passes every one of the tests; only zeros are noticed. -/
theorem C98_linux_constant (b : UInt8) (len : Nat) (hlen : len ≠ 0) :
    testLength (getRandomLinux fun _ k => ⟨k, List.replicate k b, 0⟩) len = .ok () ↔ b ≠ 0 := by
  rw [C98_linux _ fun j k => .inr ⟨by rw [List.length_replicate], by simp⟩]
  constructor
  · rintro ⟨-, c, -, b', hb, hne⟩
    rwa [← (List.mem_replicate.mp hb).2]
  · intro hb
    refine ⟨fun _ _ => rfl, ?_⟩
    have hne : ∃ k ∈ askedFor len, k ≠ 0 := by
      by_contra hc
      push Not at hc
      have h0 : (askedFor len).sum = 0 := List.sum_eq_zero hc
      rw [askedFor_sum] at h0
      exact hlen h0
    obtain ⟨k, hk, hk0⟩ := hne
    obtain ⟨i, hi⟩ := List.mem_iff_getElem?.mp hk
    exact ⟨(k, i), List.mk_mem_zipIdx_iff_getElem?.mpr hi, b, List.mem_replicate.mpr ⟨hk0, rfl⟩, hb⟩

/-- Sevens pass, zeros and a kernel that delivers one byte too few do not. -/
example : testLength (getRandomLinux fun _ k => ⟨k, List.replicate k 7, 0⟩) 1000 = .ok () ∧
    testLength (getRandomLinux fun _ k => ⟨k, List.replicate k 0, 0⟩) 1000 ≠ .ok () ∧
    testLength (getRandomLinux fun _ k => ⟨k - 1, List.replicate (k - 1) 7, 0⟩) 16 = .panic :=
  ⟨(C98_linux_constant 7 1000 (by decide)).mpr (by decide), fun h => (C98_linux_constant 0 1000 (by decide)).mp h rfl, by decide +kernel⟩

end LCT.Props
