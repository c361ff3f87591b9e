import Verif.Lemmas.Random

/-!
# Properties of OS randomness: C52
-/

namespace LCT.Props
open LCT.Random LCT.Spec

/-- C52, Linux: if the kernel keeps its contract then `get_os_random_bytes` returns `Ok` only with exactly what the kernel wrote: the
concatenation of the replies to the calls, each of which filled the whole piece it was asked for; so every byte returned comes from
the kernel and the length is the one requested. -/
theorem C52_linux_ok (os : Linux) (hos : ∀ j len, GetrandomContract len (os j len)) (len : Nat) (out : List UInt8)
    (h : getRandomLinux os len = .ok out) :
    out = ((askedFor len).zipIdx).flatMap (fun c => (os c.2 c.1).written) ∧ out.length = len ∧
    ∀ c ∈ (askedFor len).zipIdx, (os c.2 c.1).ret = c.1 ∧ (os c.2 c.1).written.length = c.1 := by
  unfold getRandomLinux at h
  obtain ⟨e, hall⟩ := linuxLoop_ok os _ 0 [] out hos h
  rw [chunks_lengths _ _ (by simp), List.length_replicate] at e hall
  refine ⟨by simpa using e, ?_, hall⟩
  rw [e, List.nil_append]
  have key : ∀ (l : List Nat) (i : Nat), (∀ c ∈ l.zipIdx i, (os c.2 c.1).ret = c.1 ∧ (os c.2 c.1).written.length = c.1) →
      ((l.zipIdx i).flatMap (fun c => (os c.2 c.1).written)).length = l.sum := by
    intro l
    induction l with
    | nil => intro i _; rfl
    | cons a l ih =>
      intro i hh
      rw [List.zipIdx_cons, List.flatMap_cons, List.length_append, List.sum_cons,
        ih (i + 1) (fun c hc => hh c (by rw [List.zipIdx_cons]; exact List.mem_cons_of_mem _ hc))]
      rw [(hh (a, i) (by rw [List.zipIdx_cons]; exact List.mem_cons_self)).2]
  rw [key _ _ hall, askedFor_sum]

/-- C52, Linux: conversely, if every call fills the piece it was asked for the bytes are returned; and if the kernel keeps its contract
there is never a panic: the outcome is `Ok` or an error. -/
theorem C52_linux_total (os : Linux) (hos : ∀ j len, GetrandomContract len (os j len)) (len : Nat) :
    (getRandomLinux os len).Returns ∧
    ((∀ c ∈ (askedFor len).zipIdx, (os c.2 c.1).ret = c.1) → ∃ out, getRandomLinux os len = .ok out) := by
  unfold getRandomLinux
  rw [show askedFor len = (chunks 256 len (List.replicate len 0)).map List.length by
    rw [chunks_lengths _ _ (by simp), List.length_replicate]]
  generalize chunks 256 _ _ = cs
  generalize ([] : List UInt8) = done
  suffices h : ∀ i, (linuxLoop os i done cs).Returns ∧
      ((∀ c ∈ (cs.map List.length).zipIdx i, (os c.2 c.1).ret = c.1) → ∃ out, linuxLoop os i done cs = .ok out) from h 0
  intro i
  induction cs generalizing i done with
  | nil => exact ⟨.ok _, fun _ => ⟨_, rfl⟩⟩
  | cons c cs ih =>
    unfold linuxLoop getrandom
    have hc := hos i c.length
    unfold GetrandomContract at hc
    by_cases hr : (os i c.length).ret = -1
    · rw [if_pos hr]
      refine ⟨.err _, fun hall => ?_⟩
      have : (os i c.length).ret = c.length := hall (c.length, i) (by rw [List.map_cons, List.zipIdx_cons]; exact List.mem_cons_self)
      omega
    · rw [if_neg hr]
      simp only
      rw [if_neg (by omega : ¬ (os i c.length).ret < 0)]
      by_cases hlen : (os i c.length).ret.toNat ≠ (overwrite c (os i c.length).written).length
      · rw [if_pos hlen]
        refine ⟨.err _, fun hall => ?_⟩
        have : (os i c.length).ret = c.length := hall (c.length, i) (by rw [List.map_cons, List.zipIdx_cons]; exact List.mem_cons_self)
        rw [overwrite_length] at hlen
        omega
      · rw [if_neg hlen]
        obtain ⟨h1, h2⟩ := ih (done ++ overwrite c (os i c.length).written) (i + 1)
        refine ⟨h1, fun hall => h2 fun x hx => hall x ?_⟩
        rw [List.map_cons, List.zipIdx_cons]
        exact List.mem_cons_of_mem _ hx

/-- C52, Linux: the error of the first call that fails is reported: an error number if the call returned `-1`, the "copied less than
requested" error if it returned fewer bytes. -/
theorem C52_linux_error (os : Linux) (hos : ∀ j len, GetrandomContract len (os j len)) (len k : Nat) (piece : Nat)
    (hk : (askedFor len)[k]? = some piece) (hfirst : ∀ j p, j < k → (askedFor len)[j]? = some p → (os j p).ret = p)
    (hbad : (os k piece).ret ≠ piece) :
    getRandomLinux os len =
      if (os k piece).ret = -1 then .err (.LinuxGetRandom (os k piece).errno) else .err .LinuxGetRandomCopiedNumberLessThanRequested := by
  unfold getRandomLinux
  rw [show askedFor len = (chunks 256 len (List.replicate len 0)).map List.length by
    rw [chunks_lengths _ _ (by simp), List.length_replicate]] at hk hfirst
  revert hk hfirst
  generalize chunks 256 _ _ = cs
  generalize ([] : List UInt8) = done
  suffices h : ∀ i j, k = i + j → (cs.map List.length)[j]? = some piece →
      (∀ t p, t < j → (cs.map List.length)[t]? = some p → (os (i + t) p).ret = p) →
      linuxLoop os i done cs = if (os k piece).ret = -1 then .err (.LinuxGetRandom (os k piece).errno)
        else .err .LinuxGetRandomCopiedNumberLessThanRequested by
    intro hk hfirst
    exact h 0 k (by omega) hk (by simpa using hfirst)
  intro i j
  induction cs generalizing i j done with
  | nil => intro _ h; simp at h
  | cons c cs ih =>
    intro hij hk hfirst
    unfold linuxLoop getrandom
    cases j with
    | zero =>
      have hcl : c.length = piece := by simpa using hk
      have : i = k := by omega
      subst this
      rw [hcl]
      have hc := hos i piece
      unfold GetrandomContract at hc
      by_cases hr : (os i piece).ret = -1
      · rw [if_pos hr, if_pos hr]
      · rw [if_neg hr, if_neg hr]
        simp only
        rw [if_neg (by omega : ¬ (os i piece).ret < 0), if_pos (by rw [overwrite_length]; omega)]
    | succ j =>
      have h0 := hfirst 0 c.length (by omega) (by simp)
      rw [Nat.add_zero] at h0
      rw [if_neg (by omega)]
      simp only
      rw [if_neg (by omega), if_neg (by rw [overwrite_length]; omega)]
      refine ih _ (i + 1) j (by omega) (by simpa using hk) fun t p ht hp => ?_
      have := hfirst (t + 1) p (by omega) (by simpa using hp)
      rwa [show i + 1 + t = i + (t + 1) by omega]

/-- C52, Apple and Windows: `Ok` is returned exactly if the single call reports success, with the bytes it wrote; a reported failure
(a non-zero status; the severity bits `11`) gives an error with that status. -/
theorem C52_apple (reply : Nat → Int × List UInt8) (len : Nat) (hfill : (reply len).1 = 0 → (reply len).2.length = len) :
    ((reply len).1 = 0 → getRandomApple reply len = .ok (reply len).2) ∧
    ((reply len).1 ≠ 0 → getRandomApple reply len = .err (.AppleSecRandom (reply len).1)) := by
  unfold getRandomApple
  simp only [List.length_replicate]
  refine ⟨fun h => ?_, fun h => by rw [if_neg h]⟩
  rw [if_pos h, overwrite_full (by rw [hfill h, List.length_replicate])]

theorem C52_windows (reply : Nat → UInt32 × List UInt8) (len : Nat)
    (hfill : ¬ (reply len).1.toNat ≥ 0xC0000000 → (reply len).2.length = len) :
    (¬ (reply len).1.toNat ≥ 0xC0000000 → getRandomWindows reply len = .ok (reply len).2) ∧
    ((reply len).1.toNat ≥ 0xC0000000 → getRandomWindows reply len = .err (.WindowsBCryptGenRandom (reply len).1)) := by
  have hsev : (reply len).1 >>> 30 = 3 ↔ (reply len).1.toNat ≥ 0xC0000000 := by
    rw [← UInt32.toNat_inj]
    have : ((reply len).1 >>> 30).toNat = (reply len).1.toNat / 2 ^ 30 := by
      rw [UInt32.toNat_shiftRight]
      show _ >>> (30 % 32) = _
      rw [Nat.shiftRight_eq_div_pow]
    rw [this]
    have := UInt32.toNat_lt (reply len).1
    show _ = 3 ↔ _
    omega
  unfold getRandomWindows
  simp only [List.length_replicate]
  refine ⟨fun h => ?_, fun h => by rw [if_pos (hsev.mpr h)]⟩
  rw [if_neg (fun h' => h (hsev.mp h')), overwrite_full (by rw [hfill h, List.length_replicate])]

/-- A kernel that meets the contract: it fills requests with sevens, but every third call with only five bytes. -/
example : let os : Linux := fun i len => if i % 3 = 2 then ⟨min len 5, List.replicate (min len 5) 7, 0⟩ else ⟨len, List.replicate len 7, 0⟩
    (∀ j len, GetrandomContract len (os j len)) ∧ askedFor 300 = [256, 44] ∧ askedFor 600 = [256, 256, 88] ∧
    getRandomLinux os 300 = .ok (List.replicate 300 7) ∧ getRandomLinux os 600 = .err .LinuxGetRandomCopiedNumberLessThanRequested := by
  refine ⟨?_, by decide, by decide, by decide +kernel, by decide +kernel⟩
  intro j len
  right
  simp only
  split
  · rw [List.length_replicate]
    exact ⟨by show min (len : Int) 5 = ((min len 5 : Nat) : Int); omega, Nat.min_le_left _ _⟩
  · rw [List.length_replicate]
    exact ⟨rfl, Nat.le_refl _⟩

end LCT.Props
