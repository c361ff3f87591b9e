import Verif.Spec.Random

/-!
# Lemmas about OS randomness
-/

namespace LCT.Random
open LCT.Spec

theorem overwrite_full {buf data : List UInt8} (h : data.length = buf.length) : overwrite buf data = data := by
  unfold overwrite
  rw [← h, List.take_length, h, List.drop_length, List.append_nil]

theorem overwrite_length (buf data : List UInt8) : (overwrite buf data).length = buf.length := by
  unfold overwrite
  rw [List.length_append, List.length_take, List.length_drop]
  omega

theorem chunks_lengths (f : Nat) (l : List UInt8) (h : l.length ≤ f) : (chunks 256 f l).map List.length = askedFor l.length := by
  induction f generalizing l with
  | zero =>
    have : l = [] := List.length_eq_zero_iff.mp (by omega)
    subst this; rfl
  | succ f ih =>
    unfold chunks
    by_cases h0 : l = []
    · subst h0; rfl
    · rw [if_neg h0]
      have hpos : 0 < l.length := List.length_pos_iff.mpr h0
      simp only [List.map_cons, List.length_take]
      rw [ih _ (by rw [List.length_drop]; omega), List.length_drop]
      unfold askedFor
      by_cases hlt : l.length < 256
      · have e1 : l.length - 256 = 0 := by omega
        have e2 : l.length / 256 = 0 := by omega
        have e3 : l.length % 256 = l.length := by omega
        rw [e1, e2, e3, if_neg (show ¬ l.length = 0 by omega), Nat.min_eq_right (by omega)]
        rfl
      · have e1 : l.length / 256 = (l.length - 256) / 256 + 1 := by omega
        have e2 : l.length % 256 = (l.length - 256) % 256 := by omega
        rw [e1, e2, Nat.min_eq_left (by omega), List.replicate_succ, List.cons_append]

theorem askedFor_sum (len : Nat) : (askedFor len).sum = len := by
  have hrep : ∀ k, (List.replicate k 256).sum = k * 256 := by
    intro k
    induction k with
    | zero => rfl
    | succ k ih => rw [List.replicate_succ, List.sum_cons, ih]; omega
  unfold askedFor
  rw [List.sum_append, hrep]
  split
  · rw [List.sum_nil]; omega
  · rw [List.sum_cons, List.sum_nil]; omega

theorem linuxLoop_ok (os : Linux) (cs : List (List UInt8)) (i : Nat) (done out : List UInt8)
    (hos : ∀ j len, GetrandomContract len (os j len)) (h : linuxLoop os i done cs = .ok out) :
    out = done ++ ((cs.map List.length).zipIdx i).flatMap (fun c => (os c.2 c.1).written) ∧
    ∀ c ∈ (cs.map List.length).zipIdx i, (os c.2 c.1).ret = c.1 ∧ (os c.2 c.1).written.length = c.1 := by
  induction cs generalizing i done with
  | nil =>
    cases h
    simp
  | cons c cs ih =>
    unfold linuxLoop getrandom at h
    by_cases hr : (os i c.length).ret = -1
    · rw [if_pos hr] at h; cases h
    · rw [if_neg hr] at h
      simp only at h
      by_cases hneg : (os i c.length).ret < 0
      · rw [if_pos hneg] at h; cases h
      · rw [if_neg hneg] at h
        by_cases hlen : (os i c.length).ret.toNat ≠ (overwrite c (os i c.length).written).length
        · rw [if_pos hlen] at h; cases h
        · rw [if_neg hlen] at h
          rw [overwrite_length] at hlen
          obtain ⟨h1, h2⟩ := (hos i c.length).resolve_left hr
          have hw : (os i c.length).written.length = c.length := by omega
          obtain ⟨e, hall⟩ := ih (i + 1) _ h
          rw [overwrite_full hw] at e
          simp only [List.map_cons, List.zipIdx_cons, List.flatMap_cons]
          refine ⟨by rw [e, List.append_assoc], ?_⟩
          intro x hx
          rcases List.mem_cons.mp hx with rfl | hx
          · exact ⟨by show (os i c.length).ret = c.length; omega, hw⟩
          · exact hall x hx

end LCT.Random
