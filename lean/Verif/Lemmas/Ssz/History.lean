import Verif.Lemmas.Ssz.Encode

/-!
# Histories of an SSZ encoding item
-/

namespace LCT.Ssz
open LCT LCT.Out

theorem takeData_new {it : Item} {r : List UInt8 × Item} (h : takeData it = .ok r) : r.2 = Item.new := by
  unfold takeData at h
  cases hb : buildHeaders it.headersLen it.headers with
  | ok d => rw [hb, bind_ok] at h; cases h; rfl
  | err => rw [hb] at h; cases h
  | panic => rw [hb] at h; cases h
  | hang => rw [hb] at h; cases h

theorem bind_congr_ok {α β : Type} {x : Out Err α} {f g : α → Out Err β} (h : ∀ a, x = .ok a → f a = g a) : (x >>= f) = x >>= g := by
  cases x with
  | ok a => exact h a rfl
  | err => rfl
  | panic => rfl
  | hang => rfl

theorem runOps_take (m : Build) (it : Item) (history next : List Op) :
    runOps m it (history ++ .take :: next) = (do
      let first ← runOps m it (history ++ [.take])
      let second ← runOps m Item.new next
      return (second.1, first.2 ++ second.2)) := by
  induction history generalizing it with
  | nil =>
    simp only [List.nil_append, runOps, out_bind_assoc]
    refine bind_congr_ok fun r hr => ?_
    simp only [takeData_new hr, bind_ok]
    refine bind_congr_ok fun s _ => ?_
    rfl
  | cons op history ih =>
    cases op with
    | value t v => simp only [List.cons_append, runOps, out_bind_assoc, ih]
    | fixed bs => simp only [List.cons_append, runOps, out_bind_assoc, ih]
    | var bs => simp only [List.cons_append, runOps, out_bind_assoc, ih]
    | take =>
      simp only [List.cons_append, runOps, out_bind_assoc, ih]
      refine bind_congr_ok fun r _ => bind_congr_ok fun s _ => ?_
      rfl

theorem runOps_end (m : Build) (it : Item) (history : List Op) {r : Item × List (List UInt8)} (h : runOps m it (history ++ [.take]) = .ok r) :
    r.1 = Item.new := by
  have := runOps_take m it history []
  rw [h, bind_ok] at this
  have e : runOps m Item.new [] = .ok (Item.new, []) := rfl
  rw [e, bind_ok] at this
  exact (congrArg Prod.fst (Out.ok.inj this))

end LCT.Ssz
