import Verif.Spec.SszItems
import Verif.Lemmas.Ssz.Total
import Verif.Lemmas.Ssz.Canonical

/-!
# C103: taking an SSZ container apart by hand

A user who implements the trait for a struct calls `decode_as_items` with the sizes of the fields
(`/repo/src/blockchain/ethereum/ssz/container_types.rs:33-111`).
-/

namespace LCT.Props
open LCT.Ssz LCT.Spec.Ssz LCT.Out

private theorem headers_sum (sizes : List (Option Nat)) : (sizes.map headerOf).sum = headersTotal sizes := by
  induction sizes with
  | nil => rfl
  | cons s sizes ih => cases s <;> simp [headersTotal, headerOf, ih]

private theorem snoc_fixed {data : List UInt8} (n : Nat) (sizes : List (Option Nat)) : ∀ (pos : Nat) (items : List (List UInt8)) (first last : Nat),
    Elements data (sizes ++ [some n]) pos items first last ↔
      ∃ its, items = its ++ [(data.drop (pos + headersTotal sizes)).take n] ∧ Elements data sizes pos its first last := by
  induction sizes with
  | nil =>
    intro pos items first last
    constructor
    · intro h
      cases h with
      | fixed _ _ _ items _ _ h => cases h with | nil => exact ⟨[], rfl, .nil _ _⟩
    · rintro ⟨its, rfl, h⟩
      cases h with | nil => exact .fixed _ _ _ _ _ _ (.nil _ _)
  | cons s sizes ih =>
    intro pos items first last
    constructor
    · intro h
      cases h with
      | fixed k _ _ items _ _ h =>
        obtain ⟨its, rfl, h'⟩ := (ih _ _ _ _).mp h
        exact ⟨_ :: its, by rw [headersTotal, ← Nat.add_assoc]; rfl, .fixed _ _ _ _ _ _ h'⟩
      | var _ _ _ items _ _ h ho hle =>
        obtain ⟨its, rfl, h'⟩ := (ih _ _ _ _).mp h
        exact ⟨_ :: its, by rw [headersTotal, ← Nat.add_assoc]; rfl, .var _ _ _ _ _ _ h' ho hle⟩
    · rintro ⟨its, rfl, h⟩
      cases h with
      | fixed k _ _ items _ _ h =>
        refine .fixed _ _ _ _ _ _ ((ih _ _ _ _).mpr ⟨items, ?_, h⟩)
        rw [headersTotal, ← Nat.add_assoc]; rfl
      | var _ _ _ items _ _ h ho hle =>
        refine .var _ _ _ _ _ _ ((ih _ _ _ _).mpr ⟨items, ?_, h⟩) ho hle
        rw [headersTotal, ← Nat.add_assoc]; rfl

private theorem snoc_var {data : List UInt8} (sizes : List (Option Nat)) : ∀ (pos : Nat) (items : List (List UInt8)) (first last : Nat),
    Elements data (sizes ++ [none]) pos items first last ↔
      ∃ its o, items = its ++ [(data.drop o).take (last - o)] ∧ (data.drop (pos + headersTotal sizes)).take 4 = le 4 o ∧ o ≤ last ∧
        Elements data sizes pos its first o := by
  induction sizes with
  | nil =>
    intro pos items first last
    constructor
    · intro h
      cases h with
      | var _ _ _ items _ _ h ho hle => cases h with | nil => exact ⟨[], _, rfl, ho, hle, .nil _ _⟩
    · rintro ⟨its, o, rfl, ho, hle, h⟩
      cases h with | nil => exact .var _ _ _ _ _ _ (.nil _ _) ho hle
  | cons s sizes ih =>
    intro pos items first last
    constructor
    · intro h
      cases h with
      | fixed k _ _ items _ _ h =>
        obtain ⟨its, o, rfl, h1, h2, h'⟩ := (ih _ _ _ _).mp h
        exact ⟨_ :: its, o, rfl, by rw [headersTotal, ← Nat.add_assoc]; exact h1, h2, .fixed _ _ _ _ _ _ h'⟩
      | var _ _ _ items _ _ h ho hle =>
        obtain ⟨its, o, rfl, h1, h2, h'⟩ := (ih _ _ _ _).mp h
        exact ⟨_ :: its, o, rfl, by rw [headersTotal, ← Nat.add_assoc]; exact h1, h2, .var _ _ _ _ _ _ h' ho hle⟩
    · rintro ⟨its, o, rfl, h1, h2, h⟩
      cases h with
      | fixed k _ _ items _ _ h =>
        rw [headersTotal, ← Nat.add_assoc] at h1
        exact .fixed _ _ _ _ _ _ ((ih _ _ _ _).mpr ⟨items, o, rfl, h1, h2, h⟩)
      | var _ _ _ items _ _ h ho hle =>
        rw [headersTotal, ← Nat.add_assoc] at h1
        exact .var _ _ _ _ _ _ ((ih _ _ _ _).mpr ⟨items, o, rfl, h1, h2, h⟩) ho hle

private theorem headersTotal_reverse (sizes : List (Option Nat)) : headersTotal sizes.reverse = headersTotal sizes := by
  rw [← headers_sum, ← headers_sum, List.map_reverse, List.sum_reverse]

private theorem loop_iff (m : Build) (bs : List UInt8) (hb : bs.length < 2 ^ 32) (rs : List (Option Nat)) :
    ∀ (previous : Nat) (acc items : List (List UInt8)), previous ≤ bs.length → headersTotal rs ≤ bs.length →
      (itemsLoop m bs rs previous (headersTotal rs) acc = .ok items ↔
        ∃ its first, items = its ++ acc ∧ Elements bs rs.reverse 0 its first previous) := by
  induction rs with
  | nil =>
    intro previous acc items _ _
    rw [itemsLoop]
    constructor
    · intro h; cases h; exact ⟨[], _, rfl, .nil _ _⟩
    · rintro ⟨its, first, rfl, h⟩
      cases h; rfl
  | cons s rs ih =>
    intro previous acc items hp hc
    cases s with
    | none =>
      rw [headersTotal] at hc ⊢
      rw [itemsLoop, subU32_ok m (by omega), bind_ok, Nat.add_sub_cancel_left, slice_ok (by omega) hc, bind_ok, Nat.add_sub_cancel,
        List.reverse_cons]
      have key : ∀ o, o < 2 ^ 32 → (decodeU32 m ((bs.drop (headersTotal rs)).take 4) = .ok o ↔ (bs.drop (headersTotal rs)).take 4 = le 4 o) :=
        fun o ho => ⟨fun h => (decodeU32_canon m h).symm, fun h => by rw [h]; exact decodeU32_le m ho⟩
      constructor
      · intro h
        obtain ⟨o, h1, h⟩ := bind_eq_ok h
        have ho := (decodeU32_canon m h1).symm
        split at h
        · cases h
        rename_i hle
        rw [slice_ok (by omega) hp, bind_ok, bind_ok] at h
        obtain ⟨its, first, rfl, he⟩ := (ih o _ _ (by omega) (by omega)).mp h
        refine ⟨its ++ [(bs.drop o).take (previous - o)], first, by simp, (snoc_var _ _ _ _ _).mpr ⟨its, o, rfl, ?_, by omega, he⟩⟩
        rw [Nat.zero_add, headersTotal_reverse]; exact ho
      · rintro ⟨its, first, rfl, h⟩
        obtain ⟨its, o, rfl, ho, hle, he⟩ := (snoc_var _ _ _ _ _).mp h
        rw [Nat.zero_add, headersTotal_reverse] at ho
        rw [(key o (by omega)).mpr ho, bind_ok, if_neg (by omega), slice_ok hle hp, bind_ok, bind_ok]
        exact (ih o _ _ (by omega) (by omega)).mpr ⟨its, first, by simp, he⟩
    | some n =>
      rw [headersTotal] at hc ⊢
      rw [itemsLoop, if_neg (by omega), Nat.add_sub_cancel_left, slice_ok (by omega) hc, bind_ok, Nat.add_sub_cancel, List.reverse_cons]
      rw [ih previous _ _ hp (by omega)]
      constructor
      · rintro ⟨its, first, rfl, he⟩
        refine ⟨its ++ [(bs.drop (headersTotal rs)).take n], first, by simp, (snoc_fixed _ _ _ _ _ _).mpr ⟨its, ?_, he⟩⟩
        rw [Nat.zero_add, headersTotal_reverse]
      · rintro ⟨its, first, rfl, h⟩
        obtain ⟨its, rfl, he⟩ := (snoc_fixed _ _ _ _ _ _).mp h
        rw [Nat.zero_add, headersTotal_reverse]
        exact ⟨its, first, by simp, he⟩

/-- C103: for whatever sizes the user gives, the data fall apart into exactly the elements that the headers describe, provided that the data
are shorter than `2^32` and contain all headers, and that the offsets do not decrease nor point beyond the data. -/
theorem C103_items (m : Build) (data : List UInt8) (sizes : List (Option Nat)) (hs : headersTotal sizes < 2 ^ 32) (items : List (List UInt8)) :
    decodeAsItems m data sizes = .ok items ↔
      data.length < 2 ^ 32 ∧ headersTotal sizes ≤ data.length ∧ ∃ first, Elements data sizes 0 items first data.length := by
  unfold decodeAsItems
  rw [headersLength_sum m sizes 0 (by rw [headers_sum]; omega), bind_ok, headers_sum, Nat.zero_add]
  split
  · rename_i h
    exact ⟨fun h => (by cases h), fun h' => absurd h'.1 (by omega)⟩
  split
  · exact ⟨fun h => (by cases h), fun h' => absurd h'.2.1 (by omega)⟩
  rename_i h1 h2
  rw [← headersTotal_reverse, loop_iff m data (by omega) sizes.reverse data.length [] items (Nat.le_refl _) (by rw [headersTotal_reverse]; omega),
    List.reverse_reverse, headersTotal_reverse]
  simp only [List.append_nil]
  constructor
  · rintro ⟨its, first, rfl, h⟩; exact ⟨by omega, by omega, first, h⟩
  · rintro ⟨_, _, first, h⟩; exact ⟨items, first, rfl, h⟩

/-- C103: with such sizes nothing panics, in either build: other data are refused. -/
theorem C103_refused (m : Build) (data : List UInt8) (sizes : List (Option Nat)) (hs : headersTotal sizes < 2 ^ 32) :
    (∃ items, decodeAsItems m data sizes = .ok items) ∨ decodeAsItems m data sizes = .err .invalidFormat := by
  rcases decodeAsItems_good m data sizes (by rw [headers_sum]; exact hs) with ⟨its, h, _⟩ | ⟨e, h⟩
  · exact .inl ⟨its, h⟩
  · cases e; exact .inr h

/-- C103: there are as many elements as sizes. -/
theorem C103_count (m : Build) (data : List UInt8) (sizes : List (Option Nat)) (hs : headersTotal sizes < 2 ^ 32) (items : List (List UInt8))
    (h : decodeAsItems m data sizes = .ok items) : items.length = sizes.length := by
  rcases decodeAsItems_good m data sizes (by rw [headers_sum]; exact hs) with ⟨its, h', hl⟩ | ⟨e, h'⟩
  · rw [h] at h'; cases h'; exact hl
  · rw [h] at h'; cases h'

private theorem headersLength_panic (sizes : List (Option Nat)) : ∀ len, len < 2 ^ 32 → 2 ^ 32 ≤ len + headersTotal sizes →
    headersLength .debug len sizes = .panic := by
  induction sizes with
  | nil => intro len h1 h2; rw [headersTotal] at h2; omega
  | cons s sizes ih =>
    intro len h1 h2
    cases s with
    | none =>
      rw [headersTotal] at h2
      rw [headersLength, addU32]
      split
      · rw [bind_ok]; exact ih _ (by omega) (by omega)
      · rfl
    | some n =>
      rw [headersTotal] at h2
      rw [headersLength, addU32]
      split
      · rw [bind_ok]; exact ih _ (by omega) (by omega)
      · rfl

/-- C103: the bound on the sizes is needed: headers of `2^32` bytes or more make debug builds panic, whatever the data, and in release builds
there are sizes with which even no data panic. -/
theorem C103_too_large :
    (∀ (data : List UInt8) (sizes : List (Option Nat)), 2 ^ 32 ≤ headersTotal sizes → decodeAsItems .debug data sizes = .panic) ∧
      decodeAsItems .release [] [some (2 ^ 32 - 4), none] = .panic := by
  refine ⟨fun data sizes h => ?_, by decide +kernel⟩
  unfold decodeAsItems
  rw [headersLength_panic sizes 0 (by omega) (by omega)]
  rfl

example : 2 ^ 32 ≤ headersTotal [some (2 ^ 32 - 4), none] := by decide

/-- A byte, two elements of variable size and two bytes: the first has one byte, the second two. -/
example : headersTotal [some 1, none, none, some 2] < 2 ^ 32 ∧
    decodeAsItems .debug [7, 11, 0, 0, 0, 12, 0, 0, 0, 8, 9, 1, 2, 3] [some 1, none, none, some 2] = .ok [[7], [1], [2, 3], [8, 9]] ∧
    decodeAsItems .debug [7, 12, 0, 0, 0, 11, 0, 0, 0, 8, 9, 1, 2, 3] [some 1, none, none, some 2] = .err .invalidFormat := by decide +kernel

end LCT.Props
