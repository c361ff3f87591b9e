import Verif.Spec.RlpTypesPanic
import Verif.Lemmas.RlpTypes
import Verif.Lemmas.Ethereum.Panic

namespace LCT.Rlp
open LCT.Spec LCT.Spec.Eth LCT.Ethereum LCT.Out

theorem readable_iff (m : Build) (t : Ty) (a : ItemType × List UInt8) (hl : a.2.length < 2 ^ 64) :
    (∃ v, decTy m t ⟨a.1, a.2⟩ = .ok v) ↔ Readable t a := by
  simp only [decTy_ok_iff m t a hl]
  obtain ⟨k, p⟩ := a
  cases k with
  | SingleValue =>
    constructor
    · rintro ⟨v, x, ho, hr⟩
      cases x with
      | bytes b => cases ho; exact ⟨v, hr⟩
      | list ys => cases ho.1
    · rintro ⟨v, hr⟩
      exact ⟨v, .bytes p, rfl, hr⟩
  | List =>
    constructor
    · rintro ⟨v, x, ho, hr⟩
      cases x with
      | bytes b => cases ho
      | list ys => exact ⟨ys, v, ho.2, hr⟩
    · rintro ⟨ys, v, ho, hr⟩
      exact ⟨v, .list ys, ⟨rfl, ho⟩, hr⟩

theorem decAll_ok_exists {α : Type} {dec : Dec α} {ds : List DecItem} : (∃ vs, decAll dec ds = .ok vs) ↔ ∀ d ∈ ds, ∃ v, dec d = .ok v := by
  simp only [decAll_ok_iff]
  induction ds with
  | nil => simp
  | cons d ds ih =>
    simp only [List.forall_mem_cons, ← ih]
    constructor
    · rintro ⟨vs, h⟩
      cases h with
      | cons h1 h2 => exact ⟨⟨_, h1⟩, _, h2⟩
    · rintro ⟨⟨v, h1⟩, vs, h2⟩
      exact ⟨v :: vs, .cons h1 h2⟩

mutual
theorem decTy_panic_iff (m : Build) : (t : Ty) → (a : ItemType × List UInt8) → a.2.length < 2 ^ 64 →
    (decTy m t ⟨a.1, a.2⟩ = .panic ↔ Chokes m t a)
  | .u64, a, _ => by simp only [decTy, Chokes]; exact ret_ne_panic (decU64_returns _)
  | .big, a, _ => by simp only [decTy, Chokes]; exact ret_ne_panic (decBigUint_returns _)
  | .str, a, _ => by simp only [decTy, Chokes]; exact ret_ne_panic (decString_returns _)
  | .bytes, a, _ => by simp only [decTy, Chokes]; exact ret_ne_panic (decVecU8_returns _)
  | .address, a, _ => by simp only [decTy, Chokes]; exact ret_ne_panic (decAddress_returns _)
  | .key, a, _ => by simp only [decTy, Chokes]; exact ret_ne_panic (decStorageKey_returns _)
  | .vec t, (.SingleValue, p), _ => by
    simp only [decTy, Chokes, true_and, reduceCtorEq, false_and, or_false]
    cases m
    · exact ⟨fun _ => rfl, fun _ => rfl⟩
    · exact ⟨fun h => (nomatch h), fun h => (nomatch h)⟩
  | .vec t, (.List, p), hl => by
    simp only [decTy, Chokes, true_and, reduceCtorEq, false_and, false_or, decVec_list]
    change (decodeListPayload m p >>= fun items => decAll (decTy m t) (items.map fun x => ⟨x.1, x.2⟩)) = .panic ↔ _
    rw [bind_eq_panic, decodeListPayload_panic_iff m p hl]
    refine or_congr Iff.rfl ?_
    constructor
    · rintro ⟨items, h1, h2⟩
      have hs := (decodeListPayload_iff m p items hl).mp h1
      have hle := seq_item_le hs
      obtain ⟨pre, a, post, e, hvs, ha⟩ := (decAll_panic_iff _ _).mp h2
      obtain ⟨pre', rest, rfl, rfl, e2⟩ := List.map_eq_append_iff.mp e
      obtain ⟨a', post', rfl, rfl, rfl⟩ := List.map_eq_cons_iff.mp e2
      refine ⟨pre', a', post', hs, fun j hj => ?_, (decTy_panic_iff m t a' (Nat.lt_of_le_of_lt (hle _ (by simp)) hl)).mp ha⟩
      exact (readable_iff m t j (Nat.lt_of_le_of_lt (hle _ (by simp [hj])) hl)).mp
        (decAll_ok_exists.mp hvs ⟨j.1, j.2⟩ (List.mem_map.mpr ⟨j, hj, rfl⟩))
    · rintro ⟨before, i, after, hs, hb, hc⟩
      have hle := seq_item_le hs
      refine ⟨_, (decodeListPayload_iff m p _ hl).mpr hs, (decAll_panic_iff _ _).mpr ⟨before.map fun x => ⟨x.1, x.2⟩, ⟨i.1, i.2⟩,
        after.map fun x => ⟨x.1, x.2⟩, by simp, decAll_ok_exists.mpr fun d hd => ?_,
        (decTy_panic_iff m t i (Nat.lt_of_le_of_lt (hle _ (by simp)) hl)).mpr hc⟩⟩
      obtain ⟨j, hj, rfl⟩ := List.mem_map.mp hd
      exact (readable_iff m t j (Nat.lt_of_le_of_lt (hle _ (by simp [hj])) hl)).mpr (hb j hj)
  | .record fs, (.SingleValue, p), _ => by
    simp only [decTy, Chokes, reduceCtorEq, false_and]
  | .record fs, (.List, p), hl => by
    simp only [decTy, Chokes, true_and]
    rw [bind_eq_panic, decodeAsItems_panic_iff hl]
    refine or_congr Iff.rfl ?_
    constructor
    · rintro ⟨ds, h1, h2⟩
      obtain ⟨as, hs, rfl⟩ := (decodeAsItems_iff m hl).mp h1
      have hle := seq_item_le hs
      by_cases hlen : as.length = fs.length
      · replace h2 := (if_neg (by rw [List.length_map, hlen]; simp)).symm.trans h2
        exact ⟨as, hs, hlen, (decFields_panic_iff m fs as (fun a ha => Nat.lt_of_le_of_lt (hle a ha) hl) hlen).mp h2⟩
      · cases (if_pos (by rw [List.length_map]; exact hlen)).symm.trans h2
    · rintro ⟨as, hs, hlen, hc⟩
      have hle := seq_item_le hs
      exact ⟨_, (decodeAsItems_iff m hl).mpr ⟨as, hs, rfl⟩, (if_neg (by rw [List.length_map, hlen]; simp)).trans
        ((decFields_panic_iff m fs as (fun a ha => Nat.lt_of_le_of_lt (hle a ha) hl) hlen).mpr hc)⟩
theorem decFields_panic_iff (m : Build) : (fs : List Ty) → (as : List (ItemType × List UInt8)) → (∀ a ∈ as, a.2.length < 2 ^ 64) →
    as.length = fs.length → (decFields m fs (as.map fun x => ⟨x.1, x.2⟩) = .panic ↔ ChokesIn m fs as)
  | [], [], _, _ => by
    simp only [decFields, ChokesIn]
    exact ⟨fun h => (nomatch h), False.elim⟩
  | t :: fs, a :: as, hl, hlen => by
    have ih1 := decTy_panic_iff m t a (hl a (by simp))
    have ih2 := decFields_panic_iff m fs as (fun b hb => hl b (by simp [hb])) (by simpa using hlen)
    have hr := readable_iff m t a (hl a (by simp))
    simp only [decFields, ChokesIn, List.map_cons]
    change ((decTy m t ⟨a.1, a.2⟩ >>= fun v => decFields m fs (as.map fun x => ⟨x.1, x.2⟩) >>= fun vs => pure (v, vs)) : Out RlpErr (t.Val × Vals fs)) = .panic ↔ _
    rw [bind_eq_panic, ih1, ← hr, ← ih2]
    refine or_congr Iff.rfl ⟨?_, ?_⟩
    · rintro ⟨v, h1, h2⟩
      rw [bind_eq_panic] at h2
      rcases h2 with h2 | ⟨_, -, h2⟩
      · exact ⟨⟨v, h1⟩, h2⟩
      · cases h2
    · rintro ⟨⟨v, h1⟩, h2⟩
      exact ⟨v, h1, bind_eq_panic.mpr (.inl h2)⟩
end

/-- A whole byte string. -/
theorem decode_panic_iff {α : Type} {dec : Dec α} {m : Build} {data : List UInt8} (hl : data.length < 2 ^ 64) : decode m dec data = .panic ↔
    (m = .debug ∧ DeclaresHugeLength data) ∨ ∃ a : ItemType × List UInt8, RelaxedItem a.1 a.2 data ∧ dec ⟨a.1, a.2⟩ = .panic := by
  unfold decode DecItem.newFromData
  by_cases hh : DeclaresHugeLength data
  · have hn : ∀ t p, ¬ RelaxedItem t p data := by
      intro t p hp
      have := huge_not_relaxed (rest := []) hp hl
      rw [List.append_nil] at this
      exact this hh
    rw [decodeData_huge m data hh]
    cases m
    · simp [Out.bind, hh]
    · simp [Out.bind, hn]
  · rcases decodeData_returns m data hh with ⟨⟨t, p⟩, e⟩ | ⟨er, e⟩
    · have hr := (decodeData_iff m data t p hl).mp e
      rw [e]
      simp only [Out.bind, hh, and_false, false_or]
      constructor
      · exact fun h => ⟨(t, p), hr, h⟩
      · rintro ⟨⟨t', p'⟩, h1, h2⟩
        rw [(decodeData_iff m data t' p' hl).mpr h1] at e
        cases e
        exact h2
    · rw [e]
      simp only [Out.bind, hh, and_false, false_or, reduceCtorEq, false_iff]
      rintro ⟨⟨t', p'⟩, h1, -⟩
      rw [(decodeData_iff m data t' p' hl).mpr h1] at e
      cases e

end LCT.Rlp
