import Verif.Lemmas.RlpTyped
import Verif.Lemmas.RlpSeq

/-!
# When the decoder of nested items panics
-/

namespace LCT.Rlp
open LCT.Spec

theorem decAll_panic_iff {α : Type} (dec : Dec α) (ds : List DecItem) :
    decAll dec ds = .panic ↔ ∃ pre a post, ds = pre ++ a :: post ∧ (∃ vs, decAll dec pre = .ok vs) ∧ dec a = .panic := by
  induction ds with
  | nil => simp [decAll]
  | cons d ds ih =>
    rw [decAll]
    cases hd : dec d with
    | ok v =>
      rw [out_bind_ok]
      constructor
      · intro h
        have h' : decAll dec ds = .panic := by
          cases hh : decAll dec ds <;> rw [hh] at h <;> first | rfl | cases h
        obtain ⟨pre, a, post, e, ⟨vs, hvs⟩, ha⟩ := ih.mp h'
        refine ⟨d :: pre, a, post, by rw [e]; rfl, ⟨v :: vs, ?_⟩, ha⟩
        rw [decAll, hd, out_bind_ok, hvs, out_bind_ok]
      · rintro ⟨pre, a, post, e, ⟨vs, hvs⟩, ha⟩
        cases pre with
        | nil =>
          cases e
          rw [hd] at ha
          cases ha
        | cons b pre =>
          cases e
          rw [decAll, hd, out_bind_ok] at hvs
          obtain ⟨vs', h1, -⟩ := out_bind_eq_ok.mp hvs
          rw [ih.mpr ⟨pre, a, post, rfl, ⟨vs', h1⟩, ha⟩]
          rfl
    | panic =>
      refine ⟨fun _ => ⟨[], d, ds, rfl, ⟨[], rfl⟩, hd⟩, fun _ => rfl⟩
    | err e =>
      refine ⟨fun h => (nomatch h), ?_⟩
      rintro ⟨pre, a, post, e, ⟨vs, hvs⟩, ha⟩
      cases pre with
      | nil => cases e; rw [hd] at ha; cases ha
      | cons b pre => cases e; rw [decAll, hd] at hvs; cases hvs
    | hang =>
      refine ⟨fun h => (nomatch h), ?_⟩
      rintro ⟨pre, a, post, e, ⟨vs, hvs⟩, ha⟩
      cases pre with
      | nil => cases e; rw [hd] at ha; cases ha
      | cons b pre => cases e; rw [decAll, hd] at hvs; cases hvs

theorem seq_append {as bs : List (ItemType × List UInt8)} {d e : List UInt8} (h : RelaxedSeq as d) (h' : RelaxedSeq bs e) :
    RelaxedSeq (as ++ bs) (d ++ e) := by
  induction h with
  | nil => exact h'
  | cons t p d xs ds h _ ih =>
    rw [List.append_assoc]
    exact .cons _ _ _ _ _ h ih

theorem seq_split {as bs : List (ItemType × List UInt8)} {d : List UInt8} (h : RelaxedSeq (as ++ bs) d) :
    ∃ d1 d2, d = d1 ++ d2 ∧ RelaxedSeq as d1 ∧ RelaxedSeq bs d2 := by
  induction as generalizing d with
  | nil => exact ⟨[], d, rfl, .nil, h⟩
  | cons a as ih =>
    cases h with
    | cons t p d _ ds h hs =>
      obtain ⟨d1, d2, rfl, h1, h2⟩ := ih hs
      exact ⟨d ++ d1, d2, by rw [List.append_assoc], .cons _ _ _ _ _ h h1, h2⟩

theorem decAll_trees_iff (m : Build) (fuel : Nat) : ∀ (items : List (ItemType × List UInt8)) (data : List UInt8) (xs : List Item),
    RelaxedSeq items data → data.length < fuel → data.length < 2 ^ 64 →
    (decAll (decTree m fuel) (items.map fun x => ⟨x.1, x.2⟩) = .ok xs ↔ RelaxedTrees xs data) := by
  intro items
  induction items with
  | nil =>
    intro data xs hs _ _
    cases hs
    constructor
    · intro h; cases h; exact .nil
    · intro h
      generalize hd : ([] : List UInt8) = data at h
      cases h with
      | nil => rfl
      | cons x xs d ds h hs =>
        exfalso
        have : d = [] := by cases d <;> simp at hd ⊢
        cases h with
        | bytes p d h => exact relaxed_ne_nil h this
        | list xs p d hs h => exact relaxed_ne_nil h this
  | cons a items iha =>
    intro data xs hs hf hlen
    cases hs with
    | cons t p d _ ds h hs =>
      simp only [List.length_append] at hf hlen
      simp only [List.map_cons, decAll]
      constructor
      · intro hh
        obtain ⟨v, hv, hh⟩ := out_bind_eq_ok.mp hh
        obtain ⟨vs, hvs, hh⟩ := out_bind_eq_ok.mp hh
        cases hh
        exact .cons _ _ _ _ ((decTree_iff m fuel t p d v h (by omega) (by omega)).mp hv) ((iha ds vs hs (by omega) (by omega)).mp hvs)
      · intro hh
        generalize hd : d ++ ds = data at hh
        cases hh with
        | nil => 
          have := relaxed_ne_nil h
          simp at hd; exact absurd hd.1 this
        | cons x xs d' ds' hx hxs =>
          have hr : ∃ t' p', RelaxedItem t' p' d' := by
            cases hx with
            | bytes p d h => exact ⟨_, _, h⟩
            | list xs p d hs h => exact ⟨_, _, h⟩
          obtain ⟨t', p', h'⟩ := hr
          have hlen2 := congrArg List.length hd
          simp only [List.length_append] at hlen2
          obtain ⟨n1, e1, l1, _⟩ := relaxed_header m ds h (by omega)
          obtain ⟨n2, e2, l2, _⟩ := relaxed_header m ds' h' (by omega)
          rw [hd, e2] at e1
          simp only [Out.ok.injEq, Prod.mk.injEq] at e1
          obtain ⟨rfl, rfl⟩ := List.append_inj hd (by omega)
          rw [(decTree_iff m fuel t p d x h (by omega) (by omega)).mpr hx, out_bind_ok, (iha ds xs hs (by omega) (by omega)).mpr hxs]
          rfl

theorem trees_seq {xs : List Item} {d : List UInt8} (h : RelaxedTrees xs d) : ∃ items, RelaxedSeq items d := by
  induction xs generalizing d with
  | nil => cases h; exact ⟨_, .nil⟩
  | cons y ys ih =>
    cases h with
    | cons _ _ d ds hy hys =>
      obtain ⟨items, hi⟩ := ih hys
      cases hy with
      | bytes p d h => exact ⟨_, .cons _ _ _ _ _ h hi⟩
      | list xs p d hs h => exact ⟨_, .cons _ _ _ _ _ h hi⟩

theorem decTree_panic_iff (m : Build) (fuel : Nat) : ∀ p : List UInt8, p.length < fuel → p.length < 2 ^ 64 →
    (decTree m fuel ⟨.List, p⟩ = .panic ↔ ChokingList p) := by
  induction fuel with
  | zero => intro p h; omega
  | succ fuel ih =>
    intro p hf hl
    have key : decTree m (fuel + 1) ⟨.List, p⟩ = .panic ↔
        decodeListPayload m p = .panic ∨ ∃ items, decodeListPayload m p = .ok items ∧
          decAll (decTree m fuel) (items.map fun x => ⟨x.1, x.2⟩) = .panic := by
      simp only [decTree, decVec_list]
      cases decodeListPayload m p with
      | ok items => simp only [out_bind_ok]; cases hx : decAll (decTree m fuel) (items.map fun x => ⟨x.1, x.2⟩) <;> simp [Out.bind, hx]
      | err e => simp [Out.bind]
      | panic => simp [Out.bind]
      | hang => simp [Out.bind]
    have single : ∀ a : ItemType × List UInt8, decTree m fuel ⟨a.1, a.2⟩ = .panic → a.1 = .List := by
      rintro ⟨t, q⟩ h
      cases t with
      | List => rfl
      | SingleValue => cases fuel <;> cases h
    rw [key, decodeListPayload_panic_iff m p hl]
    constructor
    · rintro (⟨items, before, rest, rfl, h1, h2⟩ | ⟨items, h1, h2⟩)
      · exact .here items before rest h1 h2
      · have hs := (decodeListPayload_iff m p items hl).mp h1
        obtain ⟨pre, a, post, e, ⟨vs, hvs⟩, ha⟩ := (decAll_panic_iff _ _).mp h2
        obtain ⟨pre', rest, rfl, rfl, e2⟩ := List.map_eq_append_iff.mp e
        obtain ⟨a', post', rfl, rfl, rfl⟩ := List.map_eq_cons_iff.mp e2
        obtain ⟨d1, d2, rfl, s1, s2⟩ := seq_split hs
        have ht := single a' ha
        obtain ⟨t, q⟩ := a'
        cases ht
        cases s2 with
        | cons _ _ d _ ds h hs' =>
          simp only [List.length_append] at hf hl
          have hlt := relaxed_list_lt h
          exact .inside vs d1 q d post' ds ((decAll_trees_iff m fuel pre' d1 vs s1 (by omega) (by omega)).mp hvs) h
            ((ih q (by omega) (by omega)).mp ha) hs'
    · intro h
      cases h with
      | here items before rest h1 h2 => exact .inl ⟨items, before, rest, rfl, h1, h2⟩
      | inside xs before q d items after hb hd hq ha =>
        obtain ⟨pre, hpre⟩ := trees_seq hb
        have hs := seq_append hpre (RelaxedSeq.cons _ _ _ _ _ hd ha)
        simp only [List.length_append] at hf hl
        have hlt := relaxed_list_lt hd
        refine .inr ⟨_, (decodeListPayload_iff m _ _ (by simp only [List.length_append]; omega)).mpr hs, ?_⟩
        rw [decAll_panic_iff]
        refine ⟨pre.map fun x => ⟨x.1, x.2⟩, ⟨.List, q⟩, items.map fun x => ⟨x.1, x.2⟩, by simp,
          ⟨xs, (decAll_trees_iff m fuel pre before xs hpre (by omega) (by omega)).mpr hb⟩, (ih q (by omega) (by omega)).mpr hq⟩

theorem decodeTree_panic_iff (m : Build) (data : List UInt8) (hl : data.length < 2 ^ 64) :
    decodeTree m data = .panic ↔ (m = .debug ∧ DeclaresHugeLength data) ∨ ∃ p, RelaxedItem .List p data ∧ ChokingList p := by
  unfold decodeTree decode DecItem.newFromData
  by_cases hh : DeclaresHugeLength data
  · have hn : ∀ p, ¬ RelaxedItem .List p data := by
      intro p hp
      have := huge_not_relaxed (rest := []) hp hl
      rw [List.append_nil] at this
      exact this hh
    rw [decodeData_huge m data hh]
    cases m
    · simp [Out.bind, hh]
    · simp [Out.bind, hn]
  · rcases decodeData_returns m data hh with ⟨⟨t, p⟩, e⟩ | ⟨er, e⟩
    · have hr := (decodeData_iff m data t p hl).mp e
      rw [e]
      simp only [Out.bind, hh, and_false, false_or]
      cases t with
      | SingleValue =>
        constructor
        · intro h; cases h
        · rintro ⟨q, hq, -⟩
          rw [(decodeData_iff m data .List q hl).mpr hq] at e
          cases e
      | List =>
        have hlt := relaxed_list_lt hr
        rw [decTree_panic_iff m _ p (by omega) (by omega)]
        constructor
        · exact fun h => ⟨p, hr, h⟩
        · rintro ⟨q, hq, h⟩
          rw [(decodeData_iff m data .List q hl).mpr hq] at e
          cases e
          exact h
    · rw [e]
      simp only [Out.bind, hh, and_false, false_or, reduceCtorEq, false_iff]
      rintro ⟨q, hq, -⟩
      rw [(decodeData_iff m data .List q hl).mpr hq] at e
      cases e

theorem decAll_ne_hang {α : Type} {dec : Dec α} {ds : List DecItem} (h : ∀ d ∈ ds, dec d ≠ .hang) : decAll dec ds ≠ .hang := by
  induction ds with
  | nil => simp [decAll]
  | cons d ds ih =>
    rw [decAll]
    have h1 := h d List.mem_cons_self
    have h2 := ih fun x hx => h x (List.mem_cons_of_mem _ hx)
    cases hd : dec d with
    | hang => exact absurd hd h1
    | ok v =>
      rw [out_bind_ok]
      cases hx : decAll dec ds with
      | hang => exact absurd hx h2
      | ok _ => simp [Out.bind]
      | err _ => simp [Out.bind]
      | panic => simp [Out.bind]
    | err _ => simp [Out.bind]
    | panic => simp [Out.bind]

theorem seq_item_le {as : List (ItemType × List UInt8)} {d : List UInt8} (hs : RelaxedSeq as d) : ∀ a ∈ as, a.2.length ≤ d.length := by
  induction hs with
  | nil => simp
  | cons t p d xs ds h _ ih =>
    intro a ha
    rw [List.length_append]
    rcases List.mem_cons.mp ha with rfl | ha
    · have := relaxed_le h
      simp only
      omega
    · have := ih a ha
      omega

theorem seq_list_lt {as : List (ItemType × List UInt8)} {d : List UInt8} (hs : RelaxedSeq as d) :
    ∀ q, (ItemType.List, q) ∈ as → q.length < d.length := by
  induction hs with
  | nil => simp
  | cons t p d xs ds h _ ih =>
    intro q hq
    rw [List.length_append]
    rcases List.mem_cons.mp hq with e | hq
    · cases e
      have := relaxed_list_lt h
      omega
    · have := ih q hq
      omega

theorem decTree_ne_hang (m : Build) (fuel : Nat) : ∀ (t : ItemType) (p : List UInt8), 0 < fuel → (t = .List → p.length < fuel) → p.length < 2 ^ 64 →
    decTree m fuel ⟨t, p⟩ ≠ .hang := by
  induction fuel with
  | zero => intro t p h; omega
  | succ fuel ih =>
    intro t p _ hf hl
    cases t with
    | SingleValue => intro h; cases h
    | List =>
      have hf := hf rfl
      simp only [decTree, decVec_list]
      have h1 := decodeListLoop_ne_hang m (p.length + 1) p (by omega)
      cases hd : decodeListPayload m p with
      | hang => exact absurd hd h1
      | err _ => simp [Out.bind]
      | panic => simp [Out.bind]
      | ok items =>
        have hs := (decodeListPayload_iff m p items hl).mp hd
        have h2 : decAll (decTree m fuel) (items.map fun x => ⟨x.1, x.2⟩) ≠ .hang := by
          apply decAll_ne_hang
          intro d hd
          obtain ⟨⟨t, q⟩, ha, rfl⟩ := List.mem_map.mp hd
          have hle : q.length ≤ p.length := seq_item_le hs _ ha
          have hlt : t = .List → q.length < fuel := by
            rintro rfl
            have := seq_list_lt hs q ha
            omega
          have h0 : 0 < fuel := by
            cases items with
            | nil => cases ha
            | cons a items =>
              cases hs with
              | cons t p d _ ds h _ =>
                have := relaxed_ne_nil h
                have := List.length_pos_iff.mpr this
                rw [List.length_append] at hf
                omega
          exact ih t q h0 hlt (by omega)
        rw [out_bind_ok]
        cases hx : decAll (decTree m fuel) (items.map fun x => ⟨x.1, x.2⟩) with
        | hang => exact absurd hx h2
        | ok _ => simp [Out.bind]
        | err _ => simp [Out.bind]
        | panic => simp [Out.bind]

theorem decodeTree_ne_hang (m : Build) (data : List UInt8) (hl : data.length < 2 ^ 64) : decodeTree m data ≠ .hang := by
  unfold decodeTree decode DecItem.newFromData
  by_cases hh : DeclaresHugeLength data
  · rw [decodeData_huge m data hh]
    cases m <;> simp [Out.bind]
  · rcases decodeData_returns m data hh with ⟨⟨t, p⟩, e⟩ | ⟨er, e⟩
    · have hr := (decodeData_iff m data t p hl).mp e
      have hle := relaxed_le hr
      rw [e]
      exact decTree_ne_hang m _ t p (by omega) (fun _ => by omega) (by omega)
    · rw [e]; simp [Out.bind]

end LCT.Rlp
