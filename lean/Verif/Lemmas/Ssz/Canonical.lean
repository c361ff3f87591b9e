import Verif.Lemmas.Ssz.Total

/-!
# SSZ decoding: what the accepted data looks like
-/

namespace LCT.Ssz
open LCT LCT.Out LCT.Spec.Ssz
open LCT.Hash.Sha2 (chunksExact chunksExact_eq pieces_length pieces_each)
open LCT.Hash.Sha3 (flatten_pieces)

theorem bind_eq_ok {α β : Type} {x : Out Err α} {f : α → Out Err β} {b : β} (h : (x >>= f) = .ok b) : ∃ a, x = .ok a ∧ f a = .ok b := by
  cases x with
  | ok a => exact ⟨a, rfl, h⟩
  | err => cases h
  | panic => cases h
  | hang => cases h

theorem pure_inj {α : Type} {a b : α} (h : (pure a : Out Err α) = .ok b) : a = b := by cases h; rfl
theorem ok_inj {α : Type} {a b : α} (h : (Out.ok a : Out Err α) = .ok b) : a = b := by cases h; rfl

theorem uint_canon (m : Build) (k : Nat) (bs : List UInt8) (x : BitVec (8 * k)) (h : (uintImpl k).tryFromBytes m bs = .ok x) : toLEk k x.toNat = bs := by
  unfold uintImpl at h
  dsimp only at h
  split at h
  · rename_i hlen
    have h := ok_inj h
    subst h hlen
    rw [BitVec.toNat_ofNat, fromLE_eq, Nat.mod_eq_of_lt]
    · exact toLEk_ofLE bs
    · have := ofLE_lt bs
      rwa [show (256 : Nat) ^ bs.length = 2 ^ (8 * bs.length) by rw [Nat.pow_mul]] at this
  · cases h

theorem decodeU32_canon (m : Build) {bs : List UInt8} {n : Nat} (h : decodeU32 m bs = .ok n) : le 4 n = bs := by
  unfold decodeU32 at h
  obtain ⟨x, hx, h⟩ := bind_eq_ok h
  have h := pure_inj h
  subst h
  rw [le_eq]
  exact uint_canon m 4 bs x hx

theorem bool_canon (m : Build) (bs : List UInt8) (b : Ty.Val .bool) (h : (impl .bool).tryFromBytes m bs = .ok b) : serialize .bool b = bs := by
  rw [serialize]
  revert b
  intro (b : Bool) h
  rw [impl] at h
  unfold boolImpl at h
  dsimp only at h
  split at h
  · rename_i hlen
    match bs, hlen with
    | [c], _ =>
      have e : fromLE [c] = c.toNat := by rw [fromLE_eq]; simp [Spec.ofLE]
      rw [e] at h
      split at h
      · rename_i hc
        have h := ok_inj h; subst h
        have : c = 0 := UInt8.toNat_inj.mp hc
        subst this; rfl
      · rename_i hc
        have h := ok_inj h; subst h
        have : c = 1 := UInt8.toNat_inj.mp hc
        subst this; rfl
      · cases h
  · cases h

theorem decodeEach_canon {α : Type} (m : Build) (T : SszType α) (s : α → List UInt8) (cs : List (List UInt8)) (vs : List α)
    (hT : ∀ c ∈ cs, ∀ v, T.tryFromBytes m c = .ok v → s v = c) (h : decodeEach m T cs = .ok vs) : vs.map s = cs := by
  induction cs generalizing vs with
  | nil => cases h; rfl
  | cons c cs ih =>
    unfold decodeEach at h
    obtain ⟨v, hv, h⟩ := bind_eq_ok h
    obtain ⟨ws, hws, h⟩ := bind_eq_ok h
    have h := pure_inj h; subst h
    rw [List.map_cons, hT c List.mem_cons_self v hv, ih ws (fun d hd => hT d (List.mem_cons_of_mem _ hd)) hws]

theorem each_canon {α : Type} (m : Build) (T : SszType α) (s : α → List UInt8) (k : Nat) (hk : 0 < k) (bs : List UInt8) (vs : List α)
    (hT : ∀ c v, T.tryFromBytes m c = .ok v → c.length = k → s v = c) (hlen : bs.length % k = 0)
    (h : decodeEach m T (chunksExact k bs) = .ok vs) : assemble (vs.map fun v => ⟨false, s v⟩) = bs := by
  rw [chunksExact_eq] at h
  rw [assemble_fixed, decodeEach_canon m T s _ vs (fun c hc v hv => hT c v hv (pieces_each hc)) h]
  refine flatten_pieces k (bs.length / k) bs ?_
  have := Nat.div_add_mod bs.length k
  rw [Nat.mul_comm]; omega

theorem toArray_val {α : Type} {n : Nat} {vs : List α} {a : { vs : List α // vs.length = n }} (h : toArray n vs = .ok a) : a.val = vs := by
  unfold toArray at h
  split at h
  · rw [← ok_inj h]
  · cases h

theorem itemsLoop_fixed (m : Build) (bs : List UInt8) (ss : List Nat) (previous : Nat) (items its : List (List UInt8)) (hc : ss.sum ≤ bs.length)
    (h : itemsLoop m bs (ss.map some).reverse previous ss.sum items = .ok its) :
    ∃ front, its = front ++ items ∧ front.flatten = bs.take ss.sum ∧ front.map List.length = ss := by
  induction ss using List.reverseRecOn generalizing items its with
  | nil => exact ⟨[], by cases h; exact ⟨rfl, by simp, rfl⟩⟩
  | append_singleton ss k ih =>
    rw [List.sum_append] at hc h ⊢
    simp only [List.map_append, List.map_cons, List.map_nil, List.reverse_append, List.reverse_singleton, List.singleton_append, List.sum_singleton] at h hc ⊢
    rw [itemsLoop, if_neg (by omega), Nat.add_sub_cancel, slice_ok (by omega) hc, bind_ok] at h
    obtain ⟨front, hf, hfl, hfm⟩ := ih _ _ (by omega) h
    refine ⟨front ++ [(bs.drop ss.sum).take (ss.sum + k - ss.sum)], by rw [hf]; simp, ?_, ?_⟩
    · rw [List.flatten_append, hfl, List.flatten_singleton, Nat.add_sub_cancel_left, ← List.take_add]
    · rw [List.map_append, hfm]
      simp only [List.map_cons, List.map_nil, List.length_take, List.length_drop]
      congr 2; omega

theorem assemble_fixed' (ps : List Part) (h : ∀ p ∈ ps, p.isVar = false) : assemble ps = (ps.map Part.bytes).flatten := by
  have e : ps = (ps.map Part.bytes).map fun b => ⟨false, b⟩ := by
    rw [List.map_map]
    conv_lhs => rw [← List.map_id ps]
    refine List.map_congr_left fun p hp => ?_
    have := h p hp
    cases p
    simp_all
  have := assemble_fixed (fun b => b) (ps.map Part.bytes)
  rw [List.map_id'] at this
  rw [← this, ← e]

theorem parts_fixed : (fs : List Ty) → anyVariable fs = false → (vs : Vals fs) → ∀ p ∈ parts fs vs, p.isVar = false
  | [], _, _, p, hp => by simp [parts] at hp
  | t :: fs, h, vs, p, hp => by
    simp only [anyVariable, Bool.or_eq_false_iff] at h
    rw [parts] at hp
    rcases List.mem_cons.mp hp with rfl | hp
    · exact h.1
    · exact parts_fixed fs h.2 _ p hp

theorem sizes_fixed : (fs : List Ty) → anyVariable fs = false → fs.map sizeOf' = (fs.map Ty.head).map some ∧ (fs.map Ty.head).sum = heads fs
  | [], _ => ⟨rfl, rfl⟩
  | t :: fs, h => by
    simp only [anyVariable, Bool.or_eq_false_iff] at h
    have ih := sizes_fixed fs h.2
    refine ⟨?_, ?_⟩
    · rw [List.map_cons, List.map_cons, List.map_cons, ih.1]
      congr 1
      unfold sizeOf'
      rw [h.1]; rfl
    · rw [List.map_cons, List.sum_cons, ih.2, heads, h.1]; rfl

mutual
  /-- Data of the right length that decodes as a value of a type of fixed size is the serialization of the value. -/
  theorem fixed_canon (m : Build) : (t : Ty) → t.Legal → t.Small → t.isVariable = false → (bs : List UInt8) → (v : t.Val) →
      (impl t).tryFromBytes m bs = .ok v → bs.length = t.head → serialize t v = bs
    | .bool, _, _, _, bs, v, h, _ => bool_canon m bs v h
    | .uint w, _, _, _, bs, v, h, _ => by
      rw [serialize, le_eq]
      exact uint_canon m w.bytes bs v h
    | .vec n t, hl, hs, hv, bs, vs, h, hlen => by
      simp only [Ty.isVariable] at hv
      simp only [Ty.head, hv, Bool.false_eq_true, if_false] at hlen
      have hsize := size_ok m t hl.2 hs.2
      have hsm := hs.1
      rw [hv] at hsm
      simp only [Bool.false_eq_true, if_false] at hsm
      have hp := head_pos t hl.2 hv
      rw [impl] at h
      unfold arrayImpl at h
      dsimp only at h
      rw [hsize, bind_ok] at h
      unfold sizeOf' at h
      rw [hv] at h
      simp only [Bool.false_eq_true, if_false] at h
      rw [toU32_ok (Nat.lt_of_le_of_lt (Nat.le_mul_of_pos_right n hp) hsm), bind_ok, checkedMul_ok (by rw [Nat.mul_comm]; exact hsm), bind_ok,
        if_neg (by rw [hlen, Nat.mul_comm]; simp), chunks_ok hp, bind_ok] at h
      obtain ⟨ws, hws, h⟩ := bind_eq_ok h
      have hval : vs.val = ws := toArray_val h
      rw [serialize, hv]
      show assemble (vs.val.map _) = bs
      rw [hval]
      exact each_canon m (impl t) (serialize t) t.head hp bs ws (fun c v hc hl' => fixed_canon m t hl.2 hs.2 hv c v hc hl')
        (by rw [hlen, Nat.mul_mod_left]) hws
    | .list t, _, _, hv, _, _, _, _ => by simp [Ty.isVariable] at hv
    | .container fs, hl, hs, hv, bs, vs, h, hlen => by
      simp only [Ty.isVariable] at hv
      simp only [Ty.head] at hlen
      replace h : (do
        let sizes ← (fields fs).sizes m
        let items ← decodeAsItems m bs sizes
        (fields fs).decode m items) = .ok vs := h
      rw [sizes_ok m fs hl.2 hs.2, bind_ok] at h
      obtain ⟨its, hits, h⟩ := bind_eq_ok h
      obtain ⟨e1, e2⟩ := sizes_fixed fs hv
      unfold decodeAsItems at hits
      rw [headersLength_sum m _ 0 (by rw [headers_eq, Nat.zero_add]; exact hs.1), bind_ok, headers_eq, Nat.zero_add, if_neg (by have := hs.1; omega),
        if_neg (by omega), e1, ← e2] at hits
      obtain ⟨front, hf, hfl, hfm⟩ := itemsLoop_fixed m bs _ _ _ _ (by omega) hits
      rw [List.append_nil] at hf
      subst hf
      rw [serialize, assemble_fixed' _ (parts_fixed fs hv vs), fixedFields_canon m fs hl.2 hs.2 hv its vs h hfm, hfl, e2, ← hlen, List.take_length]
  theorem fixedFields_canon (m : Build) : (fs : List Ty) → allLegal fs → allSmall fs → anyVariable fs = false → (items : List (List UInt8)) → (vs : Vals fs) →
      (fields fs).decode m items = .ok vs → items.map List.length = fs.map Ty.head → (parts fs vs).map Part.bytes = items
    | [], _, _, _, [], _, _, _ => rfl
    | [], _, _, _, _ :: _, _, _, h => by simp at h
    | t :: fs, _, _, _, [], _, _, h => by simp at h
    | t :: fs, hl, hs, hv, item :: items, vs, h, hlen => by
      simp only [anyVariable, Bool.or_eq_false_iff] at hv
      simp only [List.map_cons, List.cons.injEq] at hlen
      rw [fields] at h
      replace h : (do
        let a ← LCT.Ssz.decode m (impl t) item
        let b ← (fields fs).decode m items
        return (a, b)) = .ok vs := h
      obtain ⟨a, ha, h⟩ := bind_eq_ok h
      obtain ⟨b, hb, h⟩ := bind_eq_ok h
      have h := pure_inj h
      rw [parts, List.map_cons]
      subst h
      show serialize t a :: (parts fs b).map Part.bytes = _
      rw [fixed_canon m t hl.1 hs.1 hv.1 item a ha hlen.1, fixedFields_canon m fs hl.2 hs.2 hv.2 items b hb hlen.2]
end

/-! ## Lists -/

theorem readOffsets_canon (m : Build) (len previous : Nat) (cs : List (List UInt8)) (os : List Nat) (h : readOffsets m len previous cs = .ok os) :
    os.map (le 4) = cs := by
  induction cs generalizing previous os with
  | nil => cases h; rfl
  | cons c cs ih =>
    unfold readOffsets at h
    obtain ⟨o, ho, h⟩ := bind_eq_ok h
    split at h
    · cases h
    · obtain ⟨os', hos', h⟩ := bind_eq_ok h
      have h := pure_inj h; subst h
      rw [List.map_cons, decodeU32_canon m ho, ih _ _ hos']

theorem decodeWindows_canon {α : Type} (m : Build) (T : SszType α) (s : α → List UInt8) (bs : List UInt8)
    (hT : ∀ c v, T.tryFromBytes m c = .ok v → s v = c) (os : List Nat) (o previous : Nat) (vs : List α)
    (hin : InOrder bs.length previous ((o :: os) ++ [bs.length])) (h : decodeWindows m T bs ((o :: os) ++ [bs.length]) = .ok vs) :
    (vs.map s).flatten = bs.drop o ∧ offs' o (vs.map s) = o :: os := by
  induction os generalizing o previous vs with
  | nil =>
    rw [List.singleton_append] at h hin
    rw [decodeWindows, dassert_true m (by simpa using hin.2.1), bind_ok, slice_ok hin.2.1 (Nat.le_refl _), bind_ok] at h
    obtain ⟨v, hv, h⟩ := bind_eq_ok h
    obtain ⟨ws, hws, h⟩ := bind_eq_ok h
    have h := pure_inj h; subst h
    cases hws
    have e := hT _ v hv
    rw [List.take_of_length_le (by simp)] at e
    simp [e, offs']
  | cons o2 os ih =>
    rw [List.cons_append, List.cons_append] at h hin
    have h12 : o ≤ o2 := hin.2.2.1
    have h2l : o2 ≤ bs.length := hin.2.2.2.1
    rw [decodeWindows, dassert_true m (by simpa using h12), bind_ok, slice_ok h12 h2l, bind_ok] at h
    obtain ⟨v, hv, h⟩ := bind_eq_ok h
    obtain ⟨ws, hws, h⟩ := bind_eq_ok h
    have h := pure_inj h; subst h
    obtain ⟨i1, i2⟩ := ih o2 o ws hin.2.2 hws
    have e := hT _ v hv
    have hl : ((bs.drop o).take (o2 - o)).length = o2 - o := by
      rw [List.length_take, List.length_drop]; omega
    rw [List.map_cons, e, List.flatten_cons, i1, offs', hl, show o + (o2 - o) = o2 by omega, i2]
    refine ⟨?_, rfl⟩
    have := List.take_append_drop (o2 - o) (bs.drop o)
    rw [List.drop_drop, show o + (o2 - o) = o2 by omega] at this
    exact this

theorem varList_canon (m : Build) (t : Ty) (hl : t.Legal) (hs : t.Small) (hv : t.isVariable = true)
    (hT : ∀ c v, (impl t).tryFromBytes m c = .ok v → serialize t v = c) (bs : List UInt8) (vs : List t.Val)
    (h : (impl (.list t)).tryFromBytes m bs = .ok vs) : assemble (vs.map fun v => ⟨true, serialize t v⟩) = bs := by
  have hsize := size_ok m t hl hs
  have hnone : (impl t).size m = .ok none := by rw [hsize]; unfold sizeOf'; rw [hv]; rfl
  rw [impl] at h
  unfold listImpl at h
  dsimp only at h
  rw [hnone, bind_ok] at h
  dsimp only at h
  obtain ⟨first, hfirst, h⟩ := bind_eq_ok h
  have h4 : 4 ≤ bs.length := by
    unfold slice at hfirst
    split at hfirst
    · omega
    · cases hfirst
  rw [slice_ok (by omega) h4] at hfirst
  have hfirst := ok_inj hfirst
  obtain ⟨po, hpo, h⟩ := bind_eq_ok h
  have hpolt : po < 2 ^ 32 := by
    rcases decodeU32_good m (bs := first) with ⟨a, e, ha⟩ | ⟨e, he⟩
    · rw [e] at hpo; rw [← ok_inj hpo]; exact ha
    · rw [he] at hpo; cases hpo
  split at h
  · cases h
  rename_i hc
  simp only [Bool.or_eq_true, decide_eq_true_eq, bne_iff_ne, not_or, Decidable.not_not] at hc
  obtain ⟨n, hn⟩ : ∃ n, n = po / 4 := ⟨_, rfl⟩
  have hpn : po = n * 4 := by omega
  rw [← hn, hpn] at h
  unfold decodeVariable at h
  rw [variableAsserts_ok m (impl t) hnone (by omega), bind_ok] at h
  split at h
  · cases h
  split at h
  · cases h
  rename_i hbl
  rw [addU32_ok m (by omega), bind_ok, slice_ok (by omega) (by omega), bind_ok, chunks_ok (by decide), bind_ok, List.drop_zero, Nat.sub_zero] at h
  obtain ⟨os, hos, h⟩ := bind_eq_ok h
  have hhead := readOffsets_canon m _ _ _ _ hos
  have hgood := readOffsets_good m bs.length 0 (chunksExact 4 (bs.take (n * 4)))
  rw [hos] at hgood
  obtain ⟨hosl, hin⟩ : os.length = (chunksExact 4 (bs.take (n * 4))).length ∧ InOrder bs.length 0 os := by
    rcases hgood with ⟨a, e, ha⟩ | ⟨e, he⟩
    · rw [ok_inj e]; exact ha
    · cases he
  have hlen4 : (bs.take (n * 4)).length = n * 4 := by rw [List.length_take]; omega
  have hosn : os.length = n := by rw [hosl, chunksExact_eq, pieces_length, hlen4]; omega
  have hflat : (os.map (le 4)).flatten = bs.take (n * 4) := by
    rw [hhead, chunksExact_eq]
    exact flatten_pieces 4 n _ hlen4
  cases os with
  | nil => simp at hosn; omega
  | cons o os =>
    -- the first offset is the length of the headers
    have ho : o = n * 4 := by
      have h1 : le 4 o = first := by
        have e1 := congrArg (List.take 4) hflat
        rw [List.map_cons, List.flatten_cons, List.take_append_of_le_length (by simp [le_eq]), List.take_of_length_le (by simp [le_eq]), List.take_take,
          Nat.min_eq_left (by omega)] at e1
        rw [e1, ← hfirst]; simp
      have h2 : decodeU32 m (le 4 o) = .ok po := by rw [h1]; exact hpo
      have ho32 : o < 2 ^ 32 := by have := hin.2.1; omega
      rw [decodeU32_le m ho32] at h2
      rw [ok_inj h2]; exact hpn
    dsimp only at h
    simp only [List.isEmpty_cons, Bool.false_eq_true, if_false] at h
    obtain ⟨h1, h2⟩ := decodeWindows_canon m (impl t) (serialize t) bs hT os o 0 vs (hin.append_end (Nat.zero_le _)) h
    have hvl : vs.length = n := by
      have e := congrArg List.length h2
      have hlo : ∀ (o : Nat) (l : List (List UInt8)), (offs' o l).length = l.length := by
        intro o l
        induction l generalizing o with
        | nil => rfl
        | cons b l ih => rw [offs', List.length_cons, ih, List.length_cons]
      rw [hlo, List.length_map] at e
      rw [e]; exact hosn
    rw [assemble_eq, fixedRec_var, tails_var, fixSum_var, hvl, Nat.add_zero, ← ho, h2, h1, hflat, ho, List.take_append_drop]

theorem canon (m : Build) : (t : Ty) → t.Legal → t.Small → Canon t → (bs : List UInt8) → (v : t.Val) → (impl t).tryFromBytes m bs = .ok v → serialize t v = bs
  | .bool, _, _, _, bs, v, h => bool_canon m bs v h
  | .uint w, hl, hs, _, bs, v, h => by
    rw [serialize, le_eq]
    exact uint_canon m w.bytes bs v h
  | .vec n t, hl, hs, hc, bs, v, h => by
    refine fixed_canon m (.vec n t) hl hs (by simpa [Ty.isVariable, Canon] using hc) bs v h ?_
    have hv : t.isVariable = false := hc
    have hsize := size_ok m t hl.2 hs.2
    have hsm := hs.1
    rw [hv] at hsm
    simp only [Bool.false_eq_true, if_false] at hsm
    have hp := head_pos t hl.2 hv
    rw [impl] at h
    unfold arrayImpl at h
    dsimp only at h
    rw [hsize, bind_ok] at h
    unfold sizeOf' at h
    rw [hv] at h
    simp only [Bool.false_eq_true, if_false] at h
    rw [toU32_ok (Nat.lt_of_le_of_lt (Nat.le_mul_of_pos_right n hp) hsm), bind_ok, checkedMul_ok (by rw [Nat.mul_comm]; exact hsm), bind_ok] at h
    split at h
    · cases h
    · rename_i hlen
      simp only [Ty.head, hv, Bool.false_eq_true, if_false]
      rw [Nat.mul_comm]; exact Decidable.not_not.mp hlen
  | .list t, hl, hs, hc, bs, v, h => by
    rw [serialize]
    cases hv : t.isVariable with
    | true =>
      have hc : Canon t := by rcases hc with hc | hc; · rw [hv] at hc; cases hc
                              · exact hc
      exact varList_canon m t hl hs hv (fun c v hcv => canon m t hl hs hc c v hcv) bs v h
    | false =>
      have hp := head_pos t hl hv
      have hsize := size_ok m t hl hs
      rw [impl] at h
      unfold listImpl at h
      dsimp only at h
      rw [hsize, bind_ok] at h
      unfold sizeOf' at h
      rw [hv] at h
      simp only [Bool.false_eq_true, if_false] at h
      rw [if_neg (by omega), bind_ok] at h
      split at h
      · cases h
      rename_i hlen
      rw [chunks_ok hp, bind_ok] at h
      exact each_canon m (impl t) (serialize t) t.head hp bs v (fun c v hcv hl' => fixed_canon m t hl hs hv c v hcv hl') (Decidable.not_not.mp hlen) h

/-! ## Containers and vectors with parts of variable size -/

theorem itemsLoop_canon (m : Build) (bs : List UInt8) (sizes : List (Option Nat)) (previous : Nat) (items its : List (List UInt8))
    (hp : previous ≤ bs.length) (hc : (sizes.map headerOf).sum ≤ bs.length)
    (h : itemsLoop m bs sizes.reverse previous (sizes.map headerOf).sum items = .ok its) :
    ∃ ps o, its = ps.map Part.bytes ++ items ∧ ps.map Part.size = sizes ∧ o ≤ previous ∧
      bs.take (sizes.map headerOf).sum = fixedRec o 0 ps ∧ tails ps = (bs.drop o).take (previous - o) := by
  induction sizes using List.reverseRecOn generalizing previous items its with
  | nil => exact ⟨[], previous, by cases h; rfl, rfl, Nat.le_refl _, rfl, by simp [tails, variableParts]⟩
  | append_singleton sizes s ih =>
    simp only [List.map_append, List.map_cons, List.map_nil, List.sum_append, List.sum_singleton, List.reverse_append, List.reverse_singleton,
      List.singleton_append] at hc h ⊢
    cases s with
    | none =>
      simp only [headerOf, Option.getD_none] at hc h ih ⊢
      rw [itemsLoop, subU32_ok m (by omega), bind_ok, Nat.add_sub_cancel, slice_ok (by omega) hc, bind_ok] at h
      obtain ⟨o', ho', h⟩ := bind_eq_ok h
      split at h
      · cases h
      rename_i hle
      rw [slice_ok (by omega) hp, bind_ok, bind_ok] at h
      obtain ⟨ps, o, e1, e2, e3, e4, e5⟩ := ih o' _ _ (by omega) (by omega) h
      have hv : varSum ps = o' - o := by
        rw [← tails_length, e5, List.length_take, List.length_drop]; omega
      refine ⟨ps ++ [⟨true, (bs.drop o').take (previous - o')⟩], o, by rw [e1]; simp, by rw [List.map_append, e2]; rfl, by omega, ?_, ?_⟩
      · have e := decodeU32_canon m ho'
        rw [fixedRec_append, ← e4, List.take_add]
        simp only [fixedRec, if_true, List.append_nil]
        rw [hv, show o + (0 + (o' - o)) = o' by omega, e, Nat.add_sub_cancel_left]
      · rw [tails_append, e5]
        have e6 : tails [⟨true, (bs.drop o').take (previous - o')⟩] = (bs.drop o').take (previous - o') := by simp [Part.tail]
        rw [e6]
        have := List.take_add (l := bs.drop o) (i := o' - o) (j := previous - o')
        rw [List.drop_drop, show o + (o' - o) = o' by omega, show o' - o + (previous - o') = previous - o by omega] at this
        exact this.symm
    | some k =>
      simp only [headerOf, Option.getD_some] at hc h ih ⊢
      rw [itemsLoop, if_neg (by omega), Nat.add_sub_cancel, slice_ok (by omega) hc, bind_ok] at h
      obtain ⟨ps, o, e1, e2, e3, e4, e5⟩ := ih previous _ _ hp (by omega) h
      refine ⟨ps ++ [⟨false, (bs.drop (sizes.map headerOf).sum).take k⟩], o, ?_, ?_, e3, ?_, ?_⟩
      · rw [e1, Nat.add_sub_cancel_left]
        simp only [headerOf, List.map_append, List.map_cons, List.map_nil, List.append_assoc, List.singleton_append]
      · rw [List.map_append, e2]
        congr 1
        rw [List.map_cons, List.map_nil, Part.size_fixed rfl]
        have : ((bs.drop (sizes.map headerOf).sum).take k).length = k := by
          rw [List.length_take, List.length_drop]
          unfold headerOf at hc ⊢
          omega
        rw [this]
      · rw [fixedRec_append, ← e4, List.take_add]
        simp [fixedRec, headerOf]
      · rw [tails_append, e5]
        simp [Part.tail]

theorem fields_canon (m : Build) : (fs : List Ty) → allLegal fs → allSmall fs → (∀ t ∈ fs, t.isVariable = false ∨ Canon t) → (ps : List Part) → (vs : Vals fs) →
    (fields fs).decode m (ps.map Part.bytes) = .ok vs → ps.map Part.size = fs.map sizeOf' → parts fs vs = ps
  | [], _, _, _, [], _, _, _ => rfl
  | [], _, _, _, _ :: _, _, _, h => by simp at h
  | t :: fs, _, _, _, [], _, _, h => by simp at h
  | t :: fs, hl, hs, hc, p :: ps, vs, h, hsz => by
    simp only [List.map_cons, List.cons.injEq] at hsz
    rw [fields, List.map_cons] at h
    replace h : (do
      let a ← LCT.Ssz.decode m (impl t) p.bytes
      let b ← (fields fs).decode m (ps.map Part.bytes)
      return (a, b)) = .ok vs := h
    obtain ⟨a, ha, h⟩ := bind_eq_ok h
    obtain ⟨b, hb, h⟩ := bind_eq_ok h
    have h := pure_inj h
    rw [parts]
    subst h
    show ⟨t.isVariable, serialize t a⟩ :: parts fs b = _
    rw [fields_canon m fs hl.2 hs.2 (fun t ht => hc t (List.mem_cons_of_mem _ ht)) ps b hb hsz.2]
    congr 1
    have hsz1 := hsz.1
    unfold Part.size sizeOf' at hsz1
    obtain ⟨pv, pb⟩ := p
    dsimp only at ha hsz1
    cases hv : t.isVariable with
    | true =>
      rw [hv] at hsz1
      have : pv = true := by cases pv <;> simp_all
      subst this
      have hc : Canon t := by
        rcases hc t List.mem_cons_self with h | h
        · rw [hv] at h; cases h
        · exact h
      rw [canon m t hl.1 hs.1 hc pb a ha]
    | false =>
      rw [hv] at hsz1
      have : pv = false := by cases pv <;> simp_all
      subst this
      simp only [Bool.false_eq_true, if_false, Option.some.injEq] at hsz1
      rw [fixed_canon m t hl.1 hs.1 hv pb a ha hsz1]

theorem container_canon (m : Build) (fs : List Ty) (hl : (Ty.container fs).Legal) (hs : (Ty.container fs).Small) (hc : ∀ t ∈ fs, t.isVariable = false ∨ Canon t)
    (bs : List UInt8) (vs : Vals fs) (h : (impl (.container fs)).tryFromBytes m bs = .ok vs)
    (hlen : (assemble (parts fs vs)).length = bs.length) : assemble (parts fs vs) = bs := by
  replace h : (do
    let sizes ← (fields fs).sizes m
    let items ← decodeAsItems m bs sizes
    (fields fs).decode m items) = .ok vs := h
  rw [sizes_ok m fs hl.2 hs.2, bind_ok] at h
  obtain ⟨its, hits, h⟩ := bind_eq_ok h
  unfold decodeAsItems at hits
  rw [headersLength_sum m _ 0 (by rw [headers_eq, Nat.zero_add]; exact hs.1), bind_ok, Nat.zero_add] at hits
  split at hits
  · cases hits
  split at hits
  · cases hits
  rename_i hh
  obtain ⟨ps, o, e1, e2, e3, e4, e5⟩ := itemsLoop_canon m bs _ _ _ _ (Nat.le_refl _) (by omega) hits
  rw [List.append_nil] at e1
  subst e1
  rw [fields_canon m fs hl.2 hs.2 hc ps vs h e2] at hlen ⊢
  have hF : fixSum ps = heads fs := by rw [← fixedRec_length o 0 ps, ← e4, List.length_take, headers_eq]; rw [headers_eq] at hh; omega
  have ht : tails ps = bs.drop o := by rw [e5, List.take_of_length_le (by simp)]
  rw [headers_eq] at e4 hh
  rw [assemble_length, ← tails_length, ht, List.length_drop, hF] at hlen
  have ho : o = heads fs := by omega
  rw [assemble_eq, ht, hF, ho]
  rw [ho] at e4
  rw [← e4, List.take_append_drop]

theorem vec_canon (m : Build) (n : Nat) (t : Ty) (hl : (Ty.vec n t).Legal) (hs : (Ty.vec n t).Small) (hv : t.isVariable = true) (hc : Canon t) (bs : List UInt8)
    (vs : { vs : List t.Val // vs.length = n }) (h : (impl (.vec n t)).tryFromBytes m bs = .ok vs)
    (hlen : (assemble (vs.val.map fun v => ⟨true, serialize t v⟩)).length = bs.length) : assemble (vs.val.map fun v => ⟨true, serialize t v⟩) = bs := by
  have hsize := size_ok m t hl.2 hs.2
  have hnone : (impl t).size m = .ok none := by rw [hsize]; unfold sizeOf'; rw [hv]; rfl
  have hsm := hs.1
  rw [hv] at hsm
  simp only [if_true] at hsm
  rw [impl] at h
  unfold arrayImpl at h
  dsimp only at h
  rw [hnone, bind_ok] at h
  dsimp only at h
  rw [toU32_ok (by omega), bind_ok, checkedMul_ok hsm, bind_ok] at h
  obtain ⟨ws, hws, h⟩ := bind_eq_ok h
  have hval : vs.val = ws := toArray_val h
  have hwl : ws.length = n := by rw [← hval]; exact vs.2
  rw [hval] at hlen ⊢
  unfold decodeVariable at hws
  rw [variableAsserts_ok m (impl t) hnone (by omega), bind_ok] at hws
  split at hws
  · cases hws
  split at hws
  · cases hws
  rename_i hbl
  rw [addU32_ok m (by omega), bind_ok, slice_ok (by omega) (by omega), bind_ok, chunks_ok (by decide), bind_ok, List.drop_zero, Nat.sub_zero] at hws
  obtain ⟨os, hos, hws⟩ := bind_eq_ok hws
  have hhead := readOffsets_canon m _ _ _ _ hos
  have hgood := readOffsets_good m bs.length 0 (chunksExact 4 (bs.take (n * 4)))
  rw [hos] at hgood
  obtain ⟨hosl, hin⟩ : os.length = (chunksExact 4 (bs.take (n * 4))).length ∧ InOrder bs.length 0 os := by
    rcases hgood with ⟨a, e, ha⟩ | ⟨e, he⟩
    · rw [ok_inj e]; exact ha
    · cases he
  have hlen4 : (bs.take (n * 4)).length = n * 4 := by rw [List.length_take]; omega
  have hosn : os.length = n := by rw [hosl, chunksExact_eq, pieces_length, hlen4]; omega
  have hflat : (os.map (le 4)).flatten = bs.take (n * 4) := by
    rw [hhead, chunksExact_eq]
    exact flatten_pieces 4 n _ hlen4
  cases os with
  | nil => have := hl.1; simp at hosn; omega
  | cons o os =>
    dsimp only at hws
    simp only [List.isEmpty_cons, Bool.false_eq_true, if_false] at hws
    obtain ⟨h1, h2⟩ := decodeWindows_canon m (impl t) (serialize t) bs (fun c v hcv => canon m t hl.2 hs.2 hc c v hcv) os o 0 ws (hin.append_end (Nat.zero_le _)) hws
    rw [assemble_length, fixSum_var, ← tails_length, tails_var, h1, List.length_drop, hwl] at hlen
    have hol := hin.2.1
    have ho : o = n * 4 := by omega
    rw [assemble_eq, fixedRec_var, tails_var, fixSum_var, hwl, Nat.add_zero, ← ho, h2, h1, hflat, ho, List.take_append_drop]

end LCT.Ssz
