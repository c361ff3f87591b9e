import Verif.Lemmas.Ssz.Canonical

/-!
# SSZ decoding: the relaxed grammar
-/

namespace LCT.Ssz
open LCT LCT.Out LCT.Spec.Ssz
open LCT.Hash.Sha2 (chunksExact chunksExact_eq pieces_length pieces_each)
open LCT.Hash.Sha3 (flatten_pieces)

/-! ## Layouts -/

theorem fixedPartsAt_go (o : Nat) (pre ps : List Part) :
    ((ps.zipIdx pre.length).map fun x => if x.1.isVar then le 4 (o + ((variableLengths (pre ++ ps)).take x.2).sum) else x.1.bytes).flatten =
      fixedRec o (varSum pre) ps := by
  induction ps generalizing pre with
  | nil => rfl
  | cons p ps ih =>
    rw [List.zipIdx_cons, List.map_cons, List.flatten_cons, fixedRec]
    congr 1
    · split
      · congr 2
        have e : variableLengths (pre ++ p :: ps) = variableLengths pre ++ variableLengths (p :: ps) := by
          simp [variableLengths, variableParts]
        rw [e, List.take_append_of_le_length (by simp [variableLengths, variableParts]),
          List.take_of_length_le (by simp [variableLengths, variableParts]), varSum]
      · rfl
    · have := ih (pre ++ [p])
      simp only [List.append_assoc, List.singleton_append, List.length_append, List.length_singleton, varSum_append, varSum_cons, varSum_nil,
        Nat.add_zero] at this
      exact this

theorem fixedPartsAt_flatten (o : Nat) (ps : List Part) : (fixedPartsAt o ps).flatten = fixedRec o 0 ps := fixedPartsAt_go o [] ps

theorem laidOut_iff (o : Nat) (ps : List Part) (bs : List UInt8) :
    LaidOut o ps bs ↔ bs.length < 2 ^ 32 ∧ o ≤ bs.length ∧ fixSum ps ≤ bs.length ∧ bs.take (fixSum ps) = fixedRec o 0 ps ∧ tails ps = bs.drop o := by
  unfold LaidOut
  rw [fixedPartsAt_flatten]
  refine and_congr_right fun _ => and_congr_right fun _ => ?_
  rw [← and_assoc]
  refine and_congr_left fun _ => ?_
  rw [List.prefix_iff_eq_take, fixedRec_length]
  constructor
  · intro h
    refine ⟨?_, h.symm⟩
    have := congrArg List.length h
    rw [fixedRec_length, List.length_take] at this
    omega
  · rintro ⟨_, h⟩; exact h.symm

theorem laidOut_assemble (ps : List Part) (h : (assemble ps).length < 2 ^ 32) : LaidOut (fixSum ps) ps (assemble ps) := by
  rw [laidOut_iff]
  have hl := assemble_length ps
  have hf := fixedRec_length (fixSum ps) 0 ps
  refine ⟨h, by omega, by omega, ?_, ?_⟩
  · rw [assemble_eq, List.take_append_of_le_length (by omega), List.take_of_length_le (by omega)]
  · rw [assemble_eq, List.drop_append_of_le_length (by omega), List.drop_of_length_le (by omega), List.nil_append]

theorem laidOut_canon {ps : List Part} {bs : List UInt8} (h : LaidOut (fixSum ps) ps bs) : assemble ps = bs := by
  obtain ⟨_, _, _, h1, h2⟩ := (laidOut_iff _ _ _).mp h
  rw [assemble_eq, ← h1, h2, List.take_append_drop]

theorem fixSum_varParts (items : List (List UInt8)) : fixSum (varParts items) = items.length * 4 := fixSum_var (fun c => c) items
theorem tails_varParts (items : List (List UInt8)) : tails (varParts items) = items.flatten := by
  have := tails_var (fun c : List UInt8 => c) items
  rwa [List.map_id'] at this
theorem fixedRec_varParts (o : Nat) (items : List (List UInt8)) : fixedRec o 0 (varParts items) = ((offs' o items).map (le 4)).flatten := by
  have := fixedRec_var o (fun c : List UInt8 => c) items 0
  rwa [List.map_id', Nat.add_zero] at this

/-! ## Elements one after the other -/

theorem decodeWindows_each {α : Type} (m : Build) (T : SszType α) (bs : List UInt8) (items : List (List UInt8)) (o : Nat) (ho : o ≤ bs.length)
    (h : items.flatten = bs.drop o) : decodeWindows m T bs (offs o items) = decodeEach m T items := by
  induction items generalizing o with
  | nil => rfl
  | cons c items ih =>
    rw [List.flatten_cons] at h
    have hl := congrArg List.length h
    rw [List.length_append, List.length_drop] at hl
    have hc : (bs.drop o).take (o + c.length - o) = c := by rw [← h, Nat.add_sub_cancel_left, List.take_left]
    have hr : items.flatten = bs.drop (o + c.length) := by rw [← List.drop_drop, ← h, List.drop_left]
    have := ih (o + c.length) (by omega) hr
    rw [offs, decodeEach]
    cases items with
    | nil =>
      rw [offs, decodeWindows, dassert_true m (by simp), bind_ok, slice_ok (by omega) (by omega), bind_ok, hc]
      rfl
    | cons d items =>
      rw [offs] at this ⊢
      rw [decodeWindows, dassert_true m (by simp), bind_ok, slice_ok (by omega) (by omega), bind_ok, hc, this]

theorem offs'_length (o : Nat) (l : List (List UInt8)) : (offs' o l).length = l.length := by
  induction l generalizing o with
  | nil => rfl
  | cons b l ih => rw [offs', List.length_cons, ih, List.length_cons]

theorem decodeVariable_laid {α : Type} (m : Build) (T : SszType α) (hsz : T.size m = .ok none) {o : Nat} {items : List (List UInt8)}
    {bs : List UInt8} (hne : items ≠ []) (h : LaidOut o (varParts items) bs) :
    decodeVariable m T bs items.length (items.length * 4) = decodeEach m T items := by
  obtain ⟨h1, h2, h3, h4, h5⟩ := (laidOut_iff _ _ _).mp h
  rw [fixSum_varParts] at h3 h4
  rw [fixedRec_varParts] at h4
  rw [tails_varParts] at h5
  have hl := congrArg List.length h5
  rw [List.length_drop] at hl
  unfold decodeVariable
  rw [variableAsserts_ok m T hsz (by omega), bind_ok, if_neg (by omega), if_neg (by omega), addU32_ok m (by omega), bind_ok,
    slice_ok (by omega) h3, bind_ok, chunks_ok (by decide), bind_ok, List.drop_zero, Nat.sub_zero, h4,
    chunksExact_flatten (by decide) _ (by simp), readOffsets_ok m _ h1 _ _ _ (by omega) (by omega), bind_ok]
  dsimp only
  rw [offs'_isEmpty, isEmpty_false hne]
  simp only [Bool.false_eq_true, if_false]
  have : offs' o items ++ [bs.length] = offs o items := by rw [offs_eq]; congr 2; omega
  rw [this]
  exact decodeWindows_each m T bs items o h2 h5
where
  isEmpty_false {l : List (List UInt8)} (h : l ≠ []) : l.isEmpty = false := by cases l <;> simp at *

/-- The data between the offsets. -/
def windows (bs : List UInt8) : List Nat → List (List UInt8)
  | o1 :: o2 :: os => (bs.drop o1).take (o2 - o1) :: windows bs (o2 :: os)
  | _ => []

theorem windows_spec (bs : List UInt8) (os : List Nat) (o previous : Nat) (hin : InOrder bs.length previous ((o :: os) ++ [bs.length])) :
    (windows bs ((o :: os) ++ [bs.length])).flatten = bs.drop o ∧ offs' o (windows bs ((o :: os) ++ [bs.length])) = o :: os := by
  induction os generalizing o previous with
  | nil =>
    rw [List.singleton_append] at hin ⊢
    simp only [windows, List.flatten_cons, List.flatten_nil, List.append_nil, offs']
    rw [List.take_of_length_le (by simp)]
    exact ⟨rfl, trivial⟩
  | cons o2 os ih =>
    rw [List.cons_append, List.cons_append] at hin ⊢
    have h12 : o ≤ o2 := hin.2.2.1
    have h2l : o2 ≤ bs.length := hin.2.2.2.1
    obtain ⟨i1, i2⟩ := ih o2 o hin.2.2
    rw [List.cons_append] at i1 i2
    have hl : ((bs.drop o).take (o2 - o)).length = o2 - o := by
      rw [List.length_take, List.length_drop]; omega
    rw [windows, List.flatten_cons, i1, offs', hl, show o + (o2 - o) = o2 by omega, i2]
    refine ⟨?_, rfl⟩
    have := List.take_append_drop (o2 - o) (bs.drop o)
    rw [List.drop_drop, show o + (o2 - o) = o2 by omega] at this
    exact this

/-- Either an error, or there is a layout. -/
theorem decodeVariable_cases {α : Type} (m : Build) (T : SszType α) (hsz : T.size m = .ok none) (bs : List UInt8) (n : Nat) (hn : 0 < n)
    (h4 : n * 4 < 2 ^ 32) : (∃ e, decodeVariable m T bs n (n * 4) = .err e) ∨
      ∃ items o, items.length = n ∧ LaidOut o (varParts items) bs := by
  unfold decodeVariable
  rw [variableAsserts_ok m T hsz h4, bind_ok]
  split
  · exact .inl ⟨_, rfl⟩
  split
  · exact .inl ⟨_, rfl⟩
  rename_i hlt hbl
  rw [addU32_ok m (by omega), bind_ok, slice_ok (by omega) (by omega), bind_ok, chunks_ok (by decide), bind_ok, List.drop_zero, Nat.sub_zero]
  rcases readOffsets_good m bs.length 0 (chunksExact 4 (bs.take (n * 4))) with ⟨os, hos, hosl, hin⟩ | ⟨e, he⟩
  swap
  · rw [he]; exact .inl ⟨e, rfl⟩
  right
  have hhead := readOffsets_canon m _ _ _ _ hos
  have hlen4 : (bs.take (n * 4)).length = n * 4 := by rw [List.length_take]; omega
  have hosn : os.length = n := by rw [hosl, chunksExact_eq, pieces_length, hlen4]; omega
  have hflat : (os.map (le 4)).flatten = bs.take (n * 4) := by
    rw [hhead, chunksExact_eq]
    exact flatten_pieces 4 n _ hlen4
  cases os with
  | nil => simp at hosn; omega
  | cons o os =>
    obtain ⟨w1, w2⟩ := windows_spec bs os o 0 (hin.append_end (Nat.zero_le _))
    have hwl : (windows bs ((o :: os) ++ [bs.length])).length = n := by rw [← offs'_length o, w2]; exact hosn
    refine ⟨_, o, hwl, ?_⟩
    rw [laidOut_iff, fixSum_varParts, fixedRec_varParts, tails_varParts, hwl, w2, w1, hflat]
    exact ⟨by omega, hin.2.1, by omega, rfl, rfl⟩

/-! ## Containers -/

theorem itemsLoop_laid (m : Build) (bs : List UInt8) (hb : bs.length < 2 ^ 32) (o : Nat) (ps : List Part) (previous : Nat)
    (items : List (List UInt8)) (ho : o ≤ previous) (hp : previous ≤ bs.length) (hc : fixSum ps ≤ bs.length)
    (hh : bs.take (fixSum ps) = fixedRec o 0 ps) (ht : tails ps = (bs.drop o).take (previous - o)) :
    itemsLoop m bs (ps.map Part.size).reverse previous (fixSum ps) items = .ok (ps.map Part.bytes ++ items) := by
  induction ps using List.reverseRecOn generalizing previous items with
  | nil => rfl
  | append_singleton ps p ih =>
    have hfl := fixedRec_length o 0 ps
    rw [fixedRec_append, Nat.zero_add] at hh
    rw [tails_append] at ht
    simp only [fixSum_append, fixSum_cons, fixSum_nil, Nat.add_zero, List.map_append, List.map_cons, List.map_nil, List.reverse_append,
      List.reverse_singleton, List.singleton_append] at hc hh ⊢
    rw [List.take_add] at hh
    have hl1 : (bs.take (fixSum ps)).length = (fixedRec o 0 ps).length := by rw [List.length_take]; omega
    obtain ⟨hh1, hh2⟩ := List.append_inj hh hl1
    cases hv : p.isVar with
    | true =>
      have hfix : Part.fix p = 4 := by simp [Part.fix, hv]
      rw [hfix] at hc hh2 ⊢
      simp only [fixedRec, hv, if_true, List.append_nil] at hh2
      have htp : tails [p] = p.bytes := by simp [Part.tail, hv]
      rw [htp] at ht
      have htl := congrArg List.length ht
      rw [List.length_append, tails_length, List.length_take, List.length_drop] at htl
      have ht1 : tails ps = (bs.drop o).take (o + varSum ps - o) := by
        have e := congrArg (List.take (varSum ps)) ht
        rw [List.take_left' (tails_length ps), List.take_take, Nat.min_eq_left (by omega)] at e
        rw [Nat.add_sub_cancel_left]; exact e
      have ht2 : p.bytes = (bs.drop (o + varSum ps)).take (previous - (o + varSum ps)) := by
        have e := congrArg (List.drop (varSum ps)) ht
        rw [List.drop_left' (tails_length ps), List.drop_take, List.drop_drop] at e
        rw [e]; congr 1; omega
      rw [Part.size_var hv, itemsLoop, subU32_ok m (by omega), bind_ok, Nat.add_sub_cancel, slice_ok (by omega) hc, bind_ok,
        Nat.add_sub_cancel_left, hh2, decodeU32_le m (by omega), bind_ok, if_neg (by omega), slice_ok (by omega) hp, bind_ok, bind_ok, ← ht2,
        ih (o + varSum ps) (p.bytes :: items) (by omega) (by omega) (by omega) hh1 ht1]
      simp
    | false =>
      have hfix : Part.fix p = p.bytes.length := by simp [Part.fix, hv]
      rw [hfix] at hc hh2 ⊢
      simp only [fixedRec, hv, Bool.false_eq_true, if_false, List.append_nil] at hh2
      have htp : tails [p] = [] := by simp [Part.tail, hv]
      rw [htp, List.append_nil] at ht
      rw [Part.size_fixed hv, itemsLoop, if_neg (by omega), Nat.add_sub_cancel, slice_ok (by omega) hc, bind_ok, Nat.add_sub_cancel_left, hh2,
        ih previous (p.bytes :: items) ho hp (by omega) hh1 ht]
      simp

theorem fieldParts_size : (fs : List Ty) → (items : List (List UInt8)) → ItemsFit fs items → (fieldParts fs items).map Part.size = fs.map sizeOf'
  | [], _, h => by cases h; rfl
  | t :: fs, _, h => by
    cases h with
    | cons h1 h2 =>
      rename_i c cs
      rw [fieldParts, List.zipWith_cons_cons, List.map_cons, List.map_cons]
      refine congrArg₂ _ ?_ (fieldParts_size fs cs h2)
      unfold sizeOf' Part.size
      cases hv : t.isVariable with
      | true => rfl
      | false => simp [h1 hv]

theorem fieldParts_bytes : (fs : List Ty) → (items : List (List UInt8)) → ItemsFit fs items → (fieldParts fs items).map Part.bytes = items
  | [], _, h => by cases h; rfl
  | t :: fs, _, h => by
    cases h with
    | cons h1 h2 =>
      rename_i c cs
      rw [fieldParts, List.zipWith_cons_cons, List.map_cons]
      exact congrArg (c :: ·) (fieldParts_bytes fs cs h2)

theorem fieldParts_of_size : (fs : List Ty) → (ps : List Part) → ps.map Part.size = fs.map sizeOf' →
    ItemsFit fs (ps.map Part.bytes) ∧ fieldParts fs (ps.map Part.bytes) = ps
  | [], [], _ => ⟨.nil, rfl⟩
  | [], _ :: _, h => by simp at h
  | t :: fs, [], h => by simp at h
  | t :: fs, p :: ps, h => by
    simp only [List.map_cons, List.cons.injEq] at h
    obtain ⟨i1, i2⟩ := fieldParts_of_size fs ps h.2
    have h1 := h.1
    unfold sizeOf' Part.size at h1
    obtain ⟨pv, pb⟩ := p
    have e : t.isVariable = pv ∧ (t.isVariable = false → pb.length = t.head) := by
      cases hv : t.isVariable <;> cases pv <;> simp_all
    refine ⟨.cons e.2 i1, ?_⟩
    rw [List.map_cons, fieldParts, List.zipWith_cons_cons, e.1]
    exact congrArg _ i2

theorem fixSum_fieldParts (fs : List Ty) (items : List (List UInt8)) (h : ItemsFit fs items) : fixSum (fieldParts fs items) = heads fs := by
  rw [← headers_eq, ← fieldParts_size fs items h]
  generalize fieldParts fs items = ps
  induction ps with
  | nil => rfl
  | cons p ps ih =>
    rw [fixSum_cons, ih, List.map_cons, List.map_cons, List.sum_cons]
    congr 1
    unfold Part.fix Part.size headerOf
    cases p.isVar <;> rfl

theorem decodeAsItems_laid (m : Build) (fs : List Ty) (hs : heads fs < 2 ^ 32) (items : List (List UInt8)) (hf : ItemsFit fs items) (o : Nat)
    (bs : List UInt8) (h : LaidOut o (fieldParts fs items) bs) : decodeAsItems m bs (fs.map sizeOf') = .ok items := by
  have hS := fixSum_fieldParts fs items hf
  obtain ⟨h1, h2, h3, h4, h5⟩ := (laidOut_iff _ _ _).mp h
  unfold decodeAsItems
  rw [headersLength_sum m _ 0 (by rw [headers_eq, Nat.zero_add]; exact hs), bind_ok, headers_eq, Nat.zero_add, if_neg (by omega), if_neg (by omega),
    ← fieldParts_size fs items hf, ← hS,
    itemsLoop_laid m bs h1 o _ bs.length [] h2 (Nat.le_refl _) h3 h4 (by rw [h5, List.take_of_length_le (by simp)]), List.append_nil,
    fieldParts_bytes fs items hf]

theorem decodeAsItems_cases (m : Build) (fs : List Ty) (hs : heads fs < 2 ^ 32) (bs : List UInt8) :
    (∃ e, decodeAsItems m bs (fs.map sizeOf') = .err e) ∨ ∃ items o, ItemsFit fs items ∧ LaidOut o (fieldParts fs items) bs := by
  rcases decodeAsItems_good m bs (fs.map sizeOf') (by rw [headers_eq]; exact hs) with ⟨its, hits, _⟩ | h
  swap
  · exact .inl h
  right
  unfold decodeAsItems at hits
  rw [headersLength_sum m _ 0 (by rw [headers_eq, Nat.zero_add]; exact hs), bind_ok, Nat.zero_add] at hits
  split at hits
  · cases hits
  split at hits
  · cases hits
  rename_i hlt hh
  obtain ⟨ps, o, e1, e2, e3, e4, e5⟩ := itemsLoop_canon m bs _ _ _ _ (Nat.le_refl _) (by omega) hits
  obtain ⟨f1, f2⟩ := fieldParts_of_size fs ps e2
  refine ⟨ps.map Part.bytes, o, f1, ?_⟩
  rw [headers_eq] at hh e4
  rw [f2, laidOut_iff]
  have hS := fixSum_fieldParts fs _ f1
  rw [f2] at hS
  rw [hS]
  exact ⟨by omega, e3, by omega, e4, by rw [e5, List.take_of_length_le (by simp)]⟩

/-! ## All types -/

/-- The outcome `x` is the value `v` if `R v`, a panic if `C`, and otherwise an error. -/
def Outcome {α : Type} (x : Out Err α) (R : α → Prop) (C : Prop) : Prop := (∀ v, x = .ok v ↔ R v) ∧ (x = .panic ↔ C) ∧ x ≠ .hang

namespace Outcome
variable {α β : Type} {R : α → Prop} {C : Prop}

theorem of_err {x : Out Err α} (h : ∃ e, x = .err e) (hR : ∀ v, ¬ R v) (hC : ¬ C) : Outcome x R C := by
  obtain ⟨e, rfl⟩ := h
  refine ⟨fun v => ⟨fun h => (by cases h), fun h => absurd h (hR v)⟩, ⟨fun h => (by cases h), fun h => absurd h hC⟩, fun h => by cases h⟩

theorem of_panic {x : Out Err α} (h : x = .panic) (hR : ∀ v, ¬ R v) (hC : C) : Outcome x R C := by
  subst h
  exact ⟨fun v => ⟨fun h => (by cases h), fun h => absurd h (hR v)⟩, ⟨fun _ => hC, fun _ => rfl⟩, fun h => by cases h⟩

theorem of_ok {x : Out Err α} {a : α} (h : x = .ok a) (hR : ∀ v, R v ↔ a = v) (hC : ¬ C) : Outcome x R C := by
  subst h
  exact ⟨fun v => ⟨fun h => (hR v).mpr (by cases h; rfl), fun h => by rw [(hR v).mp h]⟩, ⟨fun h => (by cases h), fun h => absurd h hC⟩,
    fun h => by cases h⟩

theorem congr {x : Out Err α} {R' : α → Prop} {C' : Prop} (h : Outcome x R C) (hR : ∀ v, R v ↔ R' v) (hC : C ↔ C') : Outcome x R' C' :=
  ⟨fun v => (h.1 v).trans (hR v), h.2.1.trans hC, h.2.2⟩

end Outcome

theorem decodeEach_outcome {α : Type} (m : Build) (T : SszType α) (R : List UInt8 → α → Prop) (C : List UInt8 → Prop) (cs : List (List UInt8))
    (h : ∀ c ∈ cs, Outcome (T.tryFromBytes m c) (R c) (C c)) :
    Outcome (decodeEach m T cs) (fun vs => List.Forall₂ R cs vs)
      (∃ before c after, cs = before ++ c :: after ∧ (∀ b ∈ before, ∃ v, R b v) ∧ C c) := by
  induction cs with
  | nil =>
    refine .of_ok rfl (fun v => ?_) ?_
    · rw [List.forall₂_nil_left_iff]; exact eq_comm
    · rintro ⟨before, c, after, e, _⟩; simp at e
  | cons c cs ih =>
    obtain ⟨h1, h2, h3⟩ := h c List.mem_cons_self
    obtain ⟨i1, i2, i3⟩ := ih fun d hd => h d (List.mem_cons_of_mem _ hd)
    unfold decodeEach decode
    cases hx : T.tryFromBytes m c with
    | err e =>
      rw [hx] at h1 h2
      refine .of_err ⟨e, rfl⟩ (fun vs hvs => ?_) ?_
      · cases hvs with
        | cons hv _ => have := (h1 _).mpr hv; cases this
      · rintro ⟨before, d, after, e', hb, hc⟩
        cases before with
        | nil =>
          simp only [List.nil_append, List.cons.injEq] at e'
          rw [← e'.1] at hc
          have := h2.mpr hc; cases this
        | cons b before =>
          simp only [List.cons_append, List.cons.injEq] at e'
          obtain ⟨v, hv⟩ := hb b List.mem_cons_self
          rw [← e'.1] at hv
          have := (h1 _).mpr hv; cases this
    | panic =>
      rw [hx] at h1 h2
      refine .of_panic rfl (fun vs hvs => ?_) ⟨[], c, cs, rfl, by simp, h2.mp rfl⟩
      cases hvs with
      | cons hv _ => have := (h1 _).mpr hv; cases this
    | hang => exact absurd hx h3
    | ok v =>
      rw [hx] at h1 h2
      have hC : ¬ C c := fun hc => by have := h2.mpr hc; cases this
      have hRv : ∀ w, R c w ↔ v = w := fun w => ⟨fun hw => (by have := (h1 w).mpr hw; cases this; rfl), fun e => (h1 w).mp (by rw [e])⟩
      have hcons : ∀ P : Prop, (P ↔ ∃ before d after, cs = before ++ d :: after ∧ (∀ b ∈ before, ∃ v, R b v) ∧ C d) →
          (P ↔ ∃ before d after, c :: cs = before ++ d :: after ∧ (∀ b ∈ before, ∃ v, R b v) ∧ C d) := by
        intro P hP
        rw [hP]
        constructor
        · rintro ⟨before, d, after, e, hb, hd⟩
          refine ⟨c :: before, d, after, by rw [e]; rfl, fun b hb' => ?_, hd⟩
          rcases List.mem_cons.mp hb' with rfl | hb'
          · exact ⟨v, (hRv v).mpr rfl⟩
          · exact hb b hb'
        · rintro ⟨before, d, after, e, hb, hd⟩
          cases before with
          | nil =>
            simp only [List.nil_append, List.cons.injEq] at e
            rw [← e.1] at hd; exact absurd hd hC
          | cons b before =>
            simp only [List.cons_append, List.cons.injEq] at e
            exact ⟨before, d, after, e.2, fun b hb' => hb b (List.mem_cons_of_mem _ hb'), hd⟩
      rw [bind_ok]
      cases hy : decodeEach m T cs with
      | err e =>
        rw [hy] at i1 i2
        refine .of_err ⟨e, rfl⟩ (fun vs hvs => ?_) (fun hh => ?_)
        · cases hvs with
          | cons _ hvs => have := (i1 _).mpr hvs; cases this
        · have := (hcons _ i2).mpr hh; cases this
      | panic =>
        rw [hy] at i1 i2
        refine .of_panic rfl (fun vs hvs => ?_) ((hcons _ i2).mp rfl)
        cases hvs with
        | cons _ hvs => have := (i1 _).mpr hvs; cases this
      | hang => exact absurd hy i3
      | ok vs =>
        rw [hy] at i1 i2
        refine .of_ok rfl (fun ws => ?_) (fun hh => ?_)
        · constructor
          · intro hws
            cases hws with
            | cons hw hws =>
              have e := (i1 _).mpr hws
              rw [(hRv _).mp hw, ok_inj e]
          · rintro rfl
            exact .cons ((hRv v).mpr rfl) ((i1 vs).mp rfl)
        · have := (hcons _ i2).mpr hh; cases this

theorem toArray_bind {α : Type} {x : Out Err (List α)} {n : Nat} {R : List α → Prop} {C : Prop} (h : Outcome x R C) (hn : ∀ vs, R vs → vs.length = n) :
    Outcome (do
      let vs ← x
      toArray n vs) (fun a => R a.val) C := by
  cases x with
  | err e =>
    refine .of_err ⟨e, rfl⟩ (fun v hv => ?_) fun hc => ?_
    · have := (h.1 _).mpr hv; cases this
    · have := h.2.1.mpr hc; cases this
  | panic =>
    refine .of_panic rfl (fun v hv => ?_) (h.2.1.mp rfl)
    have := (h.1 _).mpr hv; cases this
  | hang => exact absurd rfl h.2.2
  | ok vs =>
    have hv := (h.1 vs).mp rfl
    refine .of_ok (a := ⟨vs, hn vs hv⟩) ?_ (fun a => ?_) fun hc => ?_
    · rw [bind_ok]; unfold toArray; rw [dif_pos (hn vs hv)]
    · constructor
      · intro ha
        have := (h.1 _).mpr ha
        exact Subtype.ext (ok_inj this)
      · rintro rfl; exact hv
    · have := h.2.1.mpr hc; cases this

theorem variable_outcome {α : Type} (m : Build) (T : SszType α) (hsz : T.size m = .ok none) (R : List UInt8 → α → Prop) (C : List UInt8 → Prop)
    (hT : ∀ c, Outcome (T.tryFromBytes m c) (R c) (C c)) (bs : List UInt8) (n : Nat) (hn : 0 < n) (h4 : n * 4 < 2 ^ 32) :
    Outcome (decodeVariable m T bs n (n * 4)) (fun vs => ∃ items, List.Forall₂ R items vs ∧ items.length = n ∧ ∃ o, LaidOut o (varParts items) bs)
      (∃ before c after o, (before ++ c :: after).length = n ∧ LaidOut o (varParts (before ++ c :: after)) bs ∧ (∀ b ∈ before, ∃ v, R b v) ∧ C c) := by
  have key : ∀ items o, items.length = n → LaidOut o (varParts items) bs → decodeVariable m T bs n (n * 4) = decodeEach m T items := by
    rintro items o rfl h
    exact decodeVariable_laid m T hsz (by rintro rfl; simp at hn) h
  have each := fun items => decodeEach_outcome m T R C items fun c _ => hT c
  refine ⟨fun vs => ⟨fun h => ?_, ?_⟩, ⟨fun h => ?_, ?_⟩, fun h => ?_⟩
  · rcases decodeVariable_cases m T hsz bs n hn h4 with ⟨e, he⟩ | ⟨items, o, hlen, hlay⟩
    · rw [he] at h; cases h
    · rw [key items o hlen hlay] at h
      exact ⟨items, ((each items).1 vs).mp h, hlen, o, hlay⟩
  · rintro ⟨items, hf, hlen, o, hlay⟩
    rw [key items o hlen hlay]
    exact ((each items).1 vs).mpr hf
  · rcases decodeVariable_cases m T hsz bs n hn h4 with ⟨e, he⟩ | ⟨items, o, hlen, hlay⟩
    · rw [he] at h; cases h
    · rw [key items o hlen hlay] at h
      obtain ⟨before, c, after, rfl, hb, hc⟩ := (each items).2.1.mp h
      exact ⟨before, c, after, o, hlen, hlay, hb, hc⟩
  · rintro ⟨before, c, after, o, hlen, hlay, hb, hc⟩
    rw [key _ o hlen hlay]
    exact (each _).2.1.mpr ⟨before, c, after, rfl, hb, hc⟩
  · rcases decodeVariable_cases m T hsz bs n hn h4 with ⟨e, he⟩ | ⟨items, o, hlen, hlay⟩
    · rw [he] at h; cases h
    · rw [key items o hlen hlay] at h
      exact (each items).2.2 h

/-- The first offset. -/
theorem laidOut_first {o : Nat} {items : List (List UInt8)} {bs : List UInt8} (hne : items ≠ []) (h : LaidOut o (varParts items) bs) :
    4 ≤ bs.length ∧ bs.take 4 = le 4 o := by
  obtain ⟨_, _, h3, h4, _⟩ := (laidOut_iff _ _ _).mp h
  rw [fixSum_varParts] at h3 h4
  rw [fixedRec_varParts] at h4
  cases items with
  | nil => exact absurd rfl hne
  | cons c items =>
    rw [List.length_cons] at h3 h4
    refine ⟨by omega, ?_⟩
    have e := congrArg (List.take 4) h4
    rw [List.take_take, Nat.min_eq_left (by omega), offs', List.map_cons, List.flatten_cons, List.take_append_of_le_length (by simp),
      List.take_of_length_le (l := le 4 o) (by simp)] at e
    exact e

theorem varList_outcome {α : Type} (m : Build) (T : SszType α) (hsz : T.size m = .ok none) (R : List UInt8 → α → Prop) (C : List UInt8 → Prop)
    (hT : ∀ c, Outcome (T.tryFromBytes m c) (R c) (C c)) (bs : List UInt8) :
    Outcome ((listImpl T).tryFromBytes m bs)
      (fun vs => ∃ items, List.Forall₂ R items vs ∧ items ≠ [] ∧ bs = assemble (varParts items) ∧ bs.length < 2 ^ 32)
      (bs.length < 4 ∨ ∃ before c after, bs = assemble (varParts (before ++ c :: after)) ∧ bs.length < 2 ^ 32 ∧ (∀ b ∈ before, ∃ v, R b v) ∧ C c) := by
  unfold listImpl
  dsimp only
  rw [hsz, bind_ok]
  dsimp only
  have hass : ∀ items, items ≠ [] → bs = assemble (varParts items) → bs.length < 2 ^ 32 → LaidOut (items.length * 4) (varParts items) bs := by
    intro items _ e hl
    have := laidOut_assemble (varParts items) (by rw [← e]; exact hl)
    rwa [fixSum_varParts, ← e] at this
  by_cases h4 : 4 ≤ bs.length
  swap
  · refine .of_panic ?_ ?_ (.inl (by omega))
    · unfold slice; rw [if_neg (by omega)]; rfl
    · rintro vs ⟨items, _, hne, e, hl⟩
      exact h4 (laidOut_first hne (hass items hne e hl)).1
  rw [slice_ok (by omega) h4, bind_ok, List.drop_zero, Nat.sub_zero]
  rcases decodeU32_good m (bs := bs.take 4) with ⟨po, hpo, hlt⟩ | ⟨e, he⟩
  swap
  · have hu := decodeU32_good m (bs := bs.take 4)
    exfalso
    unfold decodeU32 uintImpl at he
    dsimp only at he
    rw [if_pos (by rw [List.length_take]; omega)] at he
    cases he
  have hfirst : bs.take 4 = le 4 po := (decodeU32_canon m hpo).symm
  have hpo_eq : ∀ o, o < 2 ^ 32 → bs.take 4 = le 4 o → o = po := by
    intro o ho e
    have := decodeU32_le m ho
    rw [← e, hpo] at this
    exact (ok_inj this).symm
  have hass' : ∀ items, items ≠ [] → bs = assemble (varParts items) → bs.length < 2 ^ 32 → items.length * 4 = po := by
    intro items hne e hl
    have hlay := hass items hne e hl
    exact hpo_eq _ (by have := hlay.2.1; omega) (laidOut_first hne hlay).2
  rw [hpo, bind_ok]
  split
  · rename_i hbad
    simp only [Bool.or_eq_true, decide_eq_true_eq, bne_iff_ne] at hbad
    refine .of_err ⟨_, rfl⟩ ?_ ?_
    · rintro vs ⟨items, _, hne, e, hl⟩
      have := hass' items hne e hl
      have : 0 < items.length := List.length_pos_of_ne_nil hne
      omega
    · rintro (h | ⟨before, c, after, e, hl, _⟩)
      · omega
      · have := hass' _ (by simp) e hl
        have : 0 < (before ++ c :: after).length := List.length_pos_of_ne_nil (by simp)
        omega
  · rename_i hc
    simp only [Bool.or_eq_true, decide_eq_true_eq, bne_iff_ne, not_or, Decidable.not_not] at hc
    obtain ⟨n, hn⟩ : ∃ n, n = po / 4 := ⟨_, rfl⟩
    have hpn : po = n * 4 := by omega
    rw [← hn, hpn]
    refine (variable_outcome m T hsz R C hT bs n (by omega) (by omega)).congr (fun vs => ?_) ?_
    · refine exists_congr fun items => and_congr_right fun _ => ?_
      constructor
      · rintro ⟨hlen, o, hlay⟩
        have hne : items ≠ [] := by rintro rfl; simp at hlen; omega
        have ho : o = n * 4 := by
          rw [← hpn]
          exact hpo_eq o (by have := hlay.1; have := hlay.2.1; omega) (laidOut_first hne hlay).2
        refine ⟨hne, (laidOut_canon (ps := varParts items) ?_).symm, hlay.1⟩
        rw [fixSum_varParts, hlen, ← ho]; exact hlay
      · rintro ⟨hne, e, hl⟩
        have := hass' items hne e hl
        exact ⟨by omega, _, hass items hne e hl⟩
    · constructor
      · rintro ⟨before, c, after, o, hlen, hlay, hb, hcc⟩
        right
        have ho : o = n * 4 := by
          rw [← hpn]
          exact hpo_eq o (by have := hlay.1; have := hlay.2.1; omega) (laidOut_first (by simp) hlay).2
        refine ⟨before, c, after, (laidOut_canon (ps := varParts (before ++ c :: after)) ?_).symm, hlay.1, hb, hcc⟩
        rw [fixSum_varParts, hlen, ← ho]; exact hlay
      · rintro (h | ⟨before, c, after, e, hl, hb, hcc⟩)
        · omega
        · have := hass' _ (by simp) e hl
          exact ⟨before, c, after, _, by omega, hass _ (by simp) e hl, hb, hcc⟩

theorem joined_iff {k : Nat} (hk : 0 < k) (bs : List UInt8) (items : List (List UInt8)) :
    Joined k items bs ↔ bs.length % k = 0 ∧ items = chunksExact k bs := by
  constructor
  · rintro ⟨rfl, h⟩
    refine ⟨?_, (chunksExact_flatten hk items h).symm⟩
    have : items.flatten.length = items.length * k := by
      clear hk
      induction items with
      | nil => simp
      | cons c cs ih =>
        rw [List.flatten_cons, List.length_append, h c List.mem_cons_self, ih fun d hd => h d (List.mem_cons_of_mem _ hd), List.length_cons, Nat.succ_mul,
          Nat.add_comm]
    rw [this, Nat.mul_mod_left]
  · rintro ⟨h, rfl⟩
    rw [chunksExact_eq]
    refine ⟨(flatten_pieces k (bs.length / k) bs ?_).symm, fun c hc => pieces_each hc⟩
    have := Nat.div_add_mod bs.length k
    rw [Nat.mul_comm]; omega

theorem reads_vec (n : Nat) (t : Ty) (bs : List UInt8) (vs : (Ty.vec n t).Val) : Reads (.vec n t) bs vs ↔
    ∃ items, List.Forall₂ (fun c v => Reads t c v) items (show { vs : List t.Val // vs.length = n } from vs).val ∧
      if t.isVariable then ∃ o, LaidOut o (varParts items) bs else Joined t.head items bs := by
  rw [Reads]

theorem reads_list (t : Ty) (bs : List UInt8) (vs : (Ty.list t).Val) : Reads (.list t) bs vs ↔
    ∃ items, List.Forall₂ (fun c v => Reads t c v) items (show List t.Val from vs) ∧
      if t.isVariable then items ≠ [] ∧ bs = assemble (varParts items) ∧ bs.length < 2 ^ 32 else Joined t.head items bs := by
  rw [Reads]

theorem reads_container (fs : List Ty) (bs : List UInt8) (vs : (Ty.container fs).Val) : Reads (.container fs) bs vs ↔
    ∃ items o, ItemsFit fs items ∧ LaidOut o (fieldParts fs items) bs ∧ ReadsAll fs items vs := by
  rw [Reads]

theorem readsAll_cons (t : Ty) (fs : List Ty) (c : List UInt8) (cs : List (List UInt8)) (vs : Vals (t :: fs)) : ReadsAll (t :: fs) (c :: cs) vs ↔
    Reads t c (show t.Val × Vals fs from vs).1 ∧ ReadsAll fs cs (show t.Val × Vals fs from vs).2 := by
  rw [ReadsAll]

theorem crashes_fixed_aux (m : Build) (t : Ty) (hl : t.Legal) (hs : t.Small) (hv : t.isVariable = false) (bs : List UInt8) :
    ((impl t).tryFromBytes m bs).Returns := by
  refine decode_returns m t hl hs ?_ bs
  exact fixed_noVarList t hv
where
  fixed_noVarList : (t : Ty) → t.isVariable = false → NoVarList t
    | .bool, _ => trivial
    | .uint _, _ => trivial
    | .vec _ t, h => fixed_noVarList t h
    | .list _, h => by simp [Ty.isVariable] at h
    | .container fs, h => fixed_noVarLists fs h
  fixed_noVarLists : (fs : List Ty) → anyVariable fs = false → NoVarLists fs
    | [], _ => trivial
    | t :: fs, h => by
      simp only [anyVariable, Bool.or_eq_false_iff] at h
      exact ⟨fixed_noVarList t h.1, fixed_noVarLists fs h.2⟩

mutual
  theorem outcome (m : Build) : (t : Ty) → t.Legal → t.Small → (bs : List UInt8) → Outcome ((impl t).tryFromBytes m bs) (Reads t bs) (Crashes t bs)
    | .bool, _, _, bs => by
      refine ⟨fun v => ⟨fun h => (bool_canon m bs v h).symm, fun h => ?_⟩, ⟨fun h => ?_, fun h => h.elim⟩, fun h => ?_⟩
      · rw [Reads] at h
        subst h
        rw [serialize]
        cases v <;> rfl
      · have := decode_returns m .bool trivial trivial trivial bs
        rw [h] at this; exact absurd this not_returns_panic
      · have := decode_returns m .bool trivial trivial trivial bs
        rw [h] at this
        rcases this with ⟨_, h⟩ | ⟨_, h⟩ <;> cases h
    | .uint w, _, _, bs => by
      refine ⟨fun v => ⟨fun h => ?_, fun h => ?_⟩, ⟨fun h => ?_, fun h => h.elim⟩, fun h => ?_⟩
      · rw [Reads, serialize, le_eq]
        exact (uint_canon m w.bytes bs v h).symm
      · rw [Reads, serialize, le_eq] at h
        subst h
        exact uint_decode m w.bytes v
      · have := decode_returns m (.uint w) trivial trivial trivial bs
        rw [h] at this; exact absurd this not_returns_panic
      · have := decode_returns m (.uint w) trivial trivial trivial bs
        rw [h] at this
        rcases this with ⟨_, h⟩ | ⟨_, h⟩ <;> cases h
    | .vec n t, hl, hs, bs => by
      have hT := outcome m t hl.2 hs.2
      have hsize := size_ok m t hl.2 hs.2
      have hsm := hs.1
      rw [impl]
      unfold arrayImpl
      dsimp only
      rw [hsize, bind_ok]
      cases hv : t.isVariable with
      | true =>
        rw [hv] at hsm
        simp only [if_true] at hsm
        have hnone : (impl t).size m = .ok none := by rw [hsize]; unfold sizeOf'; rw [hv]; rfl
        unfold sizeOf'
        rw [hv]
        simp only [if_true]
        rw [toU32_ok (by omega), bind_ok, checkedMul_ok hsm, bind_ok]
        refine (toArray_bind (variable_outcome m (impl t) hnone _ _ hT bs n hl.1 hsm) ?_).congr (fun a => ?_) ?_
        · rintro vs ⟨items, hf, hlen, _⟩
          rw [← hf.length_eq, hlen]
        · refine Iff.trans ?_ (reads_vec n t bs a).symm
          rw [hv]
          simp only [if_true]
          exact exists_congr fun items => and_congr_right fun hf => ⟨fun h => h.2, fun h => ⟨hf.length_eq.trans a.2, h⟩⟩
        · rw [Crashes, hv]
          simp only [true_and]
      | false =>
        rw [hv] at hsm
        simp only [Bool.false_eq_true, if_false] at hsm
        have hp := head_pos t hl.2 hv
        unfold sizeOf'
        rw [hv]
        simp only [Bool.false_eq_true, if_false]
        rw [toU32_ok (Nat.lt_of_le_of_lt (Nat.le_mul_of_pos_right n hp) hsm), bind_ok, checkedMul_ok (by rw [Nat.mul_comm]; exact hsm), bind_ok]
        have hC : ¬ Crashes (.vec n t) bs := by
          rw [Crashes, hv]
          rintro ⟨h, _⟩; cases h
        have hnc : ∀ c, ¬ Crashes t c := by
          intro c hc
          have := crashes_fixed_aux m t hl.2 hs.2 hv c
          rw [(hT c).2.1.mpr hc] at this
          exact absurd this not_returns_panic
        split
        · rename_i hlen
          refine .of_err ⟨_, rfl⟩ (fun a ha => ?_) hC
          replace ha := (reads_vec n t bs a).mp ha
          rw [hv] at ha
          simp only [Bool.false_eq_true, if_false] at ha
          obtain ⟨items, hf, hj⟩ := ha
          obtain ⟨_, rfl⟩ := (joined_iff hp bs items).mp hj
          have h1 := hf.length_eq.trans a.2
          rw [chunksExact_eq, pieces_length] at h1
          have h2 := ((joined_iff hp bs _).mp hj).1
          have h3 := Nat.div_add_mod bs.length t.head
          rw [h1, h2, Nat.add_zero] at h3
          exact hlen h3.symm
        · rename_i hlen
          have hlen : bs.length = t.head * n := Decidable.not_not.mp hlen
          rw [chunks_ok hp, bind_ok]
          refine (toArray_bind (decodeEach_outcome m (impl t) _ _ _ fun c _ => hT c) ?_).congr (fun a => ?_) ?_
          · intro vs hf
            rw [← hf.length_eq, chunksExact_eq, pieces_length, hlen, Nat.mul_div_cancel_left _ hp]
          · refine Iff.trans ?_ (reads_vec n t bs a).symm
            rw [hv]
            simp only [Bool.false_eq_true, if_false]
            constructor
            · intro hf
              exact ⟨_, hf, (joined_iff hp bs _).mpr ⟨by rw [hlen, Nat.mul_mod_right], rfl⟩⟩
            · rintro ⟨items, hf, hj⟩
              obtain ⟨_, rfl⟩ := (joined_iff hp bs items).mp hj
              exact hf
          · refine iff_of_false ?_ hC
            rintro ⟨_, c, _, _, _, hc⟩
            exact hnc c hc
    | .list t, hl, hs, bs => by
      have hT := outcome m t hl hs
      have hsize := size_ok m t hl hs
      rw [impl]
      cases hv : t.isVariable with
      | true =>
        have hnone : (impl t).size m = .ok none := by rw [hsize]; unfold sizeOf'; rw [hv]; rfl
        refine (varList_outcome m (impl t) hnone _ _ hT bs).congr (fun vs => ?_) ?_
        · refine Iff.trans ?_ (reads_list t bs vs).symm
          rw [hv]
          simp only [if_true]
        · rw [Crashes, hv]
          simp only [true_and]
      | false =>
        have hp := head_pos t hl hv
        have hC : ¬ Crashes (.list t) bs := by
          rw [Crashes, hv]
          rintro ⟨h, _⟩; cases h
        have hnc : ∀ c, ¬ Crashes t c := by
          intro c hc
          have := crashes_fixed_aux m t hl hs hv c
          rw [(hT c).2.1.mpr hc] at this
          exact absurd this not_returns_panic
        unfold listImpl
        dsimp only
        rw [hsize, bind_ok]
        unfold sizeOf'
        rw [hv]
        simp only [Bool.false_eq_true, if_false]
        rw [if_neg (by omega), bind_ok]
        split
        · rename_i hlen
          refine .of_err ⟨_, rfl⟩ (fun vs ha => ?_) hC
          replace ha := (reads_list t bs vs).mp ha
          rw [hv] at ha
          simp only [Bool.false_eq_true, if_false] at ha
          obtain ⟨items, _, hj⟩ := ha
          exact hlen ((joined_iff hp bs items).mp hj).1
        · rename_i hlen
          rw [chunks_ok hp, bind_ok]
          refine (decodeEach_outcome m (impl t) _ _ _ fun c _ => hT c).congr (fun vs => ?_) ?_
          · refine Iff.trans ?_ (reads_list t bs vs).symm
            rw [hv]
            simp only [Bool.false_eq_true, if_false]
            constructor
            · intro hf
              exact ⟨_, hf, (joined_iff hp bs _).mpr ⟨Decidable.not_not.mp hlen, rfl⟩⟩
            · rintro ⟨items, hf, hj⟩
              obtain ⟨_, rfl⟩ := (joined_iff hp bs items).mp hj
              exact hf
          · refine iff_of_false ?_ hC
            rintro ⟨_, c, _, _, _, hc⟩
            exact hnc c hc
    | .container fs, hl, hs, bs => by
      show Outcome (do
        let sizes ← (fields fs).sizes m
        let items ← decodeAsItems m bs sizes
        (fields fs).decode m items) _ _
      rw [sizes_ok m fs hl.2 hs.2, bind_ok]
      have key : ∀ items o, ItemsFit fs items → LaidOut o (fieldParts fs items) bs → decodeAsItems m bs (fs.map sizeOf') = .ok items :=
        fun items o hf hlay => decodeAsItems_laid m fs hs.1 items hf o bs hlay
      rcases decodeAsItems_cases m fs hs.1 bs with ⟨e, he⟩ | ⟨items, o, hf, hlay⟩
      · rw [he]
        refine .of_err ⟨e, rfl⟩ ?_ ?_
        · intro vs hvs
          obtain ⟨items, o, hf, hlay, _⟩ := (reads_container fs bs vs).mp hvs
          rw [key items o hf hlay] at he; cases he
        · rw [Crashes]
          rintro ⟨items, o, hf, hlay, _⟩
          rw [key items o hf hlay] at he; cases he
      · have e := key items o hf hlay
        rw [e, bind_ok]
        have huniq : ∀ items' o', ItemsFit fs items' → LaidOut o' (fieldParts fs items') bs → items' = items := by
          intro items' o' hf' hlay'
          have := key items' o' hf' hlay'
          rw [e] at this
          exact (ok_inj this).symm
        refine (outcomes m fs hl.2 hs.2 items hf.length_eq.symm).congr (fun vs => ?_) ?_
        · refine Iff.trans ?_ (reads_container fs bs vs).symm
          constructor
          · intro h; exact ⟨items, o, hf, hlay, h⟩
          · rintro ⟨items', o', hf', hlay', h⟩
            rw [huniq items' o' hf' hlay'] at h; exact h
        · rw [Crashes]
          constructor
          · intro h; exact ⟨items, o, hf, hlay, h⟩
          · rintro ⟨items', o', hf', hlay', h⟩
            rw [huniq items' o' hf' hlay'] at h; exact h
  theorem outcomes (m : Build) : (fs : List Ty) → allLegal fs → allSmall fs → (items : List (List UInt8)) → items.length = fs.length →
      Outcome ((fields fs).decode m items) (ReadsAll fs items) (CrashesIn fs items)
    | [], _, _, [], _ => .of_ok rfl (fun v => by rw [ReadsAll]; exact ⟨fun _ => rfl, fun _ => trivial⟩) (by rw [CrashesIn] <;> simp)
    | [], _, _, _ :: _, h => by simp at h
    | t :: fs, _, _, [], h => by simp at h
    | t :: fs, hl, hs, item :: items, h => by
      obtain ⟨h1, h2, h3⟩ := outcome m t hl.1 hs.1 item
      obtain ⟨i1, i2, i3⟩ := outcomes m fs hl.2 hs.2 items (by simpa using h)
      rw [fields]
      show Outcome (do
        let a ← LCT.Ssz.decode m (impl t) item
        let b ← (fields fs).decode m items
        return (a, b)) _ _
      unfold LCT.Ssz.decode
      rw [CrashesIn]
      cases hx : (impl t).tryFromBytes m item with
      | err e =>
        rw [hx] at h1 h2
        have hR : ∀ v, ¬ Reads t item v := fun v hv => by have := (h1 v).mpr hv; cases this
        refine .of_err ⟨e, rfl⟩ (fun v hv => ?_) ?_
        · exact hR _ ((readsAll_cons t fs item items v).mp hv).1
        · rintro (hc | ⟨⟨v, hv⟩, _⟩)
          · have := h2.mpr hc; cases this
          · exact hR v hv
      | panic =>
        rw [hx] at h1 h2
        refine .of_panic rfl (fun v hv => ?_) (.inl (h2.mp rfl))
        replace hv := (readsAll_cons t fs item items v).mp hv
        have := (h1 _).mpr hv.1; cases this
      | hang => exact absurd hx h3
      | ok a =>
        rw [hx] at h1 h2
        have hRa := (h1 a).mp rfl
        have hC : ¬ Crashes t item := fun hc => by have := h2.mpr hc; cases this
        rw [bind_ok]
        cases hy : (fields fs).decode m items with
        | err e =>
          rw [hy] at i1 i2
          refine .of_err ⟨e, rfl⟩ (fun v hv => ?_) ?_
          · replace hv := (readsAll_cons t fs item items v).mp hv
            have := (i1 _).mpr hv.2; cases this
          · rintro (hc | ⟨_, hc⟩)
            · exact hC hc
            · have := i2.mpr hc; cases this
        | panic =>
          rw [hy] at i1 i2
          refine .of_panic rfl (fun v hv => ?_) (.inr ⟨⟨a, hRa⟩, i2.mp rfl⟩)
          replace hv := (readsAll_cons t fs item items v).mp hv
          have := (i1 _).mpr hv.2; cases this
        | hang => exact absurd hy i3
        | ok b =>
          rw [hy] at i1 i2
          refine .of_ok rfl (fun v => ?_) ?_
          · refine Iff.trans (readsAll_cons t fs item items v) ?_
            constructor
            · rintro ⟨r1, r2⟩
              have e1 := ok_inj ((h1 _).mpr r1)
              have e2 := ok_inj ((i1 _).mpr r2)
              exact Prod.ext e1 e2
            · rintro rfl
              exact ⟨hRa, (i1 b).mp rfl⟩
          · rintro (hc | ⟨_, hc⟩)
            · exact hC hc
            · have := i2.mpr hc; cases this
end

/-! ## Values with an empty list of elements of variable size -/

theorem first_not {α : Type} {P : α → Prop} : (vs : List α) → ¬ (∀ v ∈ vs, P v) → ∃ before v after, vs = before ++ v :: after ∧ (∀ b ∈ before, P b) ∧ ¬ P v
  | [], h => absurd (by simp) h
  | v :: vs, h => by
    by_cases hv : P v
    · have h' : ¬ ∀ v ∈ vs, P v := fun hall => h fun x hx => by
        rcases List.mem_cons.mp hx with rfl | hx
        · exact hv
        · exact hall x hx
      obtain ⟨before, w, after, rfl, hb, hw⟩ := first_not vs h'
      refine ⟨v :: before, w, after, rfl, fun b hb' => ?_, hw⟩
      rcases List.mem_cons.mp hb' with rfl | hb'
      · exact hv
      · exact hb b hb'
    · exact ⟨[], v, vs, rfl, by simp, hv⟩

theorem forall₂_mem {α β : Type} {R : α → β → Prop} {as : List α} {bs : List β} (h : List.Forall₂ R as bs) : ∀ b ∈ bs, ∃ a ∈ as, R a b := by
  induction h with
  | nil => intro b hb; cases hb
  | cons h1 _ ih =>
    intro b hb
    rcases List.mem_cons.mp hb with rfl | hb
    · exact ⟨_, List.mem_cons_self, h1⟩
    · obtain ⟨a, ha, hab⟩ := ih b hb
      exact ⟨a, List.mem_cons_of_mem _ ha, hab⟩

theorem varParts_map {α : Type} (s : α → List UInt8) (vs : List α) : varParts (vs.map s) = vs.map fun v => ⟨true, s v⟩ := by
  unfold varParts; rw [List.map_map]; rfl

theorem reads_serialize (t : Ty) (hl : t.Legal) (hs : t.Small) (v : t.Val) (hne : NoEmpty t v) (hlen : (serialize t v).length < 2 ^ 32) :
    Reads t (serialize t v) v := ((outcome .debug t hl hs _).1 v).mp (decode_ok .debug t hl hs v hne hlen)

mutual
  theorem crashes_serialize : (t : Ty) → t.Legal → t.Small → (v : t.Val) → ¬ NoEmpty t v → (serialize t v).length < 2 ^ 32 → Crashes t (serialize t v)
    | .bool, _, _, _, hne, _ => absurd trivial hne
    | .uint _, _, _, _, hne, _ => absurd trivial hne
    | .vec n t, hl, hs, vs, hne, hlen => by
      rw [serialize] at hlen ⊢
      cases hv : t.isVariable with
      | false => exact absurd (fun v _ => noEmpty_of_noVarList t (crashes_fixed_aux.fixed_noVarList t hv) v) hne
      | true =>
        obtain ⟨before, v, after, hvs, hb, hnv⟩ := first_not (P := NoEmpty t) vs.val hne
        have hmem : v ∈ vs.val := by rw [hvs]; simp
        have hc := crashes_serialize t hl.2 hs.2 v hnv (serialize_part_lt hmem hlen)
        have hr : ∀ b ∈ before, Reads t (serialize t b) b := fun b hb' =>
          reads_serialize t hl.2 hs.2 b (hb b hb') (serialize_part_lt (by rw [hvs]; exact List.mem_append_left _ hb') hlen)
        rw [hv] at hlen
        rw [← varParts_map] at hlen ⊢
        have hlay := laidOut_assemble _ hlen
        have e : vs.val.map (serialize t) = before.map (serialize t) ++ serialize t v :: after.map (serialize t) := by rw [hvs]; simp
        rw [Crashes]
        refine ⟨hv, before.map (serialize t), serialize t v, after.map (serialize t), fixSum (varParts (vs.val.map (serialize t))), ?_, ?_, ?_, hc⟩
        · rw [← e, List.length_map, vs.2]
        · rw [← e]; exact hlay
        · intro c hc'
          obtain ⟨b, hb', rfl⟩ := List.mem_map.mp hc'
          exact ⟨b, hr b hb'⟩
    | .list t, hl, hs, vs, hne, hlen => by
      rw [serialize] at hlen ⊢
      cases hv : t.isVariable with
      | false =>
        refine absurd ⟨fun h => ?_, fun v _ => noEmpty_of_noVarList t (crashes_fixed_aux.fixed_noVarList t hv) v⟩ hne
        rw [hv] at h; cases h
      | true =>
        rw [Crashes]
        refine ⟨hv, ?_⟩
        by_cases h0 : (show List t.Val from vs) = []
        · left
          have h0' : vs = [] := h0
          rw [h0']
          exact (by decide : ([] : List UInt8).length < 4)
        right
        obtain ⟨before, v, after, hvs, hb, hnv⟩ := first_not (P := NoEmpty t) vs (fun h => hne ⟨fun _ => h0, h⟩)
        have hmem : v ∈ (show List t.Val from vs) := by rw [hvs]; simp
        have hc := crashes_serialize t hl hs v hnv (serialize_part_lt hmem hlen)
        have hr : ∀ b ∈ before, Reads t (serialize t b) b := fun b hb' =>
          reads_serialize t hl hs b (hb b hb') (serialize_part_lt (vs := vs) (by rw [hvs]; exact List.mem_append_left _ hb') hlen)
        rw [hv] at hlen
        rw [← varParts_map] at hlen ⊢
        refine ⟨before.map (serialize t), serialize t v, after.map (serialize t), ?_, hlen, ?_, hc⟩
        · rw [hvs]; simp
        · intro c hc'
          obtain ⟨b, hb', rfl⟩ := List.mem_map.mp hc'
          exact ⟨b, hr b hb'⟩
    | .container fs, hl, hs, vs, hne, hlen => by
      rw [serialize] at hlen ⊢
      rw [Crashes]
      obtain ⟨h1, h2⟩ := fieldParts_of_size fs (parts fs vs) (parts_size fs vs)
      have hlay := laidOut_assemble _ hlen
      rw [assemble_length] at hlen
      have hc := crashesIn_serialize fs hl.2 hs.2 vs hne fun p hp => Nat.lt_of_le_of_lt (part_le hp) hlen
      refine ⟨(parts fs vs).map Part.bytes, fixSum (parts fs vs), h1, ?_, hc⟩
      rw [h2]; exact hlay
  theorem crashesIn_serialize : (fs : List Ty) → allLegal fs → allSmall fs → (vs : Vals fs) → ¬ NoEmptys fs vs →
      (∀ p ∈ parts fs vs, p.bytes.length < 2 ^ 32) → CrashesIn fs ((parts fs vs).map Part.bytes)
    | [], _, _, _, hne, _ => absurd trivial hne
    | t :: fs, hl, hs, vs, hne, hlen => by
      rw [parts] at hlen ⊢
      rw [List.map_cons, CrashesIn]
      by_cases h1 : NoEmpty t vs.1
      · right
        exact ⟨⟨vs.1, reads_serialize t hl.1 hs.1 vs.1 h1 (hlen _ List.mem_cons_self)⟩,
          crashesIn_serialize fs hl.2 hs.2 vs.2 (fun h => hne ⟨h1, h⟩) fun p hp => hlen p (List.mem_cons_of_mem _ hp)⟩
      · exact .inl (crashes_serialize t hl.1 hs.1 vs.1 h1 (hlen _ List.mem_cons_self))
end

mutual
  theorem reads_noEmpty : (t : Ty) → (bs : List UInt8) → (v : t.Val) → Reads t bs v → NoEmpty t v
    | .bool, _, _, _ => trivial
    | .uint _, _, _, _ => trivial
    | .vec n t, bs, vs, h => by
      obtain ⟨items, hf, _⟩ := (reads_vec n t bs vs).mp h
      intro v hv
      obtain ⟨c, _, hc⟩ := forall₂_mem hf v hv
      exact reads_noEmpty t c v hc
    | .list t, bs, vs, h => by
      obtain ⟨items, hf, hlay⟩ := (reads_list t bs vs).mp h
      refine ⟨fun hv h0 => ?_, fun v hv => ?_⟩
      · rw [hv] at hlay
        rw [h0] at hf
        cases hf
        exact hlay.1 rfl
      · obtain ⟨c, _, hc⟩ := forall₂_mem hf v hv
        exact reads_noEmpty t c v hc
    | .container fs, bs, vs, h => by
      obtain ⟨items, _, _, _, h⟩ := (reads_container fs bs vs).mp h
      exact readsAll_noEmptys fs items vs h
  theorem readsAll_noEmptys : (fs : List Ty) → (items : List (List UInt8)) → (vs : Vals fs) → ReadsAll fs items vs → NoEmptys fs vs
    | [], _, _, _ => trivial
    | t :: fs, [], vs, h => by simp [ReadsAll] at h
    | t :: fs, c :: cs, vs, h => by
      obtain ⟨h1, h2⟩ := (readsAll_cons t fs c cs vs).mp h
      exact ⟨reads_noEmpty t c _ h1, readsAll_noEmptys fs cs _ h2⟩
end

end LCT.Ssz
