import Verif.Lemmas.Ssz.Decode

/-!
# SSZ decoding: no panics
-/

namespace LCT.Ssz
open LCT LCT.Out LCT.Spec.Ssz
open LCT.Hash.Sha2 (chunksExact chunksExact_eq pieces_length pieces_each)

/-- The program returns an error, or a value with a property. -/
def Good {α : Type} (x : Out Err α) (P : α → Prop) : Prop := (∃ a, x = .ok a ∧ P a) ∨ ∃ e, x = .err e

namespace Good
variable {α β : Type} {P : α → Prop} {Q : β → Prop}

theorem ok {a : α} (h : P a) : Good (Out.ok a) P := .inl ⟨a, rfl, h⟩
theorem err {e : Err} : Good (Out.err e : Out Err α) P := .inr ⟨e, rfl⟩
theorem bind {x : Out Err α} {f : α → Out Err β} (hx : Good x P) (hf : ∀ a, P a → Good (f a) Q) : Good (x >>= f) Q := by
  rcases hx with ⟨a, rfl, ha⟩ | ⟨e, rfl⟩
  · exact hf a ha
  · exact err
theorem returns {x : Out Err α} (h : Good x P) : x.Returns := by
  rcases h with ⟨a, h, -⟩ | ⟨e, h⟩
  · exact .inl ⟨a, h⟩
  · exact .inr ⟨e, h⟩
theorem of_returns {x : Out Err α} (h : x.Returns) : Good x fun _ => True := by
  rcases h with ⟨a, h⟩ | ⟨e, h⟩
  · exact .inl ⟨a, h, trivial⟩
  · exact .inr ⟨e, h⟩
end Good

theorem decodeU32_good (m : Build) {bs : List UInt8} : Good (decodeU32 m bs) fun n => n < 2 ^ 32 := by
  unfold decodeU32 uintImpl
  dsimp only
  by_cases h : bs.length = 4
  · rw [if_pos h, bind_ok]
    exact .ok (BitVec.isLt _)
  · rw [if_neg h]
    exact .err

theorem decodeEach_good {α : Type} (m : Build) (T : SszType α) (cs : List (List UInt8)) (h : ∀ c ∈ cs, (T.tryFromBytes m c).Returns) :
    Good (decodeEach m T cs) fun vs => vs.length = cs.length := by
  induction cs with
  | nil => exact .ok rfl
  | cons c cs ih =>
    unfold decodeEach
    refine .bind (.of_returns (h c List.mem_cons_self)) fun v _ => ?_
    refine .bind (ih fun d hd => h d (List.mem_cons_of_mem _ hd)) fun vs hvs => ?_
    exact .ok (by simp [hvs])

/-- The offsets are in order and within the data. -/
def InOrder (len : Nat) : Nat → List Nat → Prop
  | _, [] => True
  | previous, o :: os => previous ≤ o ∧ o ≤ len ∧ InOrder len o os

theorem readOffsets_good (m : Build) (len previous : Nat) (cs : List (List UInt8)) :
    Good (readOffsets m len previous cs) fun os => os.length = cs.length ∧ InOrder len previous os := by
  induction cs generalizing previous with
  | nil => exact .ok ⟨rfl, trivial⟩
  | cons c cs ih =>
    unfold readOffsets
    refine .bind (decodeU32_good m) fun o _ => ?_
    split
    · exact .err
    · rename_i h
      simp only [Bool.or_eq_true, decide_eq_true_eq, not_or] at h
      refine .bind (ih o) fun os hos => ?_
      exact .ok ⟨by simp [hos.1], by omega, by omega, hos.2⟩

theorem decodeWindows_good {α : Type} (m : Build) (T : SszType α) (bs : List UInt8) (hT : ∀ c, (T.tryFromBytes m c).Returns) (os : List Nat) (previous : Nat)
    (h : InOrder bs.length previous os) : Good (decodeWindows m T bs os) fun vs => vs.length = os.length - 1 := by
  induction os generalizing previous with
  | nil => exact .ok rfl
  | cons o os ih =>
    cases os with
    | nil => exact .ok rfl
    | cons o2 os =>
      rw [decodeWindows, dassert_true m (by simpa using h.2.2.1), bind_ok, slice_ok h.2.2.1 h.2.2.2.1, bind_ok]
      refine .bind (.of_returns (hT _)) fun v _ => ?_
      refine .bind (ih o h.2.2) fun vs hvs => ?_
      exact .ok (by simp [hvs])

theorem InOrder.append_end {len previous : Nat} {os : List Nat} (h : InOrder len previous os) (hp : previous ≤ len) : InOrder len previous (os ++ [len]) := by
  induction os generalizing previous with
  | nil => exact ⟨hp, Nat.le_refl _, trivial⟩
  | cons o os ih => exact ⟨h.1, h.2.1, ih h.2.2 h.2.1⟩

theorem decodeVariable_good {α : Type} (m : Build) (T : SszType α) (hsz : T.size m = .ok none) (bs : List UInt8) (n : Nat) (hn : n * 4 < 2 ^ 32)
    (hT : ∀ c, (T.tryFromBytes m c).Returns) : Good (decodeVariable m T bs n (n * 4)) fun vs => vs.length = n := by
  unfold decodeVariable
  rw [variableAsserts_ok m T hsz hn, bind_ok]
  split
  · exact .err
  split
  · exact .err
  rename_i h
  rw [addU32_ok m (by omega), bind_ok, slice_ok (by omega) (by omega), bind_ok, chunks_ok (by decide), bind_ok]
  refine .bind (readOffsets_good m _ _ _) fun os hos => ?_
  dsimp only
  have hlen : os.length = n := by
    rw [hos.1, chunksExact_eq, pieces_length]
    simp
    omega
  cases os with
  | nil => exact .ok (by simpa using hlen)
  | cons o os =>
    have := decodeWindows_good m T bs hT _ 0 (hos.2.append_end (Nat.zero_le _))
    simp only [List.isEmpty_cons, Bool.false_eq_true, if_false]
    simpa [← hlen] using this

theorem toArray_good {α : Type} {n : Nat} {vs : List α} (h : vs.length = n) : Good (toArray n vs) fun _ => True := by
  unfold toArray
  rw [dif_pos h]
  exact .ok trivial

/-! ## Containers -/

/-- The length of the header of a field with this size. -/
def headerOf (s : Option Nat) : Nat := s.getD 4

theorem headersLength_sum (m : Build) (sizes : List (Option Nat)) (len : Nat) (h : len + (sizes.map headerOf).sum < 2 ^ 32) :
    headersLength m len sizes = .ok (len + (sizes.map headerOf).sum) := by
  induction sizes generalizing len with
  | nil => rfl
  | cons s sizes ih =>
    rw [List.map_cons, List.sum_cons] at h ⊢
    cases s with
    | none =>
      simp only [headerOf, Option.getD_none] at h ⊢
      rw [headersLength, addU32_ok m (by omega), bind_ok, ih _ (by omega), Nat.add_assoc]
    | some s =>
      simp only [headerOf, Option.getD_some] at h ⊢
      rw [headersLength, addU32_ok m (by omega), bind_ok, ih _ (by omega), Nat.add_assoc]

theorem itemsLoop_good (m : Build) (bs : List UInt8) (sizes : List (Option Nat)) (previous : Nat) (items : List (List UInt8))
    (hp : previous ≤ bs.length) (hc : (sizes.map headerOf).sum ≤ bs.length) :
    Good (itemsLoop m bs sizes previous (sizes.map headerOf).sum items) fun its => its.length = sizes.length + items.length := by
  induction sizes generalizing previous items with
  | nil => exact .ok (by simp)
  | cons s sizes ih =>
    rw [List.map_cons, List.sum_cons] at hc ⊢
    cases s with
    | none =>
      simp only [headerOf, Option.getD_none] at hc ⊢
      rw [itemsLoop, subU32_ok m (by omega), bind_ok, Nat.add_sub_cancel_left, slice_ok (by omega) hc, bind_ok]
      refine .bind (decodeU32_good m) fun o _ => ?_
      split
      · exact .err
      · rw [slice_ok (by omega) hp, bind_ok, bind_ok]
        have := ih o ((bs.drop o).take (previous - o) :: items) (by omega) (by omega)
        simpa only [List.length_cons, Nat.add_right_comm, ← Nat.add_assoc] using this
    | some s =>
      simp only [headerOf, Option.getD_some] at hc ⊢
      rw [itemsLoop, if_neg (by omega), Nat.add_sub_cancel_left, slice_ok (by omega) hc, bind_ok]
      have := ih previous ((bs.drop (sizes.map headerOf).sum).take (s + (sizes.map headerOf).sum - (sizes.map headerOf).sum) :: items) hp (by omega)
      simpa only [List.length_cons, Nat.add_right_comm, ← Nat.add_assoc] using this

theorem decodeAsItems_good (m : Build) (bs : List UInt8) (sizes : List (Option Nat)) (h : (sizes.map headerOf).sum < 2 ^ 32) :
    Good (decodeAsItems m bs sizes) fun its => its.length = sizes.length := by
  unfold decodeAsItems
  rw [headersLength_sum m sizes 0 (by omega), bind_ok]
  split
  · exact .err
  split
  · exact .err
  rename_i h2
  have e : 0 + (sizes.map headerOf).sum = (sizes.reverse.map headerOf).sum := by
    rw [List.map_reverse, List.sum_reverse, Nat.zero_add]
  rw [e] at h2 ⊢
  simpa using itemsLoop_good m bs sizes.reverse bs.length [] (Nat.le_refl _) (by omega)

theorem headers_eq : (fs : List Ty) → ((fs.map sizeOf').map headerOf).sum = heads fs
  | [] => rfl
  | t :: fs => by
    rw [List.map_cons, List.map_cons, List.sum_cons, headers_eq fs, heads]
    congr 1
    unfold sizeOf' headerOf
    split <;> rfl

/-! ## All types without lists of elements of variable size -/

mutual
  theorem decode_returns (m : Build) : (t : Ty) → t.Legal → t.Small → NoVarList t → (bs : List UInt8) → ((impl t).tryFromBytes m bs).Returns
    | .bool, _, _, _, bs => by
      rw [impl]
      unfold boolImpl
      dsimp only
      split
      · split
        · exact .ok _
        · exact .ok _
        · exact .err _
      · exact .err _
    | .uint w, _, _, _, bs => by
      rw [impl]
      unfold uintImpl
      dsimp only
      split
      · exact .ok _
      · exact .err _
    | .vec n t, hl, hs, hn, bs => by
      have hT := decode_returns m t hl.2 hs.2 hn
      have hsize := size_ok m t hl.2 hs.2
      have hsm := hs.1
      rw [impl]
      unfold arrayImpl
      dsimp only
      rw [hsize, bind_ok]
      cases hv : t.isVariable with
      | true =>
        rw [hv] at hsm
        simp only [if_true] at hsm
        unfold sizeOf'
        rw [hv]
        simp only [if_true]
        rw [toU32_ok (by omega), bind_ok, checkedMul_ok hsm, bind_ok]
        refine Good.returns (Good.bind (decodeVariable_good m (impl t) ?_ bs n hsm hT) fun vs hvs => toArray_good hvs)
        rw [hsize]; unfold sizeOf'; rw [hv]; rfl
      | false =>
        rw [hv] at hsm
        simp only [Bool.false_eq_true, if_false] at hsm
        have hp := head_pos t hl.2 hv
        unfold sizeOf'
        rw [hv]
        simp only [Bool.false_eq_true, if_false]
        rw [toU32_ok (Nat.lt_of_le_of_lt (Nat.le_mul_of_pos_right n hp) hsm), bind_ok, checkedMul_ok (by rw [Nat.mul_comm]; exact hsm), bind_ok]
        split
        · exact .err _
        rename_i hlen
        have hlen : bs.length = t.head * n := Decidable.not_not.mp hlen
        rw [chunks_ok hp, bind_ok]
        refine Good.returns (Good.bind (decodeEach_good m (impl t) _ fun c _ => hT c) fun vs hvs => toArray_good ?_)
        rw [hvs, chunksExact_eq, pieces_length, hlen, Nat.mul_div_cancel_left _ hp]
    | .list t, hl, hs, hn, bs => by
      have hT := decode_returns m t hl hs hn.2
      have hsize := size_ok m t hl hs
      have hv := hn.1
      have hp := head_pos t hl hv
      rw [impl]
      unfold listImpl
      dsimp only
      rw [hsize, bind_ok]
      unfold sizeOf'
      rw [hv]
      simp only [Bool.false_eq_true, if_false]
      rw [if_neg (by omega), bind_ok]
      split
      · exact .err _
      · rw [chunks_ok hp, bind_ok]
        exact (decodeEach_good m (impl t) _ fun c _ => hT c).returns
    | .container fs, hl, hs, hn, bs => by
      show Returns (do
        let sizes ← (fields fs).sizes m
        let items ← decodeAsItems m bs sizes
        (fields fs).decode m items)
      rw [sizes_ok m fs hl.2 hs.2, bind_ok]
      refine Good.returns (Good.bind (decodeAsItems_good m bs _ (by rw [headers_eq]; exact hs.1)) fun its hits => ?_ : Good _ fun _ => True)
      exact .of_returns (decodeFields_returns m fs hl.2 hs.2 hn its (by simpa using hits))
  theorem decodeFields_returns (m : Build) : (fs : List Ty) → allLegal fs → allSmall fs → NoVarLists fs → (items : List (List UInt8)) →
      items.length = fs.length → ((fields fs).decode m items).Returns
    | [], _, _, _, _, _ => .ok _
    | t :: fs, _, _, _, [], h => by simp at h
    | t :: fs, hl, hs, hn, item :: items, h => by
      rw [fields]
      show Returns (do
        let a ← LCT.Ssz.decode m (impl t) item
        let b ← (fields fs).decode m items
        return (a, b))
      refine Returns.bind (decode_returns m t hl.1 hs.1 hn.1 item) fun a _ => ?_
      exact Returns.bind (decodeFields_returns m fs hl.2 hs.2 hn.2 items (by simpa using h)) fun b _ => .ok _
end

/-! ## Lists of elements of variable size -/

theorem varList_returns (m : Build) (t : Ty) (hl : t.Legal) (hs : t.Small) (hv : t.isVariable = true)
    (hT : ∀ c, ((impl t).tryFromBytes m c).Returns) (bs : List UInt8) :
    (impl (.list t)).tryFromBytes m bs = .panic ∧ bs.length < 4 ∨ ((impl (.list t)).tryFromBytes m bs).Returns ∧ 4 ≤ bs.length := by
  have hsize := size_ok m t hl hs
  rw [impl]
  unfold listImpl
  dsimp only
  rw [hsize, bind_ok]
  unfold sizeOf'
  rw [hv]
  simp only [if_true]
  by_cases h : 4 ≤ bs.length
  · refine .inr ⟨?_, h⟩
    rw [slice_ok (by omega) h, bind_ok]
    refine Good.returns (Good.bind (decodeU32_good m) fun o ho => ?_ : Good _ fun _ => True)
    split
    · exact .err
    · rename_i hc
      simp only [Bool.or_eq_true, decide_eq_true_eq, bne_iff_ne, not_or, Decidable.not_not] at hc
      have e : o = o / 4 * 4 := by omega
      have := decodeVariable_good m (impl t) (by rw [hsize]; unfold sizeOf'; rw [hv]; rfl) bs (o / 4) (by omega) hT
      rw [← e] at this
      exact .of_returns this.returns
  · refine .inl ⟨?_, by omega⟩
    unfold slice
    rw [if_neg (by omega)]
    rfl

theorem varList_short (m : Build) (t : Ty) (hl : t.Legal) (hs : t.Small) (hv : t.isVariable = true) (bs : List UInt8) (h : bs.length < 4) :
    (impl (.list t)).tryFromBytes m bs = .panic := by
  have hsize := size_ok m t hl hs
  rw [impl]
  unfold listImpl
  dsimp only
  rw [hsize, bind_ok]
  unfold sizeOf'
  rw [hv]
  simp only [if_true]
  unfold slice
  rw [if_neg (by omega)]
  rfl

/-! ## Elements of size zero -/

theorem zero_size (m : Build) (t : Ty) (hl : t.Legal) (hs : t.Small) (hv : t.isVariable = false) : (impl (.vec 0 t)).size m = .ok (some 0) := by
  rw [impl]
  unfold arrayImpl
  dsimp only
  rw [size_ok m t hl hs, bind_ok]
  unfold sizeOf'
  rw [hv]
  simp only [Bool.false_eq_true, if_false]
  rw [toU32_ok (by decide), bind_ok, checkedMul_ok (by simp), bind_ok]
  rfl

theorem zero_size_vec (m : Build) (n : Nat) (hn : n < 2 ^ 32) (t : Ty) (hl : t.Legal) (hs : t.Small) (hv : t.isVariable = false) :
    (impl (.vec n (.vec 0 t))).tryFromBytes m [] = .panic := by
  rw [impl]
  unfold arrayImpl
  dsimp only
  rw [zero_size m t hl hs hv, bind_ok]
  dsimp only
  rw [toU32_ok hn, bind_ok, checkedMul_ok (by simp), bind_ok, if_neg (by simp)]
  rfl

theorem zero_size_list (m : Build) (t : Ty) (hl : t.Legal) (hs : t.Small) (hv : t.isVariable = false) (bs : List UInt8) :
    (impl (.list (.vec 0 t))).tryFromBytes m bs = .panic := by
  rw [impl]
  unfold listImpl
  dsimp only
  rw [zero_size m t hl hs hv, bind_ok]
  rfl

mutual
  theorem noEmpty_of_noVarList : (t : Ty) → NoVarList t → (v : t.Val) → NoEmpty t v
    | .bool, _, _ => trivial
    | .uint _, _, _ => trivial
    | .vec _ t, h, vs => fun v _ => noEmpty_of_noVarList t h v
    | .list t, h, vs => ⟨fun hv => absurd (h.1.symm.trans hv) (by decide), fun v _ => noEmpty_of_noVarList t h.2 v⟩
    | .container fs, h, vs => noEmptys_of_noVarLists fs h vs
  theorem noEmptys_of_noVarLists : (fs : List Ty) → NoVarLists fs → (vs : Vals fs) → NoEmptys fs vs
    | [], _, _ => trivial
    | t :: fs, h, vs => ⟨noEmpty_of_noVarList t h.1 _, noEmptys_of_noVarLists fs h.2 _⟩
end

end LCT.Ssz
