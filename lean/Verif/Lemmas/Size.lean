import Verif.Spec.Size
import Verif.Lemmas.Programs
import Verif.Lemmas.Ssz.Grammar

/-!
# The size of decoded values
-/

namespace LCT.Rlp
open LCT.Spec

theorem relaxed_length {t : ItemType} {p d : List UInt8} (h : RelaxedItem t p d) :
    1 ≤ d.length ∧ p.length ≤ d.length ∧ (t = .List → p.length + 1 ≤ d.length) := by
  cases h <;> simp <;> omega

theorem minBE_ofBE_le (l : List UInt8) : (minBE (ofBE l)).length ≤ l.length := by
  rw [← strip_eq_minBE]
  induction l with
  | nil => simp [stripLeadingZeros]
  | cons b l ih =>
    unfold stripLeadingZeros at ih ⊢
    rw [List.dropWhile_cons]
    split
    · rw [List.length_cons]; omega
    · exact Nat.le_refl _

/-- The shortest list around a payload is as short as any around a longer one. -/
theorem rlpListOf_le {s p d : List UInt8} (hs : s.length ≤ p.length) (h : RelaxedItem .List p d) : (rlpListOf s).length ≤ d.length := by
  unfold rlpListOf
  cases h with
  | listShort p h => rw [if_pos (by omega)]; simp; omega
  | listLong l p h1 h8 hl =>
    split
    · simp; omega
    · have := minBE_ofBE_le l
      rw [hl] at this
      have := minBE_length_mono hs
      simp; omega

theorem rlpBytes_le {p d : List UInt8} (h : RelaxedItem .SingleValue p d) : (rlpBytes p).length ≤ d.length := by
  unfold rlpBytes
  cases h with
  | single b h => rw [if_pos ⟨rfl, by simpa using h⟩]
  | short p h =>
    split
    · simp
    · rw [if_pos (by omega)]
  | long l p h1 h8 hl =>
    split
    · simp; omega
    · split
      · simp
      · have := minBE_ofBE_le l
        rw [hl] at this
        simp; omega

mutual
  theorem tree_size : (x : Item) → (d : List UInt8) → RelaxedTree x d →
      nodes x ≤ d.length ∧ volume x ≤ d.length ∧ depth x ≤ d.length ∧ (rlp x).length ≤ d.length
    | .bytes p, d, h => by
      cases h with
      | bytes p d h =>
        have := relaxed_length h
        rw [nodes, volume, depth, rlp]
        exact ⟨by omega, by omega, by omega, rlpBytes_le h⟩
    | .list xs, d, h => by
      cases h with
      | list xs p d hs h =>
        have h1 := relaxed_length h
        have h2 := h1.2.2 rfl
        obtain ⟨i1, i2, i3, i4⟩ := trees_size xs p hs
        rw [nodes, volume, depth, rlp]
        exact ⟨by omega, by omega, by omega, rlpListOf_le i4 h⟩
  theorem trees_size : (xs : List Item) → (d : List UInt8) → RelaxedTrees xs d →
      nodesAll xs ≤ d.length ∧ volumeAll xs ≤ d.length ∧ depthAll xs ≤ d.length ∧ (rlpSeq xs).length ≤ d.length
    | [], d, h => by cases h; exact ⟨Nat.le_refl _, Nat.le_refl _, Nat.le_refl _, Nat.le_refl _⟩
    | x :: xs, d, h => by
      cases h with
      | cons x xs d ds h hs =>
        obtain ⟨i1, i2, i3, i4⟩ := tree_size x d h
        obtain ⟨j1, j2, j3, j4⟩ := trees_size xs ds hs
        rw [nodesAll, volumeAll, depthAll, rlpSeq, List.length_append, List.length_append]
        exact ⟨by omega, by omega, by omega, by omega⟩
end

theorem nest_depth : (d : Nat) → depth (nest d) = d + 1
  | 0 => rfl
  | d + 1 => by rw [nest, depth, depthAll, depthAll, nest_depth d]; omega

theorem nest_length (d : Nat) (h : 9 * d + 1 < 2 ^ 64) : (rlp (nest d)).length ≤ 9 * d + 1 := by
  induction d with
  | zero => decide
  | succ d ih =>
    have ih := ih (by omega)
    have hm : (minBE (rlp (nest d)).length).length ≤ 8 := minBE_length_le _ 8 (by omega)
    rw [nest, rlp, rlpSeq, rlpSeq, List.append_nil, rlpListOf]
    split
    · simp; omega
    · simp; omega

end LCT.Rlp

namespace LCT.Ssz
open LCT.Spec.Ssz

theorem levels_pos : (t : Ty) → 1 ≤ t.levels
  | .bool => Nat.le_refl _
  | .uint _ => Nat.le_refl _
  | .vec _ t => by rw [Ty.levels]; split <;> omega
  | .list t => by rw [Ty.levels]; split; exact levels_pos t; exact Nat.le_refl _
  | .container fs => by rw [Ty.levels]; split <;> omega

theorem maxLevels_pos : (fs : List Ty) → 1 ≤ maxLevels fs
  | [] => Nat.le_refl _
  | t :: fs => by
    rw [maxLevels]
    have := maxLevels_pos fs
    split <;> omega

theorem varSum_var {α : Type} (s : α → List UInt8) (vs : List α) :
    varSum (vs.map fun v => ⟨true, s v⟩) = (vs.map fun v => (s v).length).sum := by
  induction vs with
  | nil => rfl
  | cons v vs ih => rw [List.map_cons, varSum_cons, ih]; rfl

theorem sum_le {α : Type} {R : List UInt8 → α → Prop} {s : α → List UInt8} {k : Nat} (h : ∀ c v, R c v → (s v).length ≤ k * c.length)
    {items : List (List UInt8)} {vs : List α} (hr : List.Forall₂ R items vs) : (vs.map fun v => (s v).length).sum ≤ k * items.flatten.length := by
  induction hr with
  | nil => simp
  | cons h1 _ ih =>
    have := h _ _ h1
    simp only [List.map_cons, List.sum_cons, List.flatten_cons, List.length_append, Nat.mul_add]
    omega

theorem laid_sizes {o : Nat} {ps : List Part} {bs : List UInt8} (h : LaidOut o ps bs) : fixSum ps ≤ bs.length ∧ varSum ps ≤ bs.length := by
  obtain ⟨-, -, h1, -, h2⟩ := (laidOut_iff o ps bs).mp h
  refine ⟨h1, ?_⟩
  rw [← tails_length, h2, List.length_drop]
  omega

theorem joined_length {k : Nat} {items : List (List UInt8)} {bs : List UInt8} (h : Joined k items bs) : bs.length = items.length * k := by
  obtain ⟨rfl, h⟩ := h
  have := flatten_length' items k h
  exact this
where
  flatten_length' (items : List (List UInt8)) (k : Nat) (h : ∀ c ∈ items, c.length = k) : items.flatten.length = items.length * k := by
    induction items with
    | nil => simp
    | cons c cs ih =>
      rw [List.flatten_cons, List.length_append, ih fun x hx => h x (List.mem_cons_of_mem _ hx), h c List.mem_cons_self, List.length_cons, Nat.succ_mul]
      omega

theorem varSum_varParts (items : List (List UInt8)) : varSum (varParts items) = items.flatten.length := by
  rw [← tails_length, tails_varParts]

theorem fieldParts_fix : (fs : List Ty) → (items : List (List UInt8)) → ItemsFit fs items → fixSum (fieldParts fs items) = heads fs
  | [], _, h => by cases h; rfl
  | t :: fs, _, h => by
    cases h with
    | cons h1 h2 =>
      rename_i c cs
      rw [fieldParts, List.zipWith_cons_cons, fixSum_cons, heads]
      have := fieldParts_fix fs cs h2
      rw [fieldParts] at this
      rw [this]
      congr 1
      unfold Part.fix
      cases hv : t.isVariable with
      | true => rfl
      | false => simp [h1 hv]

theorem seq_fixed_length (t : Ty) (hv : t.isVariable = false) (vs : List t.Val) :
    (assemble (vs.map fun v => ⟨t.isVariable, serialize t v⟩)).length = vs.length * t.head := by
  rw [hv, assemble_length, varSum_fixed, fixSum_fixed _ t.head _ fun v _ => serialize_length t hv v, Nat.add_zero]

mutual
  theorem reads_size : (t : Ty) → (bs : List UInt8) → (v : t.Val) → Reads t bs v → (serialize t v).length ≤ t.levels * bs.length
    | .bool, bs, v, h => by rw [Reads] at h; rw [Ty.levels, ← h]; omega
    | .uint _, bs, v, h => by rw [Reads] at h; rw [Ty.levels, ← h]; omega
    | .vec n t, bs, vs, h => by
      rw [Reads] at h
      obtain ⟨items, hi, h⟩ := h
      have hn := hi.length_eq
      rw [serialize, Ty.levels]
      cases hv : t.isVariable with
      | false =>
        rw [hv] at h
        have h : Joined t.head items bs := h
        have e := seq_fixed_length t hv vs.val
        rw [hv] at e
        rw [e, joined_length h, hn]
        simp
      | true =>
        rw [hv] at h
        obtain ⟨o, h⟩ := h
        obtain ⟨h1, h2⟩ := laid_sizes h
        rw [fixSum_varParts] at h1
        rw [varSum_varParts] at h2
        have h3 := sum_le (s := serialize t) (k := t.levels) (fun c v hr => reads_size t c v hr) hi
        rw [assemble_length, fixSum_var, varSum_var, ← hn]
        have h4 := Nat.mul_le_mul_left t.levels h2
        rw [if_pos rfl, Nat.add_mul]
        omega
    | .list t, bs, vs, h => by
      rw [Reads] at h
      obtain ⟨items, hi, h⟩ := h
      have hn := hi.length_eq
      rw [serialize, Ty.levels]
      cases hv : t.isVariable with
      | false =>
        rw [hv] at h
        have h : Joined t.head items bs := h
        have e := seq_fixed_length t hv vs
        rw [hv] at e
        rw [e, joined_length h, hn]
        simp
      | true =>
        rw [hv] at h
        obtain ⟨-, h, -⟩ := h
        have h3 := sum_le (s := serialize t) (k := t.levels) (fun c v hr => reads_size t c v hr) hi
        rw [h, assemble_length, assemble_length, fixSum_var, varSum_var, fixSum_varParts, varSum_varParts, ← hn, if_pos rfl, Nat.mul_add]
        have h5 : 1 * (items.length * 4) ≤ t.levels * (items.length * 4) := Nat.mul_le_mul_right _ (levels_pos t)
        omega
    | .container fs, bs, vs, h => by
      rw [Reads] at h
      obtain ⟨items, o, hf, hl, hr⟩ := h
      obtain ⟨h1, h2⟩ := laid_sizes hl
      rw [fieldParts_fix fs items hf] at h1
      have h3 := reads_sizes fs items vs hr
      have h4 := Nat.mul_le_mul_left (maxLevels fs) h2
      rw [serialize, Ty.levels, assemble_length, parts_fix fs vs]
      cases hv : anyVariable fs with
      | false =>
        rw [parts_var fs hv vs]
        simp only [Bool.false_eq_true, if_false]
        omega
      | true =>
        rw [if_pos rfl, Nat.add_mul]
        omega
  theorem reads_sizes : (fs : List Ty) → (items : List (List UInt8)) → (vs : Vals fs) → ReadsAll fs items vs →
      varSum (parts fs vs) ≤ maxLevels fs * varSum (fieldParts fs items)
    | [], _, _, _ => by rw [parts]; simp
    | t :: fs, [], _, h => by rw [ReadsAll] at h <;> simp_all
    | t :: fs, c :: cs, vs, h => by
      rw [ReadsAll] at h
      have h1 := reads_size t c vs.1 h.1
      have h2 := reads_sizes fs cs vs.2 h.2
      rw [fieldParts] at h2
      rw [parts, varSum_cons, maxLevels, fieldParts, List.zipWith_cons_cons, varSum_cons]
      cases hv : t.isVariable with
      | false =>
        simp only [Part.tail, Bool.false_eq_true, if_false, List.length_nil, Nat.zero_add]
        exact h2
      | true =>
        simp only [Part.tail, if_true, Nat.mul_add]
        have h3 := Nat.mul_le_mul_right c.length (Nat.le_max_left t.levels (maxLevels fs))
        have h4 := Nat.mul_le_mul_right (varSum (List.zipWith (fun t c => (⟨t.isVariable, c⟩ : Part)) fs cs)) (Nat.le_max_right t.levels (maxLevels fs))
        exact Nat.add_le_add (Nat.le_trans h1 h3) (Nat.le_trans h2 h4)
end

/-! ## The bound is attained -/

theorem doll_variable (k : Nat) : (d : Nat) → (russianDoll k d).isVariable = true
  | 0 => rfl
  | d + 1 => by rw [russianDoll, Ty.isVariable, anyVariable, anyVariable, doll_variable k d]; simp

theorem doll_levels (k : Nat) : (d : Nat) → (russianDoll k d).levels = d + 1
  | 0 => rfl
  | d + 1 => by
    have h := doll_variable k d
    rw [russianDoll, Ty.levels, if_pos (by simp [anyVariable, h]), maxLevels, if_neg (by simp [Ty.isVariable]), maxLevels, if_pos h, maxLevels,
      doll_levels k d]
    omega

theorem doll_legal (k : Nat) (hk : 0 < k) : (d : Nat) → (russianDoll k d).Legal
  | 0 => by rw [russianDoll, Ty.Legal, Ty.Legal]; trivial
  | d + 1 => by
    rw [russianDoll, Ty.Legal, allLegal, allLegal, allLegal]
    refine ⟨by simp, ?_, doll_legal k hk d, trivial⟩
    rw [Ty.Legal, Ty.Legal]
    exact ⟨hk, trivial⟩

theorem doll_small (k : Nat) (hk : k + 4 < 2 ^ 32) : (d : Nat) → (russianDoll k d).Small
  | 0 => by rw [russianDoll, Ty.Small, Ty.Small]; trivial
  | d + 1 => by
    rw [russianDoll, Ty.Small, allSmall, allSmall, allSmall]
    refine ⟨?_, ?_, doll_small k hk d, trivial⟩
    · simp [heads, doll_variable, Ty.isVariable, Ty.head, Width.bytes]
      omega
    · rw [Ty.Small, Ty.Small]
      simp [Ty.isVariable, Ty.head, Width.bytes]
      omega

/-- The byte zero, as a value. -/
def zero8 : (Ty.uint .w8).Val := (0#8 : BitVec 8)

theorem zeros_items (n : Nat) :
    List.Forall₂ (fun c v => Reads (.uint .w8) c v) (List.replicate n [0]) (List.replicate n zero8) := by
  induction n with
  | zero => exact .nil
  | succ n ih =>
    rw [List.replicate_succ]
    refine .cons ?_ ih
    show _ = serialize (.uint .w8) zero8
    rfl

theorem zeros_joined (n : Nat) : Joined (Ty.uint .w8).head (List.replicate n [0]) (List.replicate n 0) := by
  refine ⟨?_, ?_⟩
  · induction n with
    | zero => rfl
    | succ n ih => rw [List.replicate_succ, List.replicate_succ, List.flatten_cons, ← ih]; rfl
  · intro c hc
    rw [List.eq_of_mem_replicate hc]
    rfl

theorem reads_bytes (n : Nat) (vs : (Ty.list (.uint .w8)).Val) (h : vs = List.replicate n zero8) :
    Reads (.list (.uint .w8)) (List.replicate n 0) vs ∧ (serialize (.list (.uint .w8)) vs).length = n := by
  refine ⟨?_, ?_⟩
  · rw [Reads]
    subst h
    exact ⟨List.replicate n [0], zeros_items n, zeros_joined n⟩
  · rw [serialize]
    subst h
    have := seq_fixed_length (.uint .w8) rfl (List.replicate n zero8)
    refine this.trans ?_
    rw [List.length_replicate]
    exact Nat.mul_one n

theorem reads_block (n : Nat) (vs : (Ty.vec n (.uint .w8)).Val) (h : vs.val = List.replicate n zero8) :
    Reads (.vec n (.uint .w8)) (List.replicate n 0) vs := by
  rw [Reads]
  refine ⟨List.replicate n [0], ?_, zeros_joined n⟩
  show List.Forall₂ _ _ vs.val
  rw [h]
  exact zeros_items n

theorem doll_head (k d : Nat) : heads [.vec k (.uint .w8), russianDoll k d] = k + 4 := by
  simp [heads, doll_variable, Ty.isVariable, Ty.head, Width.bytes]

theorem doll_var (k d : Nat) (vs : Vals [.vec k (.uint .w8), russianDoll k d]) :
    varSum (parts [.vec k (.uint .w8), russianDoll k d] vs) = (serialize (russianDoll k d) vs.2.1).length := by
  rw [parts, varSum_cons, parts, varSum_cons, parts]
  simp [Part.tail, doll_variable, Ty.isVariable]

theorem doll_reads (k : Nat) (hk : k + 4 < 2 ^ 32) : (d : Nat) →
    ∃ v, Reads (russianDoll k d) (List.replicate (k + 4) 0) v ∧ (serialize (russianDoll k d) v).length = (d + 1) * (k + 4)
  | 0 => by
    obtain ⟨h1, h2⟩ := reads_bytes (k + 4) (List.replicate (k + 4) zero8) rfl
    exact ⟨_, h1, h2.trans (by omega)⟩
  | d + 1 => by
    obtain ⟨v, hr, hl⟩ := doll_reads k hk d
    let bytes : (Ty.vec k (.uint .w8)).Val := ⟨List.replicate k zero8, List.length_replicate⟩
    let whole : Vals [.vec k (.uint .w8), russianDoll k d] := (bytes, (v, ()))
    refine ⟨whole, ?_, ?_⟩
    · refine ⟨[List.replicate k 0, List.replicate (k + 4) 0], 0, ?_, ?_, ?_⟩
      · refine .cons ?_ (.cons ?_ .nil)
        · intro _
          simp [Ty.head, Width.bytes, Ty.isVariable]
        · intro h
          rw [doll_variable] at h
          cases h
      · refine ⟨by simpa using hk, by omega, ?_, ?_⟩
        · have e : (fixedPartsAt 0 (fieldParts [.vec k (.uint .w8), russianDoll k d] [List.replicate k 0, List.replicate (k + 4) 0])).flatten =
              List.replicate k 0 ++ List.replicate 4 0 := by
            simp [fieldParts, fixedPartsAt, variableLengths, variableParts, doll_variable, Ty.isVariable, List.zipIdx]
            rfl
          rw [e, List.replicate_add]
        · simp [fieldParts, variableParts, doll_variable, Ty.isVariable]
      · exact ⟨reads_block k bytes rfl, hr, trivial⟩
    · have e1 : serialize (russianDoll k (d + 1)) whole = assemble (parts [.vec k (.uint .w8), russianDoll k d] whole) := by
        show serialize (.container [.vec k (.uint .w8), russianDoll k d]) whole = _
        exact serialize.eq_5 _ whole
      rw [e1, assemble_length, parts_fix, doll_head, doll_var]
      show k + 4 + (serialize (russianDoll k d) v).length = _
      rw [hl, Nat.add_mul (d + 1)]
      omega

end LCT.Ssz
