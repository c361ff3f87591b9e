import Verif.Model.Ssz
import Verif.Lemmas.Bytes
import Mathlib.Algebra.Order.Ring.Nat

/-!
# SSZ encoding
-/

namespace LCT.Ssz
open LCT LCT.Out LCT.Spec.Ssz

theorem out_bind_assoc {α β γ : Type} (x : Out Err α) (f : α → Out Err β) (g : β → Out Err γ) : (x >>= f) >>= g = x >>= fun a => f a >>= g := by
  cases x <;> rfl

/-! ## Assembling parts -/

theorem le_eq (k n : Nat) : le k n = toLEk k n := by
  induction k generalizing n with
  | zero => rfl
  | succ k ih => rw [le, toLEk, ih]

@[simp] theorem le_length (k n : Nat) : (le k n).length = k := by rw [le_eq, toLEk_length]

def fixSum (ps : List Part) : Nat := (fixedLengths ps).sum
def varSum (ps : List Part) : Nat := (variableLengths ps).sum

/-- The length in the fixed part. -/
def Part.fix (p : Part) : Nat := if p.isVar then 4 else p.bytes.length
/-- The bytes in the variable part. -/
def Part.tail (p : Part) : List UInt8 := if p.isVar then p.bytes else []

@[simp] theorem fixSum_nil : fixSum [] = 0 := rfl
@[simp] theorem varSum_nil : varSum [] = 0 := rfl
@[simp] theorem fixSum_cons (p : Part) (ps : List Part) : fixSum (p :: ps) = Part.fix p + fixSum ps := by
  simp [fixSum, fixedLengths, Part.fix]
@[simp] theorem varSum_cons (p : Part) (ps : List Part) : varSum (p :: ps) = (Part.tail p).length + varSum ps := by
  simp [varSum, variableLengths, variableParts, Part.tail]
theorem fixSum_append (ps qs : List Part) : fixSum (ps ++ qs) = fixSum ps + fixSum qs := by
  simp [fixSum, fixedLengths]
theorem varSum_append (ps qs : List Part) : varSum (ps ++ qs) = varSum ps + varSum qs := by
  simp [varSum, variableLengths, variableParts]

/-- The variable parts. -/
def tails (ps : List Part) : List UInt8 := (variableParts ps).flatten

@[simp] theorem tails_nil : tails [] = [] := rfl
@[simp] theorem tails_cons (p : Part) (ps : List Part) : tails (p :: ps) = Part.tail p ++ tails ps := rfl
theorem tails_append (ps qs : List Part) : tails (ps ++ qs) = tails ps ++ tails qs := by
  simp [tails, variableParts]
theorem tails_length (ps : List Part) : (tails ps).length = varSum ps := by
  induction ps with
  | nil => rfl
  | cons p ps ih => simp [ih]

/-- The fixed parts, when the fixed parts have length `F` in all and the variable parts before have length `o`. -/
def fixedRec (F : Nat) : Nat → List Part → List UInt8
  | _, [] => []
  | o, p :: ps => (if p.isVar then le 4 (F + o) else p.bytes) ++ fixedRec F (o + (Part.tail p).length) ps

theorem fixedRec_append (F o : Nat) (ps qs : List Part) : fixedRec F o (ps ++ qs) = fixedRec F o ps ++ fixedRec F (o + varSum ps) qs := by
  induction ps generalizing o with
  | nil => rfl
  | cons p ps ih => rw [List.cons_append, fixedRec, ih, fixedRec, List.append_assoc, varSum_cons, Nat.add_assoc]

theorem fixedRec_length (F o : Nat) (ps : List Part) : (fixedRec F o ps).length = fixSum ps := by
  induction ps generalizing o with
  | nil => rfl
  | cons p ps ih =>
    rw [fixedRec, List.length_append, ih, fixSum_cons]
    unfold Part.fix
    split <;> simp

theorem variableOffset_eq (pre ps : List Part) : variableOffset (pre ++ ps) pre.length = fixSum (pre ++ ps) + varSum pre := by
  unfold variableOffset
  rw [List.sum_append]
  congr 1
  unfold variableLengths variableParts varSum
  rw [List.map_append, List.map_append, List.take_left' (by simp)]
  rfl

theorem fixedParts_go (pre ps : List Part) :
    ((ps.zipIdx pre.length).map fun x => if x.1.isVar then le 4 (variableOffset (pre ++ ps) x.2) else x.1.bytes).flatten =
      fixedRec (fixSum (pre ++ ps)) (varSum pre) ps := by
  induction ps generalizing pre with
  | nil => rfl
  | cons p ps ih =>
    rw [List.zipIdx_cons, List.map_cons, List.flatten_cons, fixedRec]
    congr 1
    · split
      · rw [variableOffset_eq]
      · rfl
    · have := ih (pre ++ [p])
      simp only [List.append_assoc, List.singleton_append, List.length_append, List.length_singleton, varSum_append, varSum_cons, varSum_nil,
        Nat.add_zero] at this
      exact this

theorem assemble_eq (ps : List Part) : assemble ps = fixedRec (fixSum ps) 0 ps ++ tails ps := by
  unfold assemble fixedParts
  rw [List.flatten_append]
  exact congrArg (· ++ tails ps) (fixedParts_go [] ps)

theorem assemble_length (ps : List Part) : (assemble ps).length = fixSum ps + varSum ps := by
  rw [assemble_eq, List.length_append, fixedRec_length, tails_length]

theorem part_le {p : Part} {ps : List Part} (h : p ∈ ps) : p.bytes.length ≤ fixSum ps + varSum ps := by
  induction ps with
  | nil => cases h
  | cons q ps ih =>
    rw [fixSum_cons, varSum_cons]
    rcases List.mem_cons.mp h with rfl | h
    · unfold Part.fix Part.tail
      split <;> omega
    · have := ih h
      omega

/-! ## The encoding item -/

/-- The headers of parts, when the variable parts before have length `o`. -/
def headersOf : Nat → List Part → List Header
  | _, [] => []
  | o, p :: ps => (if p.isVar then .offset o else .data p.bytes) :: headersOf (o + (Part.tail p).length) ps

def addPart (it : Item) (p : Part) : Out Err Item := if p.isVar then encodeVariable it p.bytes else encodeFixed it p.bytes

def addParts : Item → List Part → Out Err Item
  | it, [] => .ok it
  | it, p :: ps => do
    let it ← addPart it p
    addParts it ps

/-- The call gives the value or panics. -/
def OrPanic {α : Type} (x : Out Err α) (a : α) : Prop := x = .ok a ∨ x = .panic

theorem OrPanic.bind {α β : Type} {x : Out Err α} {a : α} {f : α → Out Err β} {b : β} (hx : OrPanic x a) (hf : OrPanic (f a) b) :
    OrPanic (x >>= f) b := by
  rcases hx with rfl | rfl
  · exact hf
  · exact .inr rfl

theorem toU32_or (n : Nat) : OrPanic (toU32 n) n := by unfold toU32; split; exact .inl rfl; exact .inr rfl
theorem checkedAdd_or (a b : Nat) : OrPanic (checkedAdd a b) (a + b) := by unfold checkedAdd; split; exact .inl rfl; exact .inr rfl

theorem toU32_ok {n : Nat} (h : n < 2 ^ 32) : toU32 n = .ok n := if_pos h
theorem checkedAdd_ok {a b : Nat} (h : a + b < 2 ^ 32) : checkedAdd a b = .ok (a + b) := if_pos h
theorem checkedMul_ok {a b : Nat} (h : a * b < 2 ^ 32) : checkedMul a b = .ok (a * b) := if_pos h
theorem addU32_ok (m : Build) {a b : Nat} (h : a + b < 2 ^ 32) : addU32 m a b = .ok (a + b) := if_pos h
theorem subU32_ok (m : Build) {a b : Nat} (h : b ≤ a) : subU32 m a b = .ok (a - b) := if_pos h

theorem addPart_or (it : Item) (p : Part) : OrPanic (addPart it p)
    ⟨it.headers ++ headersOf it.objects.length [p], it.headersLen + Part.fix p, it.objects ++ Part.tail p⟩ := by
  unfold addPart encodeVariable encodeFixed headersOf Part.fix Part.tail headersOf
  split
  · exact (toU32_or _).bind ((checkedAdd_or _ _).bind (.inl rfl))
  · exact (toU32_or _).bind ((checkedAdd_or _ _).bind (.inl (by simp)))

theorem addPart_ok (it : Item) (p : Part) (h1 : it.headersLen + Part.fix p < 2 ^ 32) (h2 : it.objects.length < 2 ^ 32) : addPart it p =
    .ok ⟨it.headers ++ headersOf it.objects.length [p], it.headersLen + Part.fix p, it.objects ++ Part.tail p⟩ := by
  unfold Part.fix at *
  unfold addPart encodeVariable encodeFixed headersOf Part.tail headersOf
  split
  · rw [if_pos ‹_›] at h1
    rw [toU32_ok h2, bind_ok, checkedAdd_ok h1]
    rfl
  · rw [if_neg ‹_›] at h1
    rw [toU32_ok (by omega), bind_ok, checkedAdd_ok h1]
    simp

theorem addParts_or (it : Item) (ps : List Part) : OrPanic (addParts it ps)
    ⟨it.headers ++ headersOf it.objects.length ps, it.headersLen + fixSum ps, it.objects ++ tails ps⟩ := by
  induction ps generalizing it with
  | nil => exact .inl (by simp [addParts, headersOf])
  | cons p ps ih =>
    refine (addPart_or it p).bind ?_
    have := ih ⟨it.headers ++ headersOf it.objects.length [p], it.headersLen + Part.fix p, it.objects ++ Part.tail p⟩
    simpa [headersOf, Nat.add_assoc] using this

theorem addParts_ok (it : Item) (ps : List Part) (h1 : it.headersLen + fixSum ps < 2 ^ 32) (h2 : it.objects.length + varSum ps < 2 ^ 32) :
    addParts it ps = .ok ⟨it.headers ++ headersOf it.objects.length ps, it.headersLen + fixSum ps, it.objects ++ tails ps⟩ := by
  induction ps generalizing it with
  | nil => simp [addParts, headersOf]
  | cons p ps ih =>
    rw [fixSum_cons] at h1
    rw [varSum_cons] at h2
    rw [addParts, addPart_ok it p (by omega) (by omega), bind_ok, ih _ (by simp only; omega) (by simp only [List.length_append]; omega)]
    simp [headersOf, Nat.add_assoc]

theorem buildHeaders_or (F o : Nat) (ps : List Part) : OrPanic (buildHeaders F (headersOf o ps)) (fixedRec F o ps) := by
  induction ps generalizing o with
  | nil => exact .inl rfl
  | cons p ps ih =>
    unfold headersOf fixedRec
    split
    · refine (checkedAdd_or _ _).bind ((ih _).bind ?_)
      exact .inl (by rw [le_eq, Nat.add_comm]; rfl)
    · exact (ih _).bind (.inl rfl)

theorem buildHeaders_ok (F o : Nat) (ps : List Part) (h : F + o + varSum ps < 2 ^ 32) :
    buildHeaders F (headersOf o ps) = .ok (fixedRec F o ps) := by
  induction ps generalizing o with
  | nil => rfl
  | cons p ps ih =>
    rw [varSum_cons] at h
    unfold headersOf fixedRec
    split
    · rw [buildHeaders, checkedAdd_ok (by omega), bind_ok, ih _ (by omega), le_eq, Nat.add_comm o F]
      rfl
    · rw [buildHeaders, ih _ (by omega)]
      rfl

theorem takeParts_or (ps : List Part) : OrPanic (do
    let it ← addParts Item.new ps
    takeData it) (assemble ps, Item.new) := by
  refine (addParts_or _ _).bind ?_
  unfold takeData
  simp only [Item.new, List.length_nil, List.nil_append, Nat.zero_add]
  refine (buildHeaders_or _ _ _).bind (.inl ?_)
  rw [assemble_eq]
  rfl

theorem takeParts_ok (ps : List Part) (h : fixSum ps + varSum ps < 2 ^ 32) : (do
    let it ← addParts Item.new ps
    takeData it) = .ok (assemble ps, Item.new) := by
  rw [addParts_ok _ _ (by simp [Item.new]; omega) (by simp [Item.new]; omega), bind_ok]
  unfold takeData
  simp only [Item.new, List.length_nil, List.nil_append, Nat.zero_add]
  rw [buildHeaders_ok _ _ _ (by omega), assemble_eq]
  rfl

/-! ## Sizes and lengths -/

mutual
  theorem head_pos : (t : Ty) → t.Legal → t.isVariable = false → 0 < t.head
    | .bool, _, _ => Nat.one_pos
    | .uint w, _, _ => by cases w <;> decide
    | .vec n t, h, hv => by
      rw [Ty.isVariable] at hv
      rw [Ty.head, hv]
      exact Nat.mul_pos h.1 (head_pos t h.2 hv)
    | .list _, _, hv => by rw [Ty.isVariable] at hv; exact absurd hv (by decide)
    | .container fs, h, hv => by
      rw [Ty.isVariable] at hv
      rw [Ty.head]
      exact heads_pos fs h.1 h.2 hv
  theorem heads_pos : (fs : List Ty) → fs ≠ [] → allLegal fs → anyVariable fs = false → 0 < heads fs
    | [], h, _, _ => absurd rfl h
    | t :: fs, _, h, hv => by
      rw [anyVariable, Bool.or_eq_false_iff] at hv
      have := head_pos t h.1 hv.1
      rw [heads, hv.1]
      simp
      omega
end

theorem fixSum_fixed {α : Type} (s : α → List UInt8) (k : Nat) (vs : List α) (h : ∀ v ∈ vs, (s v).length = k) :
    fixSum (vs.map fun v => ⟨false, s v⟩) = vs.length * k := by
  induction vs with
  | nil => simp
  | cons v vs ih =>
    rw [List.map_cons, fixSum_cons, ih (fun w hw => h w (List.mem_cons_of_mem _ hw)), List.length_cons, Nat.succ_mul]
    simp [Part.fix, h v List.mem_cons_self]
    omega

theorem varSum_fixed {α : Type} (s : α → List UInt8) (vs : List α) : varSum (vs.map fun v => ⟨false, s v⟩) = 0 := by
  induction vs with
  | nil => rfl
  | cons v vs ih => rw [List.map_cons, varSum_cons, ih]; rfl

theorem fixSum_var {α : Type} (s : α → List UInt8) (vs : List α) : fixSum (vs.map fun v => ⟨true, s v⟩) = vs.length * 4 := by
  induction vs with
  | nil => rfl
  | cons v vs ih => rw [List.map_cons, fixSum_cons, ih, List.length_cons, Nat.succ_mul]; simp [Part.fix]; omega

mutual
  /-- Types of fixed size serialize to the size. -/
  theorem serialize_length : (t : Ty) → t.isVariable = false → (v : t.Val) → (serialize t v).length = t.head
    | .bool, _, v => by
      rw [serialize, Ty.head]
      split <;> rfl
    | .uint w, _, v => by rw [serialize, Ty.head, le_length]
    | .vec n t, hv, vs => by
      rw [Ty.isVariable] at hv
      rw [serialize, Ty.head, hv, assemble_length, varSum_fixed, fixSum_fixed _ t.head _ (fun v _ => serialize_length t hv v)]
      simp [vs.2]
    | .list _, hv, _ => by rw [Ty.isVariable] at hv; exact absurd hv (by decide)
    | .container fs, hv, vs => by
      rw [Ty.isVariable] at hv
      rw [serialize, Ty.head, assemble_length, parts_fix fs vs, parts_var fs hv vs]
      rfl
  theorem parts_fix : (fs : List Ty) → (vs : Vals fs) → fixSum (parts fs vs) = heads fs
    | [], _ => rfl
    | t :: fs, vs => by
      rw [parts, fixSum_cons, heads, parts_fix fs vs.2]
      congr 1
      unfold Part.fix
      cases hv : t.isVariable with
      | true => rfl
      | false => simp [serialize_length t hv]
  theorem parts_var : (fs : List Ty) → anyVariable fs = false → (vs : Vals fs) → varSum (parts fs vs) = 0
    | [], _, _ => rfl
    | t :: fs, hv, vs => by
      rw [anyVariable, Bool.or_eq_false_iff] at hv
      rw [parts, varSum_cons, parts_var fs hv.2 vs.2, hv.1]
      rfl
end

/-- The size of a type as the code has it. -/
def sizeOf' (t : Ty) : Option Nat := if t.isVariable then none else some t.head

theorem sumSizes_ok (m : Build) : ∀ (fs : List Ty) (total : Nat), anyVariable fs = false → total + heads fs < 2 ^ 32 →
    sumSizes m total (fs.map sizeOf') = .ok (some (total + heads fs))
  | [], total, _, _ => by simp [sumSizes, heads]
  | t :: fs, total, hv, h => by
    rw [anyVariable, Bool.or_eq_false_iff] at hv
    rw [heads, hv.1] at h
    simp only [Bool.false_eq_true, if_false] at h
    have hs : sizeOf' t = some t.head := by unfold sizeOf'; rw [hv.1]; rfl
    rw [List.map_cons, hs, sumSizes, addU32_ok m (by omega), bind_ok, sumSizes_ok m fs _ hv.2 (by omega), heads, hv.1]
    simp [Nat.add_assoc]

theorem any_none (fs : List Ty) : (fs.map sizeOf').any Option.isNone = anyVariable fs := by
  induction fs with
  | nil => rfl
  | cons t fs ih =>
    rw [List.map_cons, List.any_cons, ih, anyVariable]
    congr 1
    unfold sizeOf'
    cases t.isVariable <;> rfl

mutual
  theorem size_ok (m : Build) : (t : Ty) → t.Legal → t.Small → (impl t).size m = .ok (sizeOf' t)
    | .bool, _, _ => rfl
    | .uint _, _, _ => rfl
    | .vec n t, hl, hs => by
      have ih := size_ok m t hl.2 hs.2
      rw [impl]
      unfold arrayImpl
      simp only [ih, bind_ok]
      unfold sizeOf'
      rw [Ty.isVariable]
      cases hv : t.isVariable with
      | true => rfl
      | false =>
        have h1 := hs.1
        have hp := head_pos t hl.2 hv
        rw [hv] at h1
        simp only [Bool.false_eq_true, if_false] at h1 ⊢
        have hn : n < 2 ^ 32 := Nat.lt_of_le_of_lt (Nat.le_mul_of_pos_right n hp) h1
        rw [toU32_ok hn, bind_ok, checkedMul_ok (by rw [Nat.mul_comm]; exact h1), Ty.head, hv, Nat.mul_comm]
        rfl
    | .list _, _, _ => rfl
    | .container fs, hl, hs => by
      have ih := sizes_ok m fs hl.2 hs.2
      rw [impl]
      unfold containerImpl
      simp only [ih, bind_ok, any_none]
      cases hv : anyVariable fs with
      | true => unfold sizeOf'; rw [Ty.isVariable, hv]; rfl
      | false =>
        have : sizeOf' (.container fs) = some (Ty.container fs).head := by unfold sizeOf'; rw [Ty.isVariable, hv]; rfl
        rw [this]
        simp only [Bool.false_eq_true, if_false]
        rw [sumSizes_ok m fs 0 hv (by rw [Nat.zero_add]; exact hs.1), Nat.zero_add, Ty.head]
  theorem sizes_ok (m : Build) : (fs : List Ty) → allLegal fs → allSmall fs → (fields fs).sizes m = .ok (fs.map sizeOf')
    | [], _, _ => rfl
    | t :: fs, hl, hs => by
      rw [fields]
      unfold addField
      simp only [size_ok m t hl.1 hs.1, sizes_ok m fs hl.2 hs.2, bind_ok]
      rfl
end

theorem sizeOf'_isNone (t : Ty) : (sizeOf' t).isNone = t.isVariable := by
  unfold sizeOf'; cases t.isVariable <;> rfl

/-! ## Encoding -/

theorem encodeAll_or {α : Type} (m : Build) (T : SszType α) (isVar : Bool) (s : α → List UInt8) (it : Item) (vs : List α)
    (h : ∀ v ∈ vs, OrPanic (T.toBytes m v) (s v)) :
    encodeAll m T isVar it vs = addParts it (vs.map fun v => ⟨isVar, s v⟩) ∨ encodeAll m T isVar it vs = .panic := by
  induction vs generalizing it with
  | nil => exact .inl rfl
  | cons v vs ih =>
    unfold encodeAll
    rcases h v List.mem_cons_self with e | e
    · rw [e, bind_ok, List.map_cons, addParts]
      unfold addPart
      cases e2 : (if isVar = true then encodeVariable it (s v) else encodeFixed it (s v)) with
      | ok it' =>
        simp only [e2, bind_ok]
        exact ih it' fun w hw => h w (List.mem_cons_of_mem _ hw)
      | err x => exact .inl (by simp [e2])
      | panic => exact .inl (by simp [e2])
      | hang => exact .inl (by simp [e2])
    · rw [e]; exact .inr rfl

theorem encodeAll_ok {α : Type} (m : Build) (T : SszType α) (isVar : Bool) (s : α → List UInt8) (it : Item) (vs : List α)
    (h : ∀ v ∈ vs, T.toBytes m v = .ok (s v)) : encodeAll m T isVar it vs = addParts it (vs.map fun v => ⟨isVar, s v⟩) := by
  induction vs generalizing it with
  | nil => rfl
  | cons v vs ih =>
    unfold encodeAll
    rw [h v List.mem_cons_self, bind_ok, List.map_cons, addParts]
    unfold addPart
    congr 1
    funext it'
    exact ih it' fun w hw => h w (List.mem_cons_of_mem _ hw)

theorem seqToBytes_or {α : Type} (m : Build) (T : SszType α) (size : Option Nat) (hsz : T.size m = .ok size) (s : α → List UInt8) (vs : List α)
    (h : ∀ v ∈ vs, OrPanic (T.toBytes m v) (s v)) :
    OrPanic (seqToBytes m T vs) (assemble (vs.map fun v => ⟨size.isNone, s v⟩)) := by
  unfold seqToBytes
  rw [hsz, bind_ok]
  rcases encodeAll_or m T size.isNone s Item.new vs h with e | e
  · rw [e]
    have := takeParts_or (vs.map fun v => ⟨size.isNone, s v⟩)
    rcases this with e | e
    · left
      rw [← out_bind_assoc, e]; rfl
    · right
      rw [← out_bind_assoc, e]; rfl
  · rw [e]; exact .inr rfl

theorem seqToBytes_ok {α : Type} (m : Build) (T : SszType α) (size : Option Nat) (hsz : T.size m = .ok size) (s : α → List UInt8) (vs : List α)
    (h : ∀ v ∈ vs, T.toBytes m v = .ok (s v)) (hlen : (assemble (vs.map fun v => ⟨size.isNone, s v⟩)).length < 2 ^ 32) :
    seqToBytes m T vs = .ok (assemble (vs.map fun v => ⟨size.isNone, s v⟩)) := by
  unfold seqToBytes
  rw [hsz, bind_ok, encodeAll_ok m T size.isNone s Item.new vs h, ← out_bind_assoc, takeParts_ok _ (by rw [← assemble_length]; exact hlen)]
  rfl

mutual
  /-- The encoder gives the serialization, or panics. -/
  theorem toBytes_or (m : Build) : (t : Ty) → t.Legal → t.Small → (v : t.Val) → OrPanic ((impl t).toBytes m v) (serialize t v)
    | .bool, _, _, v => by
      rw [serialize]
      cases v <;> exact .inl rfl
    | .uint w, _, _, v => by rw [serialize, le_eq]; exact .inl rfl
    | .vec n t, hl, hs, vs => by
      have := seqToBytes_or m (impl t) _ (size_ok m t hl.2 hs.2) (serialize t) vs.val (fun v _ => toBytes_or m t hl.2 hs.2 v)
      rw [sizeOf'_isNone] at this
      rw [serialize]
      exact this
    | .list t, hl, hs, vs => by
      have := seqToBytes_or m (impl t) _ (size_ok m t hl hs) (serialize t) vs (fun v _ => toBytes_or m t hl hs v)
      rw [sizeOf'_isNone] at this
      rw [serialize]
      exact this
    | .container fs, hl, hs, vs => by
      rw [serialize]
      show OrPanic (do
        let it ← (fields fs).encode m Item.new vs
        let (data, _) ← takeData it
        return data) _
      rcases encode_or m fs hl.2 hs.2 Item.new vs with e | e
      · rw [e, ← out_bind_assoc]
        exact (takeParts_or _).bind (.inl rfl)
      · rw [e]
        exact .inr rfl
  theorem encode_or (m : Build) : (fs : List Ty) → allLegal fs → allSmall fs → (it : Item) → (vs : Vals fs) →
      (fields fs).encode m it vs = addParts it (parts fs vs) ∨ (fields fs).encode m it vs = .panic
    | [], _, _, _, _ => .inl rfl
    | t :: fs, hl, hs, it, vs => by
      rw [fields, parts]
      show (do
        let it ← encodeElement m (impl t) it vs.1
        (fields fs).encode m it vs.2) = _ ∨ (do
        let it ← encodeElement m (impl t) it vs.1
        (fields fs).encode m it vs.2) = _
      unfold encodeElement
      rw [size_ok m t hl.1 hs.1, bind_ok, sizeOf'_isNone]
      rcases toBytes_or m t hl.1 hs.1 vs.1 with e | e
      · rw [e, bind_ok, addParts]
        unfold addPart
        dsimp only
        cases (if t.isVariable = true then encodeVariable it (serialize t vs.1) else encodeFixed it (serialize t vs.1)) with
        | ok it' => exact encode_or m fs hl.2 hs.2 it' vs.2
        | err _ => exact .inl rfl
        | panic => exact .inl rfl
        | hang => exact .inl rfl
      · rw [e]
        exact .inr rfl
end

mutual
  /-- The encoder gives the serialization if it is short enough. -/
  theorem toBytes_ok (m : Build) : (t : Ty) → t.Legal → t.Small → (v : t.Val) → (serialize t v).length < 2 ^ 32 →
      (impl t).toBytes m v = .ok (serialize t v)
    | .bool, _, _, v, _ => by
      rw [serialize]
      cases v <;> rfl
    | .uint w, _, _, v, _ => by rw [serialize, le_eq]; rfl
    | .vec n t, hl, hs, vs, hlen => by
      rw [serialize] at hlen ⊢
      have := seqToBytes_ok m (impl t) _ (size_ok m t hl.2 hs.2) (serialize t) vs.val
      rw [sizeOf'_isNone] at this
      refine this (fun v hv => toBytes_ok m t hl.2 hs.2 v ?_) hlen
      rw [assemble_length] at hlen
      exact Nat.lt_of_le_of_lt (part_le (p := ⟨t.isVariable, serialize t v⟩) (List.mem_map.mpr ⟨v, hv, rfl⟩)) hlen
    | .list t, hl, hs, vs, hlen => by
      rw [serialize] at hlen ⊢
      have := seqToBytes_ok m (impl t) _ (size_ok m t hl hs) (serialize t) vs
      rw [sizeOf'_isNone] at this
      refine this (fun v hv => toBytes_ok m t hl hs v ?_) hlen
      rw [assemble_length] at hlen
      exact Nat.lt_of_le_of_lt (part_le (p := ⟨t.isVariable, serialize t v⟩) (List.mem_map.mpr ⟨v, hv, rfl⟩)) hlen
    | .container fs, hl, hs, vs, hlen => by
      rw [serialize] at hlen ⊢
      show (do
        let it ← (fields fs).encode m Item.new vs
        let (data, _) ← takeData it
        return data) = _
      rw [assemble_length] at hlen
      rw [encode_ok m fs hl.2 hs.2 Item.new vs (fun p hp => Nat.lt_of_le_of_lt (part_le hp) hlen), ← out_bind_assoc, takeParts_ok _ hlen]
      rfl
  theorem encode_ok (m : Build) : (fs : List Ty) → allLegal fs → allSmall fs → (it : Item) → (vs : Vals fs) →
      (∀ p ∈ parts fs vs, p.bytes.length < 2 ^ 32) → (fields fs).encode m it vs = addParts it (parts fs vs)
    | [], _, _, _, _, _ => rfl
    | t :: fs, hl, hs, it, vs, hlen => by
      rw [parts] at hlen
      rw [fields, parts]
      show (do
        let it ← encodeElement m (impl t) it vs.1
        (fields fs).encode m it vs.2) = _
      unfold encodeElement
      rw [size_ok m t hl.1 hs.1, bind_ok, sizeOf'_isNone, toBytes_ok m t hl.1 hs.1 vs.1 (hlen _ List.mem_cons_self), bind_ok, addParts]
      unfold addPart
      dsimp only
      congr 1
      funext it'
      exact encode_ok m fs hl.2 hs.2 it' vs.2 fun p hp => hlen p (List.mem_cons_of_mem _ hp)
end

/-- What `encode` does, for all values. -/
theorem encode_eq (m : Build) (t : Ty) (hl : t.Legal) (hs : t.Small) (v : t.Val) :
    encode m (impl t) v = if (serialize t v).length < 2 ^ 32 then .ok (serialize t v) else .panic := by
  unfold encode encodeTo
  have hda : dassert m Item.new.isEmpty = (.ok () : Out Err Unit) := by cases m <;> rfl
  rw [hda, bind_ok]
  split
  · rename_i h
    rw [toBytes_ok m t hl hs v h, bind_ok]
    have := takeParts_ok [⟨false, serialize t v⟩] (by simp [Part.fix, Part.tail]; exact h)
    rw [addParts, addPart] at this
    simp only [Bool.false_eq_true, if_false] at this
    cases e : encodeFixed Item.new (serialize t v) with
    | ok it =>
      rw [e, bind_ok, addParts, bind_ok] at this
      rw [bind_ok, this]
      rw [assemble_eq]
      simp [fixedRec, tails, variableParts]
    | err _ => rw [e] at this; cases this
    | panic => rw [e] at this; cases this
    | hang => rw [e] at this; cases this
  · rename_i h
    rcases toBytes_or m t hl hs v with e | e
    · rw [e, bind_ok]
      unfold encodeFixed toU32
      rw [if_neg h]
      rfl
    · rw [e]; rfl

end LCT.Ssz
