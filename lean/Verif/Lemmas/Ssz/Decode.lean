import Verif.Lemmas.Ssz.Encode
import Verif.Lemmas.Hash.Sponge

/-!
# SSZ decoding: round trip
-/

namespace LCT.Ssz
open LCT LCT.Out LCT.Spec.Ssz
open LCT.Hash.Sha2 (chunksExact chunksExact_eq)
open LCT.Hash.Sha3 (pieces_cons pieces_nil)

/-! ## Helpers -/

theorem slice_ok {bs : List UInt8} {a b : Nat} (h1 : a ≤ b) (h2 : b ≤ bs.length) : slice bs a b = .ok ((bs.drop a).take (b - a)) :=
  if_pos ⟨h1, h2⟩

theorem slice_mid (pre mid post : List UInt8) {a b : Nat} (ha : a = pre.length) (hb : b = pre.length + mid.length) :
    slice (pre ++ (mid ++ post)) a b = .ok mid := by
  subst ha hb
  rw [slice_ok (by omega) (by simp), List.drop_left, Nat.add_sub_cancel_left, List.take_left]

theorem chunks_ok {n : Nat} (h : 0 < n) (bs : List UInt8) : chunks n bs = .ok (chunksExact n bs) := if_neg (by omega)

theorem chunksExact_flatten {n : Nat} (hn : 0 < n) (l : List (List UInt8)) (h : ∀ b ∈ l, b.length = n) : chunksExact n l.flatten = l := by
  rw [chunksExact_eq]
  induction l with
  | nil => exact pieces_nil n
  | cons b l ih =>
    rw [List.flatten_cons, pieces_cons hn (h b List.mem_cons_self), ih fun c hc => h c (List.mem_cons_of_mem _ hc)]

theorem uint_decode (m : Build) (k : Nat) (x : BitVec (8 * k)) : (uintImpl k).tryFromBytes m (toLEk k x.toNat) = .ok x := by
  unfold uintImpl
  dsimp only
  rw [if_pos (toLEk_length k _), fromLE_eq, ofLE_toLEk, Nat.mod_eq_of_lt]
  · rw [BitVec.ofNat_toNat]
    simp
  · have := x.isLt
    rw [show (256 : Nat) ^ k = 2 ^ (8 * k) by rw [Nat.pow_mul]]
    exact this

theorem decodeU32_le (m : Build) {n : Nat} (h : n < 2 ^ 32) : decodeU32 m (le 4 n) = .ok n := by
  unfold decodeU32
  have := uint_decode m 4 (BitVec.ofNat 32 n)
  rw [BitVec.toNat_ofNat, Nat.mod_eq_of_lt h] at this
  rw [le_eq]
  show ((uintImpl 4).tryFromBytes m (toLEk 4 n) >>= fun x => pure x.toNat) = _
  rw [this, bind_ok]
  show (Out.ok (BitVec.toNat (BitVec.ofNat 32 n)) : Out Err Nat) = _
  rw [BitVec.toNat_ofNat, Nat.mod_eq_of_lt h]

/-! ## Elements of fixed size -/

theorem decodeEach_ok {α : Type} (m : Build) (T : SszType α) (s : α → List UInt8) (vs : List α)
    (h : ∀ v ∈ vs, T.tryFromBytes m (s v) = .ok v) : decodeEach m T (vs.map s) = .ok vs := by
  induction vs with
  | nil => rfl
  | cons v vs ih =>
    rw [List.map_cons]
    unfold decodeEach decode
    rw [h v List.mem_cons_self]
    simp only [bind_ok]
    rw [ih fun w hw => h w (List.mem_cons_of_mem _ hw)]
    rfl

theorem assemble_fixed {α : Type} (s : α → List UInt8) (vs : List α) : assemble (vs.map fun v => ⟨false, s v⟩) = (vs.map s).flatten := by
  rw [assemble_eq]
  generalize fixSum _ = F
  generalize 0 = o
  induction vs generalizing o with
  | nil => rfl
  | cons v vs ih =>
    simp only [List.map_cons, fixedRec, tails_cons, List.flatten_cons]
    have := ih (o + (Part.tail ⟨false, s v⟩).length)
    simp only [Bool.false_eq_true, if_false, Part.tail, List.nil_append, List.append_assoc] at this ⊢
    rw [this]

/-! ## Elements of variable size -/

/-- The offsets of objects that start at `o`, and the end. -/
def offs : Nat → List (List UInt8) → List Nat
  | o, [] => [o]
  | o, b :: bs => o :: offs (o + b.length) bs

/-- The offsets without the end. -/
def offs' : Nat → List (List UInt8) → List Nat
  | _, [] => []
  | o, b :: bs => o :: offs' (o + b.length) bs

theorem offs_eq (o : Nat) (bs : List (List UInt8)) : offs o bs = offs' o bs ++ [o + bs.flatten.length] := by
  induction bs generalizing o with
  | nil => simp [offs, offs']
  | cons b bs ih => rw [offs, ih, offs', List.flatten_cons, List.length_append, Nat.add_assoc]; rfl

theorem readOffsets_ok (m : Build) (len : Nat) (hlen : len < 2 ^ 32) (bs : List (List UInt8)) (previous o : Nat) (h1 : previous ≤ o)
    (h2 : o + bs.flatten.length ≤ len) : readOffsets m len previous ((offs' o bs).map (le 4)) = .ok (offs' o bs) := by
  induction bs generalizing previous o with
  | nil => rfl
  | cons b bs ih =>
    rw [List.flatten_cons, List.length_append] at h2
    rw [offs', List.map_cons, readOffsets, decodeU32_le m (by omega), bind_ok]
    have : (decide (o < previous) || decide (o > len)) = false := by simp; omega
    rw [this]
    simp only [Bool.false_eq_true, if_false]
    rw [ih o (o + b.length) (by omega) (by omega)]
    rfl

theorem dassert_true {ε : Type} (m : Build) {b : Bool} (h : b = true) : (dassert m b : Out ε Unit) = .ok () := by
  subst h; cases m <;> rfl

theorem decodeWindows_ok {α : Type} (m : Build) (T : SszType α) (s : α → List UInt8) (vs : List α)
    (h : ∀ v ∈ vs, T.tryFromBytes m (s v) = .ok v) (pre : List UInt8) :
    decodeWindows m T (pre ++ (vs.map s).flatten) (offs pre.length (vs.map s)) = .ok vs := by
  induction vs generalizing pre with
  | nil => rfl
  | cons v vs ih =>
    have ih := ih (fun w hw => h w (List.mem_cons_of_mem _ hw)) (pre ++ s v)
    rw [List.append_assoc, List.length_append] at ih
    rw [List.map_cons, offs, List.flatten_cons]
    have hex : ∃ os, offs (pre.length + (s v).length) (vs.map s) = (pre.length + (s v).length) :: os := by
      cases vs <;> exact ⟨_, rfl⟩
    obtain ⟨os, hos⟩ := hex
    rw [hos] at ih ⊢
    rw [decodeWindows, dassert_true m (by simp), bind_ok, slice_mid _ _ _ rfl rfl, bind_ok]
    unfold decode
    rw [h v List.mem_cons_self, bind_ok, ih]
    rfl

theorem offs'_isEmpty (o : Nat) (bs : List (List UInt8)) : (offs' o bs).isEmpty = bs.isEmpty := by cases bs <;> rfl

theorem fixedRec_var {α : Type} (F : Nat) (s : α → List UInt8) (vs : List α) (o : Nat) :
    fixedRec F o (vs.map fun v => ⟨true, s v⟩) = ((offs' (F + o) (vs.map s)).map (le 4)).flatten := by
  induction vs generalizing o with
  | nil => rfl
  | cons v vs ih =>
    rw [List.map_cons, fixedRec, ih, List.map_cons, offs', List.map_cons, List.flatten_cons]
    simp only [Part.tail, if_true, Nat.add_assoc]

theorem tails_var {α : Type} (s : α → List UInt8) (vs : List α) : tails (vs.map fun v => ⟨true, s v⟩) = (vs.map s).flatten := by
  induction vs with
  | nil => rfl
  | cons v vs ih => rw [List.map_cons, tails_cons, ih]; rfl

theorem variableAsserts_ok {α : Type} (m : Build) (T : SszType α) (hsz : T.size m = .ok none) {n : Nat} (h : n * 4 < 2 ^ 32) :
    variableAsserts m T n (n * 4) = .ok () := by
  cases m with
  | release => rfl
  | debug =>
    unfold variableAsserts
    rw [hsz, bind_ok, checkedMul_ok h]
    simp

theorem decodeVariable_ok {α : Type} (m : Build) (T : SszType α) (hsz : T.size m = .ok none) (s : α → List UInt8) (vs : List α)
    (h : ∀ v ∈ vs, T.tryFromBytes m (s v) = .ok v) (hlen : (assemble (vs.map fun v => ⟨true, s v⟩)).length < 2 ^ 32) :
    decodeVariable m T (assemble (vs.map fun v => ⟨true, s v⟩)) vs.length (vs.length * 4) = .ok vs := by
  have hF := fixSum_var s vs
  have hL : (assemble (vs.map fun v => ⟨true, s v⟩)).length = vs.length * 4 + (vs.map s).flatten.length := by
    rw [assemble_length, hF, ← tails_length, tails_var]
  obtain ⟨hd, hhd⟩ : ∃ hd, hd = ((offs' (vs.length * 4) (vs.map s)).map (le 4)).flatten := ⟨_, rfl⟩
  have hA : assemble (vs.map fun v => ⟨true, s v⟩) = hd ++ (vs.map s).flatten := by
    rw [assemble_eq, fixedRec_var, tails_var, hF, hhd]
    rfl
  have hhl : hd.length = vs.length * 4 := by
    have : (assemble (vs.map fun v => ⟨true, s v⟩)).length = hd.length + (vs.map s).flatten.length := by rw [hA, List.length_append]
    omega
  unfold decodeVariable
  rw [variableAsserts_ok m T hsz (by omega), bind_ok, if_neg (by omega), if_neg (by omega), addU32_ok m (by omega), bind_ok]
  rw [hL, hA]
  have hs : slice (hd ++ (vs.map s).flatten) 0 (vs.length * 4) = .ok hd := slice_mid [] hd _ rfl (by simp [hhl])
  rw [hs, bind_ok, chunks_ok (by decide), bind_ok, hhd, chunksExact_flatten (by decide) _ (by simp), readOffsets_ok m _ (by omega) _ _ _ (by omega) (Nat.le_refl _),
    bind_ok]
  dsimp only
  rw [← hhd]
  cases vs with
  | nil => rfl
  | cons v vs =>
    rw [offs'_isEmpty]
    simp only [List.map_cons, List.isEmpty_cons, Bool.false_eq_true, if_false]
    rw [← List.map_cons, ← offs_eq, ← hhl]
    exact decodeWindows_ok m T s (v :: vs) h hd

theorem toArray_ok {α : Type} {n : Nat} (vs : { vs : List α // vs.length = n }) : toArray n vs.val = .ok vs := dif_pos vs.2

/-! ## Containers -/

/-- The size of a part as the code has it. -/
def Part.size (p : Part) : Option Nat := if p.isVar then none else some p.bytes.length

theorem Part.size_var {p : Part} (h : p.isVar = true) : Part.size p = none := if_pos h
theorem Part.size_fixed {p : Part} (h : p.isVar = false) : Part.size p = some p.bytes.length := if_neg (by simp [h])

theorem headersLength_ok (m : Build) (ps : List Part) (len : Nat) (h : len + fixSum ps < 2 ^ 32) :
    headersLength m len (ps.map Part.size) = .ok (len + fixSum ps) := by
  induction ps generalizing len with
  | nil => rfl
  | cons p ps ih =>
    rw [fixSum_cons] at h ⊢
    rw [List.map_cons]
    unfold Part.fix at *
    cases hp : p.isVar with
    | true =>
      rw [hp] at h
      simp only [if_true] at h ⊢
      rw [Part.size_var hp, headersLength, addU32_ok m (by omega), bind_ok, ih _ (by omega), Nat.add_assoc]
    | false =>
      rw [hp] at h
      simp only [Bool.false_eq_true, if_false] at h ⊢
      rw [Part.size_fixed hp, headersLength, addU32_ok m (by omega), bind_ok, ih _ (by omega), Nat.add_assoc]

theorem itemsLoop_ok (m : Build) (suf pre : List Part) (items : List (List UInt8)) (hlen : fixSum (pre ++ suf) + varSum (pre ++ suf) < 2 ^ 32) :
    itemsLoop m (assemble (pre ++ suf)) (pre.map Part.size).reverse (fixSum (pre ++ suf) + varSum pre) (fixSum pre) items =
      .ok (pre.map Part.bytes ++ items) := by
  induction pre using List.reverseRecOn generalizing suf items with
  | nil => rfl
  | append_singleton pre p ih =>
    have ih := ih (p :: suf) (p.bytes :: items)
    simp only [List.append_assoc, List.singleton_append] at hlen ih ⊢
    obtain ⟨F, hF⟩ : ∃ F, F = fixSum (pre ++ p :: suf) := ⟨_, rfl⟩
    rw [← hF] at ih hlen ⊢
    rw [varSum_append, varSum_cons] at hlen
    rw [List.map_append, List.reverse_append, varSum_append, fixSum_append, fixSum_cons, varSum_cons]
    simp only [List.map_cons, List.map_nil, List.reverse_singleton, List.singleton_append, fixSum_nil, varSum_nil, Nat.add_zero]
    have hle : fixSum pre + Part.fix p ≤ F := by rw [hF, fixSum_append, fixSum_cons]; omega
    have hA : assemble (pre ++ p :: suf) = fixedRec F 0 pre ++ ((if p.isVar then le 4 (F + varSum pre) else p.bytes) ++
        (fixedRec F (varSum pre + (Part.tail p).length) suf ++ tails (pre ++ p :: suf))) := by
      rw [assemble_eq, ← hF, fixedRec_append, fixedRec, Nat.zero_add]
      simp only [List.append_assoc]
    have hB : assemble (pre ++ p :: suf) = (fixedRec F 0 (pre ++ p :: suf) ++ tails pre) ++ (Part.tail p ++ tails suf) := by
      rw [assemble_eq, ← hF, tails_append, tails_cons, List.append_assoc]
    have hBl : (fixedRec F 0 (pre ++ p :: suf) ++ tails pre).length = F + varSum pre := by
      rw [List.length_append, fixedRec_length, tails_length, ← hF]
    have hV : varSum (pre ++ p :: suf) = varSum pre + ((Part.tail p).length + varSum suf) := by rw [varSum_append, varSum_cons]
    rw [hV] at ih
    cases hp : p.isVar with
    | true =>
      rw [Part.size_var hp]
      have hfix : Part.fix p = 4 := by unfold Part.fix; rw [hp]; rfl
      have htail : Part.tail p = p.bytes := by unfold Part.tail; rw [hp]; rfl
      rw [hfix] at hle
      rw [hfix, htail]
      rw [htail] at hlen ih
      rw [itemsLoop, subU32_ok m (by omega), bind_ok, Nat.add_sub_cancel]
      have h1 : slice (assemble (pre ++ p :: suf)) (fixSum pre) (fixSum pre + 4) = .ok (le 4 (F + varSum pre)) := by
        rw [hA, hp]
        exact slice_mid _ _ _ (by rw [fixedRec_length]) (by rw [fixedRec_length]; simp)
      rw [h1, bind_ok, decodeU32_le m (by omega), bind_ok, if_neg (by omega)]
      have h2 : slice (assemble (pre ++ p :: suf)) (F + varSum pre) (F + (varSum pre + p.bytes.length)) = .ok p.bytes := by
        rw [hB, htail]
        exact slice_mid _ _ _ (by rw [hBl]) (by rw [hBl]; omega)
      rw [h2, bind_ok, bind_ok, ih (by omega), List.map_append]
      simp
    | false =>
      rw [Part.size_fixed hp]
      have hfix : Part.fix p = p.bytes.length := by unfold Part.fix; rw [hp]; rfl
      have htail : Part.tail p = [] := by unfold Part.tail; rw [hp]; rfl
      rw [hfix] at hle
      rw [hfix, htail]
      simp only [Bool.false_eq_true, if_false, List.length_nil, Nat.add_zero]
      rw [itemsLoop, if_neg (by omega), Nat.add_sub_cancel]
      have h1 : slice (assemble (pre ++ p :: suf)) (fixSum pre) (fixSum pre + p.bytes.length) = .ok p.bytes := by
        rw [hA, hp]
        exact slice_mid _ _ _ (by rw [fixedRec_length]) (by rw [fixedRec_length]; simp)
      rw [h1, bind_ok, ih (by omega), List.map_append]
      simp

theorem decodeAsItems_ok (m : Build) (ps : List Part) (hlen : (assemble ps).length < 2 ^ 32) :
    decodeAsItems m (assemble ps) (ps.map Part.size) = .ok (ps.map Part.bytes) := by
  have hL := assemble_length ps
  unfold decodeAsItems
  rw [headersLength_ok m ps 0 (by omega), bind_ok, if_neg (by omega), if_neg (by omega)]
  have := itemsLoop_ok m [] ps [] (by simp; omega)
  simpa [hL] using this

theorem parts_size : (fs : List Ty) → (vs : Vals fs) → (parts fs vs).map Part.size = fs.map sizeOf'
  | [], _ => rfl
  | t :: fs, vs => by
    rw [parts, List.map_cons, List.map_cons, parts_size fs vs.2]
    congr 1
    unfold Part.size sizeOf'
    cases hv : t.isVariable with
    | true => rfl
    | false => simp [serialize_length t hv]

/-! ## Round trip -/

theorem serialize_part_lt {t : Ty} {isVar : Bool} {vs : List t.Val} {v : t.Val} (hv : v ∈ vs)
    (hlen : (assemble (vs.map fun v => ⟨isVar, serialize t v⟩)).length < 2 ^ 32) : (serialize t v).length < 2 ^ 32 := by
  rw [assemble_length] at hlen
  exact Nat.lt_of_le_of_lt (part_le (p := ⟨isVar, serialize t v⟩) (List.mem_map.mpr ⟨v, hv, rfl⟩)) hlen

theorem flatten_length {α : Type} (s : α → List UInt8) (k : Nat) (vs : List α) (h : ∀ v, (s v).length = k) : (vs.map s).flatten.length = vs.length * k := by
  induction vs with
  | nil => simp
  | cons v vs ih => rw [List.map_cons, List.flatten_cons, List.length_append, ih, h, List.length_cons, Nat.succ_mul, Nat.add_comm]

theorem list_ok (m : Build) (t : Ty) (hl : t.Legal) (hs : t.Small) (vs : List t.Val) (hne : t.isVariable = true → vs ≠ [])
    (hdec : ∀ v ∈ vs, (impl t).tryFromBytes m (serialize t v) = .ok v)
    (hlen : (assemble (vs.map fun v => ⟨t.isVariable, serialize t v⟩)).length < 2 ^ 32) :
    (impl (.list t)).tryFromBytes m (assemble (vs.map fun v => ⟨t.isVariable, serialize t v⟩)) = .ok vs := by
  have hsize := size_ok m t hl hs
  rw [impl]
  unfold listImpl
  dsimp only
  rw [hsize, bind_ok]
  cases hv : t.isVariable with
  | true =>
    rw [hv] at hlen
    have hne1 := hne hv
    have e := decodeVariable_ok m (impl t) (by rw [hsize]; unfold sizeOf'; rw [hv]; rfl) (serialize t) vs hdec hlen
    unfold sizeOf'
    rw [hv]
    simp only [if_true]
    have hL := assemble_length (vs.map fun v => (⟨true, serialize t v⟩ : Part))
    have hF := fixSum_var (serialize t) vs
    have hpos : 0 < vs.length := List.length_pos_of_ne_nil hne1
    have hA : ∃ rest, assemble (vs.map fun v => ⟨true, serialize t v⟩) = le 4 (vs.length * 4) ++ rest := by
      rw [assemble_eq, hF]
      cases vs with
      | nil => exact absurd rfl hne1
      | cons v0 vs0 =>
        rw [List.map_cons, fixedRec]
        exact ⟨_, by simp only [if_true, Nat.add_zero, List.append_assoc]; rfl⟩
    obtain ⟨rest, hA⟩ := hA
    have h4 : slice (assemble (vs.map fun v => ⟨true, serialize t v⟩)) 0 4 = .ok (le 4 (vs.length * 4)) := by
      rw [hA]
      exact slice_mid [] (le 4 (vs.length * 4)) rest rfl (by simp)
    rw [h4, bind_ok, decodeU32_le m (by omega), bind_ok]
    have hc : (decide (vs.length * 4 < 4) || vs.length * 4 % 4 != 0) = false := by
      simp
      omega
    rw [hc]
    simp only [Bool.false_eq_true, if_false]
    rw [Nat.mul_div_cancel _ (by decide)]
    exact e
  | false =>
    rw [hv] at hlen
    have hp := head_pos t hl hv
    have hlen2 : (vs.map (serialize t)).flatten.length = vs.length * t.head :=
      flatten_length _ t.head _ (fun v => serialize_length t hv v)
    unfold sizeOf'
    rw [hv]
    simp only [Bool.false_eq_true, if_false]
    rw [if_neg (by omega), bind_ok, assemble_fixed, hlen2, Nat.mul_mod_left, if_neg (by simp), chunks_ok hp, bind_ok, chunksExact_flatten hp _ (by
      intro b hb
      obtain ⟨v, _, rfl⟩ := List.mem_map.mp hb
      exact serialize_length t hv v)]
    exact decodeEach_ok m (impl t) (serialize t) vs hdec

mutual
  theorem decode_ok (m : Build) : (t : Ty) → t.Legal → t.Small → (v : t.Val) → NoEmpty t v → (serialize t v).length < 2 ^ 32 →
      (impl t).tryFromBytes m (serialize t v) = .ok v
    | .bool, _, _, v, _, _ => by
      rw [serialize]
      cases v <;> rfl
    | .uint w, _, _, v, _, _ => by
      rw [serialize, le_eq]
      exact uint_decode m w.bytes v
    | .vec n t, hl, hs, vs, hne, hlen => by
      rw [serialize] at hlen ⊢
      have hsize := size_ok m t hl.2 hs.2
      have hdec : ∀ v ∈ vs.val, (impl t).tryFromBytes m (serialize t v) = .ok v := fun v hv =>
        decode_ok m t hl.2 hs.2 v (hne v hv) (serialize_part_lt hv hlen)
      rw [impl]
      unfold arrayImpl
      dsimp only
      rw [hsize, bind_ok]
      have hsm := hs.1
      cases hv : t.isVariable with
      | true =>
        rw [hv] at hlen hsm
        simp only [if_true] at hsm
        have e := decodeVariable_ok m (impl t) (by rw [hsize]; unfold sizeOf'; rw [hv]; rfl) (serialize t) vs.val hdec hlen
        unfold sizeOf'
        rw [hv]
        simp only [if_true]
        rw [toU32_ok (by omega), bind_ok, checkedMul_ok hsm, bind_ok]
        rw [vs.2] at e
        rw [e, bind_ok]
        exact toArray_ok vs
      | false =>
        rw [hv] at hlen hsm
        simp only [Bool.false_eq_true, if_false] at hsm
        have hp := head_pos t hl.2 hv
        have hlen2 : (vs.val.map (serialize t)).flatten.length = n * t.head := by
          rw [flatten_length _ t.head _ (fun v => serialize_length t hv v), vs.2]
        unfold sizeOf'
        rw [hv]
        simp only [Bool.false_eq_true, if_false]
        rw [toU32_ok (Nat.lt_of_le_of_lt (Nat.le_mul_of_pos_right n hp) hsm), bind_ok, checkedMul_ok (by rw [Nat.mul_comm]; exact hsm), bind_ok]
        rw [assemble_fixed, if_neg (by rw [hlen2, Nat.mul_comm]; simp), chunks_ok hp, bind_ok, chunksExact_flatten hp _ (by
          intro b hb
          obtain ⟨v, _, rfl⟩ := List.mem_map.mp hb
          exact serialize_length t hv v), decodeEach_ok m (impl t) (serialize t) vs.val hdec, bind_ok]
        exact toArray_ok vs
    | .list t, hl, hs, vs, hne, hlen => by
      rw [serialize] at hlen ⊢
      exact list_ok m t hl hs vs hne.1 (fun v hv => decode_ok m t hl hs v (hne.2 v hv) (serialize_part_lt hv hlen)) hlen
    | .container fs, hl, hs, vs, hne, hlen => by
      rw [serialize] at hlen ⊢
      show (do
        let sizes ← (fields fs).sizes m
        let items ← decodeAsItems m (assemble (parts fs vs)) sizes
        (fields fs).decode m items) = _
      rw [sizes_ok m fs hl.2 hs.2, bind_ok, ← parts_size fs vs, decodeAsItems_ok m _ hlen, bind_ok]
      rw [assemble_length] at hlen
      exact decodeFields_ok m fs hl.2 hs.2 vs hne (fun p hp => Nat.lt_of_le_of_lt (part_le hp) hlen)
  theorem decodeFields_ok (m : Build) : (fs : List Ty) → allLegal fs → allSmall fs → (vs : Vals fs) → NoEmptys fs vs →
      (∀ p ∈ parts fs vs, p.bytes.length < 2 ^ 32) → (fields fs).decode m ((parts fs vs).map Part.bytes) = .ok vs
    | [], _, _, _, _, _ => rfl
    | t :: fs, hl, hs, vs, hne, hlen => by
      rw [parts] at hlen ⊢
      rw [fields, List.map_cons]
      show (do
        let a ← LCT.Ssz.decode m (impl t) (serialize t vs.1)
        let b ← (fields fs).decode m ((parts fs vs.2).map Part.bytes)
        return (a, b)) = _
      unfold LCT.Ssz.decode
      rw [decode_ok m t hl.1 hs.1 vs.1 hne.1 (hlen _ List.mem_cons_self), bind_ok,
        decodeFields_ok m fs hl.2 hs.2 vs.2 hne.2 (fun p hp => hlen p (List.mem_cons_of_mem _ hp))]
      rfl
end

end LCT.Ssz
