import Verif.Lemmas.Programs
import Verif.Lemmas.RlpPanic
import Verif.Lemmas.VectorTests
import Verif.Props.Rlp
import Verif.Spec.RlpTests

/-!
# Lemmas about the tests with published RLP encodings
-/

namespace LCT.RlpTests
open LCT.Spec LCT.Out LCT.Rlp LCT.Codecs LCT.RandomTests LCT.VectorTests LCT.Props

theorem strip0x_cases (t : List UInt8) : (∃ u, t = 48 :: 120 :: u ∧ strip0x t = .ok u) ∨ (∀ u, t ≠ 48 :: 120 :: u) ∧ strip0x t = .panic := by
  unfold strip0x
  split
  · exact .inl ⟨_, rfl, rfl⟩
  · rename_i h
    exact .inr ⟨h, rfl⟩

/-- Reading a text with prefix. -/
theorem prefixed_cases (t : List UInt8) :
    (∃ bs, PrefixedHex t bs ∧ (strip0x t >>= fun u => unwrapped (hexToBytes u) : Out Unit _) = .ok bs) ∨
    (∀ bs, ¬ PrefixedHex t bs) ∧ (strip0x t >>= fun u => unwrapped (hexToBytes u) : Out Unit _) = .panic := by
  rcases strip0x_cases t with ⟨u, rfl, e⟩ | ⟨hne, e⟩
  · rw [e]
    show (∃ bs, _ ∧ unwrapped (hexToBytes u) = _) ∨ _ ∧ unwrapped (hexToBytes u) = _
    rcases BigInt.hexToBytes_returns u with ⟨bs, h⟩ | ⟨e', h⟩
    · exact .inl ⟨bs, ⟨u, rfl, (C17_decode_ok_iff u bs).mp h⟩, by rw [h]; rfl⟩
    · refine .inr ⟨?_, by rw [h]; rfl⟩
      rintro bs ⟨u', hu, h'⟩
      cases hu
      rw [(C17_decode_ok_iff u bs).mpr h'] at h
      cases h
  · rw [e]
    refine .inr ⟨?_, rfl⟩
    rintro bs ⟨u', hu, -⟩
    exact hne u' hu

theorem prefixed_unique {t bs bs' : List UInt8} (h : PrefixedHex t bs) (h' : PrefixedHex t bs') : bs = bs' := by
  obtain ⟨u, rfl, -, -, h1⟩ := h
  obtain ⟨u', e, -, -, h2⟩ := h'
  cases e
  exact hexOf_injective (h1.symm.trans h2)

mutual
theorem describes_unique : {v : Json} → {x y : Item} → Describes v x → Describes v y → x = y
  | .string t, .bytes bs, .bytes bs', .string _ _ h, .string _ _ h' => by rw [prefixed_unique h h']
  | .array vs, .list xs, .list ys, .array _ _ h, .array _ _ h' => by rw [describeAll_unique h h']
theorem describeAll_unique : {vs : List Json} → {xs ys : List Item} → DescribeAll vs xs → DescribeAll vs ys → xs = ys
  | [], [], [], _, _ => rfl
  | v :: vs, x :: xs, y :: ys, .cons _ _ _ _ h hs, .cons _ _ _ _ h' hs' => by rw [describes_unique h h', describeAll_unique hs hs']
end

mutual
theorem encodeJson_cases : (v : Json) → (e : EncItem) →
    (∃ x, Describes v x ∧ encodeJson v e = .ok (encTree x e)) ∨ (∀ x, ¬ Describes v x) ∧ encodeJson v e = .panic
  | .string t, e => by
    have hb : encodeJson (.string t) e = ((strip0x t >>= fun u => unwrapped (hexToBytes u)) >>= fun bytes => return e.encodeBytes bytes) := by
      rw [encodeJson]
      cases strip0x t <;> rfl
    rcases prefixed_cases t with ⟨bs, h, he⟩ | ⟨hno, he⟩
    · refine .inl ⟨.bytes bs, .string t bs h, ?_⟩
      rw [hb, he, encTree]
      rfl
    · refine .inr ⟨?_, by rw [hb, he]; rfl⟩
      rintro x (⟨_, bs, h⟩ | _)
      exact hno bs h
  | .array vs, e => by
    rw [encodeJson]
    rcases encodeJsons_cases vs EncItem.new with ⟨xs, h, he⟩ | ⟨hno, he⟩
    · refine .inl ⟨.list xs, .array vs xs h, ?_⟩
      rw [he, encTree]
      rfl
    · refine .inr ⟨?_, by rw [he]; rfl⟩
      rintro x (_ | ⟨_, xs, h⟩)
      exact hno xs h
  | .other, e => by
    refine .inr ⟨fun x h => ?_, by rw [encodeJson]⟩
    cases h
theorem encodeJsons_cases : (vs : List Json) → (e : EncItem) →
    (∃ xs, DescribeAll vs xs ∧ encodeJsons vs e = .ok (encTrees xs e)) ∨ (∀ xs, ¬ DescribeAll vs xs) ∧ encodeJsons vs e = .panic
  | [], e => .inl ⟨[], .nil, by rw [encodeJsons, encTrees]⟩
  | v :: vs, e => by
    rw [encodeJsons]
    rcases encodeJson_cases v e with ⟨x, h, he⟩ | ⟨hno, he⟩
    · rw [he]
      show (∃ xs, _ ∧ encodeJsons vs (encTree x e) = _) ∨ _ ∧ encodeJsons vs (encTree x e) = _
      rcases encodeJsons_cases vs (encTree x e) with ⟨xs, hs, he'⟩ | ⟨hno, he'⟩
      · exact .inl ⟨x :: xs, .cons v x vs xs h hs, by rw [he', encTrees]⟩
      · refine .inr ⟨?_, he'⟩
        intro ys h
        cases h with
        | cons _ _ _ xs _ hs => exact hno xs hs
    · rw [he]
      refine .inr ⟨?_, rfl⟩
      intro ys h
      cases h with
      | cons _ x _ _ h _ => exact hno x h
end

theorem jsonsFor_eq (xs : List Item) : jsonsFor xs = xs.map jsonFor := by
  induction xs with
  | nil => rfl
  | cons x xs ih => rw [jsonsFor, ih, List.map_cons]

theorem decodeJson_eq (m : Build) (fuel : Nat) (d : DecItem) : decodeJson m fuel d = (decTree m fuel d).bind fun x => .ok (jsonFor x) := by
  induction fuel generalizing d with
  | zero => rfl
  | succ fuel ih =>
    obtain ⟨t, p⟩ := d
    cases t with
    | SingleValue =>
      simp only [decodeJson, decTree, DecItem.decodeAsBytes, decVecU8, ne_eq, not_true_eq_false, if_false, Out.bind, jsonFor]
      show Out.ok (Json.string ([48, 120] ++ bytesToLowerHex p)) = _
      rw [bytesToLowerHex_eq]
      rfl
    | List =>
      have h1 : (dassert m (ItemType.List == ItemType.List) : Out RlpErr Unit) = .ok () := by cases m <;> rfl
      simp only [decodeJson, decTree, decVec, h1, Out.bind]
      cases h2 : DecItem.decodeAsItems m ⟨ItemType.List, p⟩ with
      | ok items =>
        show (decAll (decodeJson m fuel) items >>= fun values => return Json.array values) = _
        rw [Examples.decAll_map ih items]
        simp only []
        cases decAll (decTree m fuel) items with
        | ok xs =>
          show Out.ok (Json.array (xs.map jsonFor)) = Out.ok (jsonFor (.list xs))
          rw [jsonFor, jsonsFor_eq]
        | err e => rfl
        | panic => rfl
        | hang => rfl
      | err e => rfl
      | panic => rfl
      | hang => rfl

theorem decode_json (m : Build) (data : List UInt8) :
    decode m (decodeJson m (data.length + 1)) data = (decodeTree m data).bind fun x => .ok (jsonFor x) := by
  unfold decodeTree decode
  cases DecItem.newFromData m data with
  | ok d => exact decodeJson_eq m _ d
  | err e => rfl
  | panic => rfl
  | hang => rfl

mutual
theorem beq_jsonFor : (x : Item) → (v : Json) → ((jsonFor x).beq v = true ↔ v = jsonFor x)
  | .bytes bs, .string t => by rw [jsonFor, Json.beq, beq_iff_eq, Json.string.injEq]; exact eq_comm
  | .bytes bs, .array vs => by simp [jsonFor, Json.beq]
  | .bytes bs, .other => by simp [jsonFor, Json.beq]
  | .list xs, .string t => by simp [jsonFor, Json.beq]
  | .list xs, .array vs => by rw [jsonFor, Json.beq, beqs_jsonsFor xs vs, Json.array.injEq]
  | .list xs, .other => by simp [jsonFor, Json.beq]
theorem beqs_jsonsFor : (xs : List Item) → (vs : List Json) → (Json.beqs (jsonsFor xs) vs = true ↔ vs = jsonsFor xs)
  | [], [] => by simp [jsonsFor, Json.beqs]
  | [], v :: vs => by simp [jsonsFor, Json.beqs]
  | x :: xs, [] => by simp [jsonsFor, Json.beqs]
  | x :: xs, v :: vs => by rw [jsonsFor, Json.beqs, Bool.and_eq_true, beq_jsonFor x v, beqs_jsonsFor xs vs, List.cons.injEq]
end

theorem entries_decides {f : Entry → Out Unit Unit} {P : Entry → Prop} (vs : List Entry) (h : ∀ v ∈ vs, Decides (f v) (P v)) (count : Nat) :
    ((∀ v ∈ vs, P v) → entries f count vs = .ok (count + vs.length)) ∧ ((¬ ∀ v ∈ vs, P v) → entries f count vs = .panic) := by
  induction vs generalizing count with
  | nil => exact ⟨fun _ => rfl, fun h => absurd (fun v hv => absurd hv List.not_mem_nil) h⟩
  | cons v vs ih =>
    obtain ⟨i1, i2⟩ := ih (fun v hv => h v (List.mem_cons_of_mem _ hv)) (count + 1)
    obtain ⟨h1, h2⟩ := h v List.mem_cons_self
    rw [List.forall_mem_cons]
    by_cases hp : P v
    · obtain ⟨⟨⟩, e⟩ := h1 hp
      rw [entries, e]
      refine ⟨fun hs => ?_, fun hs => i2 fun hs' => hs ⟨hp, hs'⟩⟩
      show entries f (count + 1) vs = _
      rw [i1 hs.2, List.length_cons]
      congr 1
      omega
    · rw [entries, h2 hp]
      exact ⟨fun hs => absurd hs.1 hp, fun _ => rfl⟩

theorem run_decides {f : Entry → Out Unit Unit} {P : Entry → Prop} (vs : List Entry) (h : ∀ v ∈ vs, Decides (f v) (P v)) :
    Decides (do let count ← entries f 0 vs; rassert (decide (60 < count))) ((∀ v ∈ vs, P v) ∧ 60 < vs.length) := by
  obtain ⟨h1, h2⟩ := entries_decides vs h 0
  by_cases hp : ∀ v ∈ vs, P v
  · rw [h1 hp, Nat.zero_add]
    show Decides (rassert (decide (60 < vs.length))) _
    by_cases hl : 60 < vs.length
    · rw [decide_eq_true hl]
      exact ⟨fun _ => ⟨(), rfl⟩, fun h => absurd ⟨hp, hl⟩ h⟩
    · rw [decide_eq_false hl]
      exact ⟨fun h => absurd h.2 hl, fun _ => rfl⟩
  · rw [h2 hp]
    exact ⟨fun h => absurd h.1 hp, fun _ => rfl⟩

end LCT.RlpTests
