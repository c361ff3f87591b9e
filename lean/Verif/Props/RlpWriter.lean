import Verif.Spec.RlpWriter
import Verif.Lemmas.RlpTypes

/-!
# C102: writing RLP data by hand

`2 ^ 64` bounds the length of anything that can exist in the memory of a 64-bit machine.
-/

namespace LCT.Props
open LCT.Rlp LCT.Spec

private theorem treesBytes_snoc (xs : List Item) (x : Item) : treesBytes (xs ++ [x]) = treesBytes xs ++ treeBytes x := by
  induction xs with
  | nil => simp [treesBytes]
  | cons y xs ih => rw [List.cons_append, treesBytes, treesBytes, ih, List.append_assoc]

private theorem set_inv {s : Nat → EncItem} {a : Nat → List Item} (h : ∀ k, s k = ⟨treesBytes (a k)⟩) (i : Nat) {e : EncItem} {xs : List Item}
    (he : e = ⟨treesBytes xs⟩) : ∀ k, setItem s i e k = ⟨treesBytes (if k = i then xs else a k)⟩ := by
  intro k
  unfold setItem
  split
  · exact he
  · exact h k

private theorem run_eq (ops : List WriteOp) : ∀ (s : Nat → EncItem) (a : Nat → List Item), (∀ k, s k = ⟨treesBytes (a k)⟩) →
    runWrites s ops = (takenItems a ops).map treesBytes := by
  induction ops with
  | nil => intro s a _; rfl
  | cons op ops ih =>
    intro s a h
    cases op with
    | make i => exact ih _ _ (set_inv h i (xs := []) rfl)
    | bytes i b =>
      exact ih _ _ (set_inv h i (by
        rw [treesBytes_snoc, h i]; simp [EncItem.encodeBytes, EncItem.extend, encodeSingleValue, treeBytes]))
    | u64 i n =>
      exact ih _ _ (set_inv h i (by
        rw [treesBytes_snoc, h i, LCT.Ethereum.encU64_eq]; rfl))
    | big i n =>
      exact ih _ _ (set_inv h i (by
        rw [treesBytes_snoc, h i, encBigUint_eq]; rfl))
    | text i t =>
      exact ih _ _ (set_inv h i (by
        rw [treesBytes_snoc, h i]; simp [encStr, EncItem.extend, encodeSingleValue, treeBytes]))
    | list i j =>
      exact ih _ _ (set_inv h i (by
        rw [treesBytes_snoc, h i, h j]; simp [EncItem.encodeListPayload, EncItem.extend, encodeItem, treeBytes]))
    | take i =>
      have h1 := ih _ _ (set_inv h i (e := (s i).takeData.2) (xs := []) rfl)
      simp only [runWrites, takenItems, List.map_cons]
      rw [h1]
      congr 1
      rw [h i]; rfl

/-- C102: whatever calls are made on any number of encoding items, in any order, each `take_data` returns the concatenated encodings, by the
Yellow Paper, of the items written into this encoding item since it was made or last emptied; writing one encoding item into another adds one
list and leaves the former as it is. -/
theorem C102_writes (ops : List WriteOp) (hfit : ∀ xs ∈ takenItems (fun _ => []) ops, (rlpSeq xs).length < 2 ^ 64) :
    runWrites (fun _ => EncItem.new) ops = (takenItems (fun _ => []) ops).map rlpSeq := by
  rw [run_eq ops (fun _ => EncItem.new) (fun _ => []) (fun _ => by rw [treesBytes]; rfl)]
  exact List.map_congr_left fun xs hx => rlp_treesBytes xs (hfit xs hx)

/-- C102: the data taken can be read back: if one list was written, the decoder of nested items returns it, in both builds. -/
theorem C102_reads_back (m : Build) (ops : List WriteOp) (x : Item) (hlen : (rlp x).length < 2 ^ 64)
    (h : takenItems (fun _ => []) ops = [[x]]) :
    ∃ data, runWrites (fun _ => EncItem.new) ops = [data] ∧ decodeTree m data = .ok x := by
  have hs : rlpSeq [x] = rlp x := by simp [rlpSeq]
  refine ⟨rlp x, ?_, ?_⟩
  · rw [C102_writes ops (by rw [h]; simpa [hs] using hlen), h]; simp [hs]
  · have := rlp_treeBytes x hlen
    rw [← this] at hlen ⊢
    exact decodeTree_treeBytes m x hlen

/-- The list of the byte string `5` meets the hypotheses. -/
example : (∀ xs ∈ takenItems (fun _ => []) [.make 0, .bytes 0 [5], .list 1 0, .take 1], (rlpSeq xs).length < 2 ^ 64) ∧
    takenItems (fun _ => []) [.make 0, .bytes 0 [5], .list 1 0, .take 1] = [[.list [.bytes [5]]]] := by
  have h : takenItems (fun _ => []) [.make 0, .bytes 0 [5], .list 1 0, .take 1] = [[.list [.bytes [5]]]] := by simp [takenItems]
  rw [h]
  exact ⟨by simp; decide +kernel, rfl⟩

/-- `["cat", [], 1024]`, and the second item used again after it was written into the first and after its data were taken. -/
example : runWrites (fun _ => EncItem.new) [.make 0, .make 1, .text 1 "cat", .list 1 0, .u64 1 1024, .list 0 1, .take 0, .take 1, .big 1 5, .take 1] =
    [[0xc8, 0x83, 99, 97, 116, 0xc0, 0x82, 4, 0], [0x83, 99, 97, 116, 0xc0, 0x82, 4, 0], [5]] := by decide +kernel

end LCT.Props
