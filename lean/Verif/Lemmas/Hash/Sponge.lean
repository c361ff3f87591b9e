import Verif.Lemmas.Hash.Keccak

/-!
# The sponge, on bytes and on bits
-/

namespace LCT.Hash.Sha3
open LCT LCT.Out LCT.Spec LCT.Spec.Sha3
open LCT.Spec.Sha2 (pieces)
open LCT.Hash.Sha2 (chunksExact remainder chunksExact_eq pieces_append pieces_length pieces_each)
variable {ε : Type}

/-! ## Bits of byte strings -/

theorem bitsLSB_nil : bitsLSB [] = [] := rfl

theorem bitsLSB_append (as bs : List UInt8) : bitsLSB (as ++ bs) = bitsLSB as ++ bitsLSB bs := List.flatMap_append

theorem bitsLSB_cons (b : UInt8) (bs : List UInt8) :
    bitsLSB (b :: bs) = ((List.range 8).map fun i => b.toNat.testBit i) ++ bitsLSB bs := List.flatMap_cons

theorem bitsLSB_length (bs : List UInt8) : (bitsLSB bs).length = 8 * bs.length := by
  induction bs with
  | nil => rfl
  | cons b bs ih => rw [bitsLSB_cons, List.length_append, ih, List.length_map, List.length_range, List.length_cons]; omega

theorem bitsLSB_zeros (z : Nat) : bitsLSB (List.replicate z 0) = List.replicate (8 * z) false := by
  induction z with
  | zero => rfl
  | succ z ih =>
    rw [List.replicate_succ', bitsLSB_append, ih, Nat.mul_succ, ← List.replicate_append_replicate]
    rfl

theorem bitsLSB_toLEk (k n : Nat) : bitsLSB (toLEk k n) = (List.range (8 * k)).map fun i => n.testBit i := by
  induction k generalizing n with
  | zero => rfl
  | succ k ih =>
    rw [toLEk, bitsLSB_cons, ih, show 8 * (k + 1) = 8 + 8 * k by omega, List.range_add, List.map_append, List.map_map]
    congr 1
    · apply List.map_congr_left
      intro i hi
      rw [List.mem_range] at hi
      rw [UInt8.toNat_ofNat', Nat.testBit_mod_two_pow, decide_eq_true hi, Bool.true_and]
    · apply List.map_congr_left
      intro i _
      rw [Function.comp_apply, show (256 : Nat) = 2 ^ 8 by rfl, Nat.testBit_div_two_pow, Nat.add_comm]

theorem bitsLSB_word (w : BitVec 64) : bitsLSB (toLEk 8 w.toNat) = laneBits w := by
  rw [bitsLSB_toLEk]
  unfold laneBits
  apply List.ext_getElem
  · simp
  · intro i h1 h2
    simp [BitVec.getLsbD]

theorem bitsLSB_toBytes (s : KState) : bitsLSB (toBytes s) = stateBits s := by
  unfold toBytes stateBits
  induction s.toList with
  | nil => rfl
  | cons w l ih => rw [List.flatMap_cons, bitsLSB_append, ih, List.flatMap_cons, bitsLSB_word]

theorem toBytes_length (s : KState) : (toBytes s).length = 200 := by
  unfold toBytes
  have : ∀ l : List (BitVec 64), (l.flatMap fun x => toLEk 8 x.toNat).length = 8 * l.length := by
    intro l
    induction l with
    | nil => rfl
    | cons w l ih => rw [List.flatMap_cons, List.length_append, ih, toLEk_length, List.length_cons]; omega
  rw [this, Vector.length_toList]

theorem byte_bits (b : UInt8) :
    UInt8.ofNat (((List.range 8).map fun i => b.toNat.testBit i).foldr (fun x acc => x.toNat + 2 * acc) 0) = b := by
  have h : ∀ n < 256, ((List.range 8).map fun i => n.testBit i).foldr (fun x acc => x.toNat + 2 * acc) 0 = n := by decide +kernel
  rw [h _ b.toNat_lt, UInt8.ofNat_toNat]

theorem flatten_pieces {α : Type} (n q : Nat) (l : List α) (h : l.length = q * n) : (pieces n l).flatten = l := by
  rcases Nat.eq_zero_or_pos n with rfl | hn
  · have : l = [] := List.eq_nil_of_length_eq_zero (by simpa using h)
    subst this
    simp [pieces]
  · rw [← chunksExact_eq]
    unfold chunksExact
    rw [h, Nat.mul_div_cancel _ hn]
    induction q generalizing l with
    | zero =>
      have : l = [] := List.eq_nil_of_length_eq_zero (by simpa using h)
      subst this
      rfl
    | succ q ih =>
      rw [chunksExact.go, List.flatten_cons, ih _ (by rw [List.length_drop, h, Nat.succ_mul]; omega), List.take_append_drop]

theorem pieces_nil {α : Type} (n : Nat) : pieces n ([] : List α) = [] := by
  unfold pieces; simp

theorem pieces_one {α : Type} {n : Nat} (hn : 0 < n) {l : List α} (h : l.length = n) : pieces n l = [l] := by
  unfold pieces
  rw [h, Nat.div_self hn]
  simp [← h]

theorem remainder_full {α : Type} (n : Nat) {l : List α} (h : l.length = n) : remainder n l = [] := by
  unfold remainder
  subst h
  rcases Nat.eq_zero_or_pos l.length with h0 | h0
  · rw [List.eq_nil_of_length_eq_zero h0]; rfl
  · rw [Nat.div_self h0, Nat.one_mul, List.drop_length]

theorem pieces_cons {α : Type} {n : Nat} (hn : 0 < n) {b : List α} (h : b.length = n) (t : List α) : pieces n (b ++ t) = b :: pieces n t := by
  rw [pieces_append hn, pieces_one hn h, remainder_full n h]
  rfl

theorem bytesLSB_bits (bs : List UInt8) : bytesLSB (bitsLSB bs) = bs := by
  unfold bytesLSB
  induction bs with
  | nil => rfl
  | cons b bs ih =>
    rw [bitsLSB_cons, pieces_cons (by decide) (by simp), List.map_cons, ih, byte_bits]

theorem bitsLSB_take (bs : List UInt8) (k : Nat) : (bitsLSB bs).take (8 * k) = bitsLSB (bs.take k) := by
  induction bs generalizing k with
  | nil => simp [bitsLSB]
  | cons b bs ih =>
    cases k with
    | zero => rfl
    | succ k =>
      rw [List.take_succ_cons, bitsLSB_cons, bitsLSB_cons, ← ih, List.take_append, List.length_map, List.length_range,
        show 8 * (k + 1) - 8 = 8 * k by omega, List.take_of_length_le (by simp)]

theorem bitsLSB_drop (bs : List UInt8) (k : Nat) : (bitsLSB bs).drop (8 * k) = bitsLSB (bs.drop k) := by
  induction bs generalizing k with
  | nil => simp [bitsLSB]
  | cons b bs ih =>
    cases k with
    | zero => rfl
    | succ k =>
      rw [List.drop_succ_cons, bitsLSB_cons, ← ih, List.drop_append, List.length_map, List.length_range,
        show 8 * (k + 1) - 8 = 8 * k by omega, List.drop_of_length_le (by simp), List.nil_append]

theorem bitsLSB_pieces (n : Nat) (bs : List UInt8) : pieces (8 * n) (bitsLSB bs) = (pieces n bs).map bitsLSB := by
  unfold pieces
  rw [bitsLSB_length, Nat.mul_div_mul_left _ _ (by decide), List.map_map]
  apply List.map_congr_left
  intro i _
  rw [Function.comp_apply, show i * (8 * n) = 8 * (i * n) by rw [← Nat.mul_assoc, Nat.mul_comm i 8, Nat.mul_assoc], bitsLSB_drop, bitsLSB_take]

theorem bitsLSB_remainder (n : Nat) (bs : List UInt8) : remainder (8 * n) (bitsLSB bs) = bitsLSB (remainder n bs) := by
  unfold remainder
  rw [bitsLSB_length, Nat.mul_div_mul_left _ _ (by decide),
    show bs.length / n * (8 * n) = 8 * (bs.length / n * n) by rw [← Nat.mul_assoc, Nat.mul_comm _ 8, Nat.mul_assoc], bitsLSB_drop]

theorem byte_xor_bits (a b : UInt8) : ((List.range 8).map fun i => (a ^^^ b).toNat.testBit i) =
    List.zipWith xor ((List.range 8).map fun i => a.toNat.testBit i) ((List.range 8).map fun i => b.toNat.testBit i) := by
  rw [List.zipWith_map, List.zipWith_self]
  apply List.map_congr_left
  intro i _
  rw [UInt8.toNat_xor, Nat.testBit_xor]

theorem bitsLSB_xor (as bs : List UInt8) : bitsLSB (List.zipWith (· ^^^ ·) as bs) = xorBits (bitsLSB as) (bitsLSB bs) := by
  unfold xorBits
  induction as generalizing bs with
  | nil => rfl
  | cons a as ih =>
    cases bs with
    | nil => simp [bitsLSB]
    | cons b bs =>
      rw [List.zipWith_cons_cons, bitsLSB_cons, bitsLSB_cons, bitsLSB_cons, ih, byte_xor_bits, List.zipWith_append]
      simp

/-! ## A complete block -/

theorem xorWords_get (ws : List (BitVec 64)) (j : Nat) (s : KState) (k : Nat) (hk : k < 25) :
    (xorWords j ws s)[k] = if j ≤ k then s[k] ^^^ ws.getD (k - j) 0 else s[k] := by
  induction ws generalizing j s with
  | nil => simp [xorWords]
  | cons x xs ih =>
    by_cases hj : j < 25
    · have e : xorWords j (x :: xs) s = xorWords (j + 1) xs (s.set j (s[j] ^^^ x)) := by rw [xorWords, dif_pos hj]
      simp only [e]
      rw [ih]
      by_cases h1 : j + 1 ≤ k
      · rw [if_pos h1, if_pos (by omega), Vector.getElem_set_ne _ _ (by omega), show k - j = (k - (j + 1)) + 1 by omega, List.getD_cons_succ]
      · rw [if_neg h1]
        by_cases h2 : j = k
        · subst h2
          rw [if_pos (Nat.le_refl _), Vector.getElem_set_self, Nat.sub_self]
          rfl
        · rw [if_neg (by omega), Vector.getElem_set_ne _ _ h2]
    · have e : xorWords j (x :: xs) s = s := by rw [xorWords, dif_neg hj]
      simp only [e]
      rw [if_neg (by omega)]

theorem xorWords_list (ws : List (BitVec 64)) (s : KState) (h : ws.length ≤ 25) :
    (xorWords 0 ws s).toList = List.zipWith (· ^^^ ·) s.toList (ws ++ List.replicate (25 - ws.length) 0) := by
  apply List.ext_getElem
  · simp; omega
  · intro k h1 h2
    rw [Vector.length_toList] at h1
    rw [Vector.getElem_toList, xorWords_get _ _ _ _ h1, if_pos (Nat.zero_le _), List.getElem_zipWith, Vector.getElem_toList, Nat.sub_zero]
    congr 1
    rw [List.getElem_append, List.getD_eq_getElem?_getD]
    split
    · rw [List.getElem?_eq_getElem ‹_›]; rfl
    · rw [List.getElem?_eq_none (by omega), List.getElem_replicate]; rfl

theorem toLEk_xor (k a b : Nat) : toLEk k (a ^^^ b) = List.zipWith (· ^^^ ·) (toLEk k a) (toLEk k b) := by
  induction k generalizing a b with
  | zero => rfl
  | succ k ih =>
    rw [toLEk, toLEk, toLEk, List.zipWith_cons_cons, ← ih]
    congr 1
    · apply UInt8.toNat_inj.mp
      rw [UInt8.toNat_xor, UInt8.toNat_ofNat', UInt8.toNat_ofNat', UInt8.toNat_ofNat', Nat.xor_mod_two_pow]
    · rw [show (256 : Nat) = 2 ^ 8 by rfl, Nat.xor_div_two_pow]

theorem flatMap_xor (as bs : List (BitVec 64)) :
    ((List.zipWith (· ^^^ ·) as bs).flatMap fun x => toLEk 8 x.toNat) =
      List.zipWith (· ^^^ ·) (as.flatMap fun x => toLEk 8 x.toNat) (bs.flatMap fun x => toLEk 8 x.toNat) := by
  induction as generalizing bs with
  | nil => rfl
  | cons a as ih =>
    cases bs with
    | nil => simp
    | cons b bs =>
      rw [List.zipWith_cons_cons, List.flatMap_cons, List.flatMap_cons, List.flatMap_cons, ih, BitVec.toNat_xor, toLEk_xor, List.zipWith_append]
      simp

theorem word_bytes {b : List UInt8} (h : b.length = 8) : toLEk 8 (BitVec.ofNat 64 (fromLE b)).toNat = b := by
  rw [BitVec.toNat_ofNat, fromLE_eq, Nat.mod_eq_of_lt]
  · rw [← h, toLEk_ofLE]
  · have := ofLE_lt b
    rw [h] at this
    omega

theorem words_bytes (l : List (List UInt8)) (h : ∀ b ∈ l, b.length = 8) :
    ((l.map fun b => BitVec.ofNat 64 (fromLE b)).flatMap fun x => toLEk 8 x.toNat) = l.flatten := by
  induction l with
  | nil => rfl
  | cons b l ih =>
    rw [List.map_cons, List.flatMap_cons, List.flatten_cons, ih (fun c hc => h c (List.mem_cons_of_mem _ hc)),
      word_bytes (h b List.mem_cons_self)]

theorem zero_bytes (k : Nat) : ((List.replicate k (0 : BitVec 64)).flatMap fun x => toLEk 8 x.toNat) = List.replicate (8 * k) 0 := by
  induction k with
  | zero => rfl
  | succ k ih => rw [List.replicate_succ, List.flatMap_cons, ih, Nat.mul_succ, Nat.add_comm, ← List.replicate_append_replicate]; rfl

/-- Xoring the words of a block into the state is xoring the bytes. -/
theorem xorWords_bytes (s : KState) (block : List UInt8) (q : Nat) (h : block.length = q * 8) (hq : q ≤ 25) :
    toBytes (xorWords 0 ((chunksExact 8 block).map fun bytes => BitVec.ofNat 64 (fromLE bytes)) s) =
      List.zipWith (· ^^^ ·) (toBytes s) (block ++ List.replicate (200 - block.length) 0) := by
  have hl : ((chunksExact 8 block).map fun bytes => BitVec.ofNat 64 (fromLE bytes)).length = q := by
    rw [List.length_map, chunksExact_eq, pieces_length, h, Nat.mul_div_cancel _ (by decide)]
  unfold toBytes
  rw [xorWords_list _ _ (by omega), flatMap_xor, List.flatMap_append, zero_bytes, hl, chunksExact_eq,
    words_bytes _ (fun b hb => pieces_each hb), flatten_pieces 8 q _ h, h, show 200 - q * 8 = 8 * (25 - q) by omega]

theorem fromBytes_bytes (bs : List UInt8) (h : bs.length = 200) : toBytes (fromBytes bs) = bs := by
  unfold toBytes fromBytes
  have h1 : (Vector.ofFn fun i : Fin 25 => BitVec.ofNat 64 (fromLE ((bs.drop (8 * i.val)).take 8))).toList =
      (pieces 8 bs).map fun b => BitVec.ofNat 64 (fromLE b) := by
    unfold pieces
    rw [h, List.map_map]
    apply List.ext_getElem
    · simp
    · intro i h1 h2
      simp [Nat.mul_comm]
  rw [h1, words_bytes _ (fun b hb => pieces_each hb), flatten_pieces 8 25 _ h]

theorem absorb_bits (r q : Nat) (hr : r = q * 8) (hq : q ≤ 25) (blocks : List (List UInt8)) (hb : ∀ b ∈ blocks, b.length = r) (s : KState) :
    stateBits (absorb blocks s) =
      (blocks.map bitsLSB).foldl (fun S p => f (xorBits S (p ++ List.replicate (1600 - 8 * r) false))) (stateBits s) := by
  induction blocks generalizing s with
  | nil => rfl
  | cons b blocks ih =>
    have h1 := hb b List.mem_cons_self
    rw [absorb, ih (fun c hc => hb c (List.mem_cons_of_mem _ hc)), List.map_cons, List.foldl_cons]
    rw [← f_bits, ← bitsLSB_toBytes, xorWords_bytes s b q (by rw [h1, hr]) hq, bitsLSB_xor, bitsLSB_append, bitsLSB_zeros, bitsLSB_toBytes, h1,
      show 8 * (200 - r) = 1600 - 8 * r by omega]

/-! ## The last block -/

theorem xorBlock_ok (S b : List UInt8) (d : UInt8) (h : b.length < S.length) :
    (xorBlock S b d : Out ε _) = .ok (List.zipWith (· ^^^ ·) S (b ++ [d] ++ List.replicate (S.length - b.length - 1) 0)) := by
  induction b generalizing S with
  | nil =>
    cases S with
    | nil => simp at h
    | cons x S =>
      have : ∀ S : List UInt8, List.zipWith (· ^^^ ·) S (List.replicate S.length 0) = S := by
        intro S
        induction S with
        | nil => rfl
        | cons y S ih => rw [List.length_cons, List.replicate_succ, List.zipWith_cons_cons, ih, UInt8.xor_zero]
      simp [xorBlock, this]
  | cons y b ih =>
    cases S with
    | nil => simp at h
    | cons x S =>
      rw [xorBlock, ih S (by simpa using h)]
      simp

theorem zipWith_zeros (S : List UInt8) : List.zipWith (· ^^^ ·) S (List.replicate S.length 0) = S := by
  induction S with
  | nil => rfl
  | cons y S ih => rw [List.length_cons, List.replicate_succ, List.zipWith_cons_cons, ih, UInt8.xor_zero]

theorem xorByte_ok (S T : List UInt8) (i : Nat) (x : UInt8) (hi : i < S.length) (hT : T.length = S.length) :
    (xorByte (List.zipWith (· ^^^ ·) S T) i x : Out ε _) =
      .ok (List.zipWith (· ^^^ ·) S (T.set i (T[i]'(by omega) ^^^ x))) := by
  unfold xorByte
  rw [List.getElem?_eq_getElem (by simp; omega)]
  dsimp only
  congr 1
  apply List.ext_getElem
  · simp
  · intro k h1 h2
    rw [List.getElem_set]
    by_cases hk : i = k
    · subst hk
      simp [UInt8.xor_assoc]
    · simp [hk]

/-- The bytes of the last block: a full block `r` long that has the suffix after the bytes of the message and `0x80` in its last byte. -/
def lastBlock (r : Nat) (b : List UInt8) (d : UInt8) : List UInt8 :=
  if b.length + 1 = r then b ++ [d ^^^ 0x80] else b ++ [d] ++ List.replicate (r - 2 - b.length) 0 ++ [0x80]

theorem lastBlock_length {r : Nat} {b : List UInt8} (d : UInt8) (h : b.length < r) : (lastBlock r b d).length = r := by
  unfold lastBlock
  split <;> simp <;> omega

theorem lastBlock_set (r : Nat) (b : List UInt8) (d : UInt8) (hb : b.length < r) (hr : r ≤ 200) :
    ∃ h, (b ++ [d] ++ List.replicate (200 - b.length - 1) 0).set (r - 1) ((b ++ [d] ++ List.replicate (200 - b.length - 1) 0)[r - 1]'h ^^^ 0x80) =
      lastBlock r b d ++ List.replicate (200 - r) 0 := by
  refine ⟨by simp; omega, ?_⟩
  apply List.ext_getElem
  · rw [List.length_set, List.length_append (bs := List.replicate (200 - r) 0), lastBlock_length d hb]
    simp
    omega
  · intro k h1 h2
    rw [List.getElem_set]
    unfold lastBlock
    split <;> split <;> simp only [List.getElem_append, List.getElem_replicate, List.length_append, List.length_cons, List.length_nil,
      List.length_replicate, List.getElem_singleton] <;> (try split) <;> (try split) <;> (try split) <;> (try split) <;> (try split) <;> (try rfl) <;> (try omega)

/-- The byte `d` has the bits `sb`, then a one (the first bit of the padding). -/
structure Suffix (d : UInt8) (sb : List Bool) : Prop where
  short : sb.length ≤ 5
  bits : bitsLSB [d] = sb ++ [true] ++ List.replicate (7 - sb.length) false
  last : bitsLSB [d ^^^ 0x80] = sb ++ [true] ++ List.replicate (6 - sb.length) false ++ [true]

theorem suffix_sha3 : Suffix suffixSha3 [false, true] := ⟨by decide, by decide, by decide⟩
theorem suffix_keccak : Suffix suffixKeccak [] := ⟨by decide, by decide, by decide⟩

theorem pad_count {r L k : Nat} (hr : 0 < r) (hk : k ≤ 5) : (8 * r - (8 * L + k + 2) % (8 * r)) % (8 * r) = 8 * r - 8 * (L % r) - k - 2 := by
  have h1 : 8 * L + k + 2 = (8 * (L % r) + k + 2) + (8 * r) * (L / r) := by
    have := Nat.div_add_mod L r
    rw [Nat.mul_assoc]
    omega
  have h2 := Nat.mod_lt L hr
  rw [h1, Nat.add_mul_mod_self_left, Nat.mod_eq_of_lt (a := 8 * (L % r) + k + 2) (by omega), Nat.mod_eq_of_lt (by omega)]
  omega

theorem lastBlock_bits {r : Nat} {b : List UInt8} {d : UInt8} {sb : List Bool} (hd : Suffix d sb) (hb : b.length < r) :
    bitsLSB (lastBlock r b d) = bitsLSB b ++ (sb ++ ([true] ++ List.replicate (8 * r - 8 * b.length - sb.length - 2) false ++ [true])) := by
  have hs := hd.short
  unfold lastBlock
  by_cases h : b.length + 1 = r
  · rw [if_pos h, bitsLSB_append, hd.last, show 8 * r - 8 * b.length - sb.length - 2 = 6 - sb.length by omega]
    simp only [List.append_assoc]
  · rw [if_neg h, bitsLSB_append, bitsLSB_append, bitsLSB_append, hd.bits, bitsLSB_zeros,
      show bitsLSB [0x80] = List.replicate 7 false ++ [true] by decide,
      show 8 * r - 8 * b.length - sb.length - 2 = (7 - sb.length) + (8 * (r - 2 - b.length) + 7) by omega,
      ← List.replicate_append_replicate, ← List.replicate_append_replicate]
    simp only [List.append_assoc]

theorem remainder_length {α : Type} (n : Nat) (l : List α) : (remainder n l).length = l.length % n := by
  unfold remainder
  rw [List.length_drop]
  have := Nat.div_add_mod l.length n
  rw [Nat.mul_comm] at this
  omega

/-- The blocks of the padded message. -/
theorem padded_pieces {r : Nat} (hr : 0 < r) {d : UInt8} {sb : List Bool} (hd : Suffix d sb) (msg : List UInt8) :
    pieces (8 * r) (bitsLSB msg ++ sb ++ pad (8 * r) (bitsLSB msg ++ sb).length) =
      (pieces r msg).map bitsLSB ++ [bitsLSB (lastBlock r (remainder r msg) d)] := by
  have hm : (remainder r msg).length < r := by rw [remainder_length]; exact Nat.mod_lt _ hr
  rw [List.append_assoc, pieces_append (by omega), bitsLSB_pieces, bitsLSB_remainder]
  congr 1
  unfold pad
  rw [List.length_append, bitsLSB_length, pad_count hr hd.short, ← remainder_length, ← lastBlock_bits hd hm]
  apply pieces_one (by omega)
  rw [bitsLSB_length, lastBlock_length d hm]

theorem zero_state : stateBits (Vector.replicate 25 0) = List.replicate 1600 false := by
  rw [← bitsLSB_toBytes]
  unfold toBytes
  rw [Vector.toList_replicate, zero_bytes, bitsLSB_zeros]

theorem sha3Digest_y (m : Build) (msg : List UInt8) (s : KState) (out q : Nat) (hq : 200 - 2 * out = q * 8) (hout : 0 < out ∧ out ≤ 64)
    {d : UInt8} {sb : List Bool} (hd : Suffix d sb) :
    ∃ st, (sha3Digest m msg s out d : Out ε _) = .ok (bytesLSB (keccak (16 * out) (bitsLSB msg ++ sb) (8 * out)), st) := by
  obtain ⟨r, hrr⟩ : ∃ r, r = 200 - 2 * out := ⟨_, rfl⟩
  have hr : 0 < r := by omega
  have hm : (remainder r msg).length < r := by rw [remainder_length]; exact Nat.mod_lt _ hr
  unfold sha3Digest
  dsimp only
  rw [← hrr]
  have hr8 : (r % 8 == 0) = true := by
    rw [beq_iff_eq]; omega
  obtain ⟨S, hS⟩ : ∃ S : KState, S = absorb (chunksExact r msg) (Vector.replicate s.size 0) := ⟨_, rfl⟩
  have hbl := xorBlock_ok (ε := ε) (toBytes S) (remainder r msg) d (by rw [toBytes_length]; omega)
  rw [toBytes_length] at hbl
  have hby := xorByte_ok (ε := ε) (toBytes S) (remainder r msg ++ [d] ++ List.replicate (200 - (remainder r msg).length - 1) 0) (r - 1) 0x80
    (by rw [toBytes_length]; omega) (by rw [toBytes_length]; simp; omega)
  obtain ⟨_, hset⟩ := lastBlock_set r (remainder r msg) d hm (by omega)
  rw [hset] at hby
  rw [← hS, hr8, hbl]
  have hda : (dassert m true : Out ε _) = .ok () := by cases m <;> rfl
  rw [hda]
  simp only [bind_ok]
  rw [hby]
  simp only [bind_ok]
  refine ⟨_, congrArg Out.ok (Prod.ext ?_ rfl)⟩
  dsimp only
  unfold keccak
  dsimp only
  rw [show 1600 - 16 * out = 8 * r by omega, Nat.div_eq_of_lt (by omega : 8 * out < 8 * r)]
  simp only [squeeze, List.append_nil]
  rw [List.take_take, Nat.min_eq_left (by omega)]
  unfold Spec.Sha3.absorb
  rw [padded_pieces hr hd, List.foldl_append, ← zero_state,
    ← absorb_bits r q (by omega) (by omega) (pieces r msg) (fun b hb => pieces_each hb), ← chunksExact_eq]
  rw [show (Vector.replicate 25 0 : KState) = Vector.replicate s.size 0 from rfl, ← hS, List.foldl_cons, List.foldl_nil, ← bitsLSB_toBytes S,
    show 1600 - 8 * r = 8 * (200 - r) by omega, ← bitsLSB_zeros, ← bitsLSB_append, ← bitsLSB_xor]
  have hlen : (List.zipWith (· ^^^ ·) (toBytes S) (lastBlock r (remainder r msg) d ++ List.replicate (200 - r) 0)).length = 200 := by
    rw [List.length_zipWith, toBytes_length, List.length_append, lastBlock_length d hm, List.length_replicate]
    omega
  rw [← fromBytes_bytes _ hlen, bitsLSB_toBytes, f_bits, ← bitsLSB_toBytes, bitsLSB_take, bytesLSB_bits, fromBytes_bytes _ hlen]

theorem bytesLSB_length (bits : List Bool) : (bytesLSB bits).length = bits.length / 8 := by
  unfold bytesLSB; rw [List.length_map, pieces_length]

theorem ofArr_length (A : Arr) : (ofArr A).length = 1600 := by
  unfold ofArr
  simp [List.length_flatMap]

theorem hasher_computes {block out q : Nat} (hq : 200 - 2 * out = q * 8) (hout : 0 < out ∧ out ≤ 64) {d : UInt8} {sb : List Bool}
    (hd : Suffix d sb) (limit : Nat) :
    Computes (hasher block out d) (fun msg => bytesLSB (keccak (16 * out) (bitsLSB msg ++ sb) (8 * out))) limit := by
  have hlen : ∀ msg : List UInt8, (bytesLSB (keccak (16 * out) (bitsLSB msg ++ sb) (8 * out))).length = out := by
    intro msg
    obtain ⟨st, e⟩ := sha3Digest_y (ε := Unit) .release msg (Vector.replicate 25 0) out q hq hout hd
    rw [bytesLSB_length]
    unfold keccak
    dsimp only
    rw [show 1600 - 16 * out = 8 * (200 - 2 * out) by omega, Nat.div_eq_of_lt (by omega : 8 * out < 8 * (200 - 2 * out))]
    simp only [squeeze, List.append_nil]
    rw [List.take_take, Nat.min_eq_left (by omega), List.length_take]
    have : (Spec.Sha3.absorb (8 * (200 - 2 * out))
        (bitsLSB msg ++ sb ++ pad (8 * (200 - 2 * out)) (bitsLSB msg ++ sb).length)).length = 1600 := by
      unfold Spec.Sha3.absorb
      rw [padded_pieces (by omega) hd, List.foldl_append, List.foldl_cons, List.foldl_nil]
      exact ofArr_length _
    rw [this]
    omega
  refine ⟨fun ε m st msg _ => ?_, hlen⟩
  obtain ⟨st', e⟩ := sha3Digest_y (ε := ε) m msg st out q hq hout hd
  refine ⟨st', ?_⟩
  show (do
    let (result, s) ← sha3Digest m msg st out d
    dassert m (result.length == out)
    return (result, s) : Out ε _) = _
  rw [e]
  simp only [bind_ok, hlen, beq_self_eq_true]
  cases m <;> rfl

theorem computesKeccak256 (limit : Nat) : Computes Keccak256 keccak256 limit := by
  have := hasher_computes (block := 136) (out := 32) (q := 17) rfl (by decide) suffix_keccak limit
  simp only [List.append_nil] at this
  exact this

theorem computesSha3_224 (limit : Nat) : Computes Sha3_224 (sha3 28) limit := hasher_computes (q := 18) rfl (by decide) suffix_sha3 limit
theorem computesSha3_256 (limit : Nat) : Computes Sha3_256 (sha3 32) limit := hasher_computes (q := 17) rfl (by decide) suffix_sha3 limit
theorem computesSha3_384 (limit : Nat) : Computes Sha3_384 (sha3 48) limit := hasher_computes (q := 13) rfl (by decide) suffix_sha3 limit
theorem computesSha3_512 (limit : Nat) : Computes Sha3_512 (sha3 64) limit := hasher_computes (q := 9) rfl (by decide) suffix_sha3 limit

end LCT.Hash.Sha3
