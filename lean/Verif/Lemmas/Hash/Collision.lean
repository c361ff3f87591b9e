import Verif.Spec.Collision
import Verif.Lemmas.Hash.Permutation
import Verif.Lemmas.Hash.Bits

/-!
# Collisions of digests come from collisions in the core
-/

namespace LCT.Hash

/-- Two lists that a step function takes to the same state either end with steps of the same arguments, or collide somewhere. -/
theorem fold_collides {σ β : Type} (f : σ → β → σ) (init : σ) (la lb : List β) (hlen : la.length = lb.length) (hne : la ≠ lb)
    (h : la.foldl f init = lb.foldl f init) :
    ∃ (i : Nat) (x y : β), la[i]? = some x ∧ lb[i]? = some y ∧ ((la.take i).foldl f init, x) ≠ ((lb.take i).foldl f init, y) ∧
      f ((la.take i).foldl f init) x = f ((lb.take i).foldl f init) y := by
  induction hn : la.length generalizing la lb with
  | zero =>
    rw [hn] at hlen
    exact absurd ((List.length_eq_zero_iff.mp hn).trans (List.length_eq_zero_iff.mp hlen.symm).symm) hne
  | succ n ih =>
    rcases List.eq_nil_or_concat la with rfl | ⟨pa, xa, rfl⟩
    · simp at hn
    rcases List.eq_nil_or_concat lb with rfl | ⟨pb, xb, rfl⟩
    · simp at hlen
    rw [List.concat_eq_append] at *
    rw [List.concat_eq_append] at *
    have hl : pa.length = pb.length := by simpa using hlen
    have hpa : pa.length = n := by simpa using hn
    by_cases e : (pa.foldl f init, xa) = (pb.foldl f init, xb)
    · obtain ⟨e1, e2⟩ := Prod.mk.inj e
      have hne' : pa ≠ pb := fun h => hne (by rw [h, e2])
      obtain ⟨i, x, y, h1, h2, h3, h4⟩ := ih pa pb hl hne' e1 hpa
      have hi : i < pa.length := by
        rcases Nat.lt_or_ge i pa.length with h | h
        · exact h
        · rw [List.getElem?_eq_none h] at h1; cases h1
      refine ⟨i, x, y, ?_, ?_, ?_, ?_⟩
      · rw [List.getElem?_append_left hi, h1]
      · rw [List.getElem?_append_left (by omega), h2]
      · rwa [List.take_append_of_le_length (by omega), List.take_append_of_le_length (by omega)]
      · rwa [List.take_append_of_le_length (by omega), List.take_append_of_le_length (by omega)]
    · refine ⟨pa.length, xa, xb, ?_, ?_, ?_, ?_⟩
      · simp
      · rw [hl]; simp
      · rw [List.take_left, hl, List.take_left]; exact e
      · rw [List.take_left, hl, List.take_left]
        simpa [List.foldl_append] using h

end LCT.Hash

namespace LCT.Hash.Sha2
open LCT.Spec LCT.Spec.Sha2
variable {v : Nat}

theorem padded_mod (hv : v = 32 ∨ v = 64) (msg : List UInt8) : ∃ q, (padded v msg).length = q * blockBytes v ∧ 0 < q := by
  rw [padded_length]
  rcases hv with rfl | rfl
  · refine ⟨(msg.length + 1 + zeroBytes 32 msg.length + lengthBytes 32) / 64, ?_, ?_⟩ <;> simp only [zeroBytes, blockBytes, lengthBytes] <;> omega
  · refine ⟨(msg.length + 1 + zeroBytes 64 msg.length + lengthBytes 64) / 128, ?_, ?_⟩ <;> simp only [zeroBytes, blockBytes, lengthBytes] <;> omega

theorem blocks_flatten (hv : v = 32 ∨ v = 64) (msg : List UInt8) : (blocksOf v msg).flatten = padded v msg := by
  obtain ⟨q, hq, -⟩ := padded_mod hv msg
  exact Sha3.flatten_pieces _ q _ hq

/-- Blocks are determined by their words. -/
theorem wordsOf_inj (hv : v = 32 ∨ v = 64) {a b : List UInt8} (ha : a.length = blockBytes v) (hb : b.length = blockBytes v)
    (h : wordsOf v a = wordsOf v b) : a = b := by
  have hv8 : v / 8 * 8 = v := by rcases hv with rfl | rfl <;> rfl
  have key : ∀ (l m : List (List UInt8)), (∀ x ∈ l, x.length = v / 8) → (∀ x ∈ m, x.length = v / 8) →
      (l.map fun b => BitVec.ofNat v (ofBE b)) = (m.map fun b => BitVec.ofNat v (ofBE b)) → l = m := by
    intro l
    induction l with
    | nil => intro m _ _ h; cases m with
      | nil => rfl
      | cons _ _ => simp at h
    | cons x l ih =>
      intro m hl hm h
      cases m with
      | nil => simp at h
      | cons y m =>
        rw [List.map_cons, List.map_cons] at h
        obtain ⟨h1, h2⟩ := List.cons.inj h
        rw [ih m (fun z hz => hl z (List.mem_cons_of_mem _ hz)) (fun z hz => hm z (List.mem_cons_of_mem _ hz)) h2]
        congr 1
        have hx := hl x List.mem_cons_self
        have hy := hm y List.mem_cons_self
        have e := congrArg BitVec.toNat h1
        have bx := ofBE_lt x
        have by' := ofBE_lt y
        have hp : 256 ^ (v / 8) = 2 ^ v := by rw [show 256 = 2 ^ 8 from rfl, ← Nat.pow_mul, Nat.mul_comm, hv8]
        rw [hx, hp] at bx
        rw [hy, hp] at by'
        rw [BitVec.toNat_ofNat, BitVec.toNat_ofNat, Nat.mod_eq_of_lt bx, Nat.mod_eq_of_lt by'] at e
        exact ofBE_inj_of_length (hx.trans hy.symm) e
  have := key _ _ (fun x hx => pieces_each hx) (fun x hx => pieces_each hx) h
  have fa := Sha3.flatten_pieces (v / 8) 16 a (by rw [ha, blockBytes]; omega)
  have fb := Sha3.flatten_pieces (v / 8) 16 b (by rw [hb, blockBytes]; omega)
  rw [← fa, ← fb, this]

theorem block_length {msg : List UInt8} {i : Nat} {x : List UInt8} (h : (blocksOf v msg)[i]? = some x) : x.length = blockBytes v :=
  pieces_each (List.mem_of_getElem? h)

/-- The last bytes of the padded message, and so the last block, show the length of the message. -/
theorem last_length (hv : v = 32 ∨ v = 64) {a b : List UInt8} {la lb : List (List UInt8)} {xa : List UInt8}
    (ha : a.length < 2 ^ 61) (hb : b.length < 2 ^ 61) (ea : blocksOf v a = la ++ [xa]) (eb : blocksOf v b = lb ++ [xa]) : a.length = b.length := by
  have fa := blocks_flatten hv a
  have fb := blocks_flatten hv b
  rw [ea, List.flatten_append, List.flatten_singleton] at fa
  rw [eb, List.flatten_append, List.flatten_singleton] at fb
  have hx : xa.length = blockBytes v := pieces_each (l := padded v a) (by show xa ∈ blocksOf v a; rw [ea]; simp)
  have hl : lengthBytes v ≤ xa.length := by rw [hx]; rcases hv with rfl | rfl <;> decide
  have suf : ∀ (p m : List UInt8), p ++ xa = padded v m → xa.drop (xa.length - lengthBytes v) = octets (lengthBytes v) (8 * m.length) := by
    intro p m h
    have h' := congrArg (fun l => l.drop (l.length - lengthBytes v)) h
    rw [List.length_append, show p.length + xa.length - lengthBytes v = p.length + (xa.length - lengthBytes v) by omega, List.drop_append] at h'
    rw [List.drop_eq_nil_of_le (by omega), List.nil_append, show p.length + (xa.length - lengthBytes v) - p.length = xa.length - lengthBytes v by omega] at h'
    rw [h', padded_length, padded]
    rw [show m.length + 1 + zeroBytes v m.length + lengthBytes v - lengthBytes v = (m ++ [0x80] ++ List.replicate (zeroBytes v m.length) 0).length by simp; omega]
    exact List.drop_left
  have e := (suf _ _ fa).symm.trans (suf _ _ fb)
  rw [octets_toBEk, octets_toBEk] at e
  have e' := congrArg ofBE e
  rw [ofBE_toBEk, ofBE_toBEk] at e'
  have hbig : 2 ^ 64 ≤ 256 ^ lengthBytes v := by rcases hv with rfl | rfl <;> decide
  rw [Nat.mod_eq_of_lt (by omega), Nat.mod_eq_of_lt (by omega)] at e'
  omega

theorem collides (hv : v = 32 ∨ v = 64) (A : Variant v) (init : Work v) {a b : List UInt8} (ha : a.length < 2 ^ 61) (hb : b.length < 2 ^ 61)
    (hne : a ≠ b) (h : hashValue A init a = hashValue A init b) : CompressionCollides A init a b := by
  have hne' : blocksOf v a ≠ blocksOf v b := by
    intro e
    apply hne
    have : padded v a = padded v b := by rw [← blocks_flatten hv, ← blocks_flatten hv, e]
    refine padded_inj ?_ ?_ this <;> rcases hv with rfl | rfl <;> simp only [lengthBytes] <;> omega
  have hh : after A init (blocksOf v a) = after A init (blocksOf v b) := h
  by_cases hl : (blocksOf v a).length = (blocksOf v b).length
  · obtain ⟨i, x, y, h1, h2, h3, h4⟩ := fold_collides _ init _ _ hl hne' hh
    refine ⟨i, i, x, y, h1, h2, ?_, h4⟩
    intro e
    obtain ⟨e1, e2⟩ := Prod.mk.inj e
    exact h3 (Prod.ext e1 (wordsOf_inj hv (block_length h1) (block_length h2) e2))
  · have nonempty : ∀ m : List UInt8, blocksOf v m ≠ [] := by
      intro m e
      obtain ⟨q, hq, h0⟩ := padded_mod hv m
      have := blocks_flatten hv m
      rw [e] at this
      have := congrArg List.length this
      rw [hq] at this
      have : 0 < q * blockBytes v := Nat.mul_pos h0 (by rcases hv with rfl | rfl <;> decide)
      simp at *
      omega
    rcases List.eq_nil_or_concat (blocksOf v a) with e | ⟨la, xa, ea⟩
    · exact absurd e (nonempty a)
    rcases List.eq_nil_or_concat (blocksOf v b) with e | ⟨lb, xb, eb⟩
    · exact absurd e (nonempty b)
    rw [List.concat_eq_append] at ea eb
    have hx : xa ≠ xb := by
      intro e
      subst e
      have hlen := last_length hv ha hb ea eb
      apply hl
      show (pieces _ _).length = (pieces _ _).length
      rw [pieces_length, pieces_length, padded_length, padded_length, hlen]
    have ta : (blocksOf v a).take la.length = la := by rw [ea, List.take_left]
    have tb : (blocksOf v b).take lb.length = lb := by rw [eb, List.take_left]
    have ga : (blocksOf v a)[la.length]? = some xa := by rw [ea]; simp
    have gb : (blocksOf v b)[lb.length]? = some xb := by rw [eb]; simp
    refine ⟨la.length, lb.length, xa, xb, ga, gb, ?_, ?_⟩
    · intro e
      exact hx (wordsOf_inj hv (block_length ga) (block_length gb) (Prod.mk.inj e).2)
    · rw [ta, tb]
      rw [ea, eb] at hh
      unfold after at hh ⊢
      rw [List.foldl_append, List.foldl_append] at hh
      exact hh

/-- Hash values are determined by their bytes. -/
theorem bytesOf_inj (hv : v = 32 ∨ v = 64) (ws us : List (BitVec v)) (h : bytesOf ws = bytesOf us) : ws = us := by
  have hv8 : v / 8 * 8 = v := by rcases hv with rfl | rfl <;> rfl
  have hpos : 0 < v / 8 := by rcases hv with rfl | rfl <;> decide
  induction ws generalizing us with
  | nil =>
    cases us with
    | nil => rfl
    | cons u us =>
      have := congrArg List.length h
      simp [bytesOf, octets_toBEk, toBEk_length] at this
      omega
  | cons w ws ih =>
    cases us with
    | nil =>
      have := congrArg List.length h
      simp [bytesOf, octets_toBEk, toBEk_length] at this
      omega
    | cons u us =>
      unfold bytesOf at h
      rw [List.flatMap_cons, List.flatMap_cons] at h
      obtain ⟨h1, h2⟩ := List.append_inj h (by rw [octets_toBEk, octets_toBEk, toBEk_length, toBEk_length])
      rw [ih us h2]
      congr 1
      rw [octets_toBEk, octets_toBEk] at h1
      have e := congrArg ofBE h1
      rw [ofBE_toBEk, ofBE_toBEk] at e
      have hp : 256 ^ (v / 8) = 2 ^ v := by rw [show 256 = 2 ^ 8 from rfl, ← Nat.pow_mul, Nat.mul_comm, hv8]
      rw [hp, Nat.mod_eq_of_lt w.isLt, Nat.mod_eq_of_lt u.isLt] at e
      exact BitVec.eq_of_toNat_eq e

theorem words_inj {x y : Work v} (h : x.words = y.words) : x = y := by
  cases x; cases y
  simp only [Work.words, List.cons.injEq, and_true] at h
  obtain ⟨rfl, rfl, rfl, rfl, rfl, rfl, rfl, rfl⟩ := h
  rfl

end LCT.Hash.Sha2

namespace LCT.Hash.Sha3
open LCT.Spec LCT.Spec.Sha3
open LCT.Spec.Sha2 (pieces)

theorem xorBits_inj {S T x y : List Bool} (h1 : S.length = T.length) (h2 : x.length = S.length) (h3 : y.length = S.length)
    (h : xorBits S x = xorBits T y) (n : Nat) (hn : n < S.length) : (S[n] ^^ x[n]) = (T[n] ^^ y[n]) := by
  have := congrArg (fun l => l[n]?) h
  simpa [xorBits, List.getElem?_zipWith, hn, h1 ▸ hn, h2 ▸ hn, h3 ▸ hn] using this

theorem after_length {r : Nat} (blocks : List (List Bool)) : (after r blocks).length = 1600 := by
  unfold after
  rcases List.eq_nil_or_concat blocks with rfl | ⟨l, x, rfl⟩
  · exact List.length_replicate
  · rw [List.concat_eq_append, List.foldl_append]
    exact ofArr_length _

/-- Equal states after blocks that end with different blocks. -/
theorem last_block {r : Nat} (hr : r ≤ 1600) {la lb : List (List Bool)} {x y : List Bool}
    (hx : x.length = r) (hy : y.length = r) (h : after r (la ++ [x]) = after r (lb ++ [y])) :
    (after r la).drop r = (after r lb).drop r ∧ (after r la = after r lb → x = y) := by
  have la' := after_length (r := r) la
  have lb' := after_length (r := r) lb
  have e : f (xorBits (after r la) (x ++ List.replicate (1600 - r) false)) = f (xorBits (after r lb) (y ++ List.replicate (1600 - r) false)) := by
    unfold after at h ⊢
    rw [List.foldl_append, List.foldl_append] at h
    exact h
  have e2 := f_inj (by simp [xorBits, la', hx]; omega) (by simp [xorBits, lb', hy]; omega) e
  have key := xorBits_inj (la'.trans lb'.symm) (by rw [la']; simp [hx]; omega) (by rw [la']; simp [hy]; omega) e2
  refine ⟨?_, ?_⟩
  · apply List.ext_getElem (by simp [la', lb'])
    intro n h1 h2
    rw [List.length_drop, la'] at h1
    have := key (r + n) (by omega)
    rw [List.getElem_append_right (by omega), List.getElem_append_right (by omega)] at this
    simpa using this
  · intro es
    apply List.ext_getElem (by omega)
    intro n h1 h2
    have := key n (by omega)
    rw [List.getElem_append_left h1, List.getElem_append_left h2] at this
    simpa [es] using this

theorem trim_zeros (j k : Nat) (X Y : List Bool) (h : X ++ [true] ++ List.replicate j false = Y ++ [true] ++ List.replicate k false) : X = Y := by
  induction j generalizing k with
  | zero =>
    cases k with
    | zero => simpa using h
    | succ k =>
      rw [List.replicate_succ', ← List.append_assoc, List.replicate_zero, List.append_nil] at h
      have := congrArg List.getLast? h
      rw [List.getLast?_concat, List.getLast?_concat] at this
      cases this
  | succ j ih =>
    cases k with
    | zero =>
      rw [List.replicate_succ', ← List.append_assoc, List.replicate_zero, List.append_nil] at h
      have := congrArg List.getLast? h
      rw [List.getLast?_concat, List.getLast?_concat] at this
      cases this
    | succ k =>
      rw [List.replicate_succ', List.replicate_succ', ← List.append_assoc, ← List.append_assoc] at h
      exact ih k (List.append_inj_left' h rfl)

theorem pad_inj {r : Nat} {M N : List Bool} (h : M ++ pad r M.length = N ++ pad r N.length) : M = N := by
  unfold pad at h
  rw [← List.append_assoc, ← List.append_assoc, ← List.append_assoc, ← List.append_assoc] at h
  exact trim_zeros _ _ _ _ (List.append_inj_left' h rfl)

theorem bitsLSB_inj {a b : List UInt8} (h : bitsLSB a = bitsLSB b) : a = b := by rw [← bytesLSB_bits a, ← bytesLSB_bits b, h]

theorem blocks_ends {r : Nat} (hr : 1 < r) (M : List Bool) : ∃ q, (M ++ pad r M.length).length = q * r ∧ 0 < q := by
  have hl : (M ++ pad r M.length).length = M.length + 2 + (r - (M.length + 2) % r) % r := by simp [pad]; omega
  refine ⟨(M.length + 2 + (r - (M.length + 2) % r) % r) / r, ?_, ?_⟩
  · rw [hl]
    have hd : (M.length + 2 + (r - (M.length + 2) % r) % r) % r = 0 := by
      have hm := Nat.mod_lt (M.length + 2) (by omega : 0 < r)
      by_cases h0 : (M.length + 2) % r = 0
      · rw [h0, Nat.sub_zero, Nat.mod_self, Nat.add_zero, h0]
      · rw [Nat.mod_eq_of_lt (a := r - (M.length + 2) % r) (by omega), Nat.add_mod, Nat.mod_eq_of_lt (a := r - (M.length + 2) % r) (by omega),
          show (M.length + 2) % r + (r - (M.length + 2) % r) = r by omega, Nat.mod_self]
    have := Nat.div_add_mod (M.length + 2 + (r - (M.length + 2) % r) % r) r
    rw [hd, Nat.add_zero, Nat.mul_comm] at this
    exact this.symm
  · apply Nat.div_pos _ (by omega)
    by_cases h0 : M.length + 2 < r
    · rw [Nat.mod_eq_of_lt h0, Nat.mod_eq_of_lt (by omega)]; omega
    · omega

theorem sponge_collides {r : Nat} (hr : 1 < r) (hr' : r ≤ 1600) (suffix : List Bool) {a b : List UInt8} (hne : a ≠ b)
    (h : after r (blocksOf r suffix a) = after r (blocksOf r suffix b)) : InnerCollides r suffix a b := by
  obtain ⟨qa, ha, ha0⟩ := blocks_ends hr (bitsLSB a ++ suffix)
  obtain ⟨qb, hb, hb0⟩ := blocks_ends hr (bitsLSB b ++ suffix)
  have fa := flatten_pieces r qa _ ha
  have fb := flatten_pieces r qb _ hb
  have lenA : (blocksOf r suffix a).length = qa := by
    rw [blocksOf, Sha2.pieces_length, ha, Nat.mul_div_cancel _ (by omega)]
  have lenB : (blocksOf r suffix b).length = qb := by
    rw [blocksOf, Sha2.pieces_length, hb, Nat.mul_div_cancel _ (by omega)]
  have eachA : ∀ x ∈ blocksOf r suffix a, x.length = r := fun x hx => Sha2.pieces_each hx
  have eachB : ∀ x ∈ blocksOf r suffix b, x.length = r := fun x hx => Sha2.pieces_each hx
  have hne' : blocksOf r suffix a ≠ blocksOf r suffix b := by
    intro e
    apply hne
    unfold blocksOf at e
    rw [e, fb] at fa
    exact bitsLSB_inj (List.append_cancel_right (pad_inj fa.symm))
  unfold InnerCollides
  generalize blocksOf r suffix a = A at *
  generalize blocksOf r suffix b = B at *
  rcases List.eq_nil_or_concat A with rfl | ⟨la, x, rfl⟩
  · simp at lenA; omega
  rcases List.eq_nil_or_concat B with rfl | ⟨lb, y, rfl⟩
  · simp at lenB; omega
  rw [List.concat_eq_append] at *
  rw [List.concat_eq_append] at *
  rw [List.dropLast_concat, List.dropLast_concat]
  obtain ⟨h1, h2⟩ := last_block hr' (eachA x (by simp)) (eachB y (by simp)) h
  refine ⟨?_, h1⟩
  intro e
  apply hne'
  rw [e] at h2 ⊢
  rw [h2 rfl]

/-- A message of one block has no inner collision with another one. -/
theorem short_blocks {r : Nat} (hr : 1 < r) (suffix : List Bool) (a : List UInt8) (h : 8 * a.length + suffix.length + 2 ≤ r) :
    (blocksOf r suffix a).dropLast = [] := by
  have hl : (blocksOf r suffix a).length = 1 := by
    rw [blocksOf, Sha2.pieces_length]
    simp only [pad, List.length_append, bitsLSB_length, List.length_replicate, List.length_singleton]
    rcases Nat.lt_or_ge (8 * a.length + suffix.length + 2) r with h' | h'
    · rw [Nat.mod_eq_of_lt h', Nat.mod_eq_of_lt (by omega)]
      rw [show 8 * a.length + suffix.length + (1 + (r - (8 * a.length + suffix.length + 2)) + 1) = r by omega, Nat.div_self (by omega)]
    · have : 8 * a.length + suffix.length + 2 = r := by omega
      rw [this, Nat.mod_self, Nat.sub_zero, Nat.mod_self]
      rw [show 8 * a.length + suffix.length + (1 + 0 + 1) = r by omega, Nat.div_self (by omega)]
  obtain ⟨x, hx⟩ := List.length_eq_one_iff.mp hl
  rw [hx]
  rfl

theorem squeeze_one {c d : Nat} (h : d < 1600 - c) (M : List Bool) :
    keccak c M d = (Spec.Sha3.absorb (1600 - c) (M ++ pad (1600 - c) M.length)).take d := by
  unfold keccak
  simp only
  rw [Nat.div_eq_of_lt h, Nat.zero_add, squeeze, squeeze, List.append_nil, List.take_take, Nat.min_eq_left (by omega)]

theorem octet : ∀ a b c d e f g h : Bool, ((List.range 8).map fun i =>
    (UInt8.ofNat ([a, b, c, d, e, f, g, h].foldr (fun x acc => x.toNat + 2 * acc) 0)).toNat.testBit i) = [a, b, c, d, e, f, g, h] := by
  decide +kernel

theorem bytes_inj (n : Nat) (x y : List Bool) (hx : x.length = 8 * n) (hy : y.length = 8 * n) (h : bytesLSB x = bytesLSB y) : x = y := by
  have key : ∀ z : List Bool, z.length = 8 * n → bitsLSB (bytesLSB z) = z := by
    intro z hz
    unfold bytesLSB bitsLSB
    rw [List.flatMap_map]
    have : ∀ p ∈ pieces 8 z, ((List.range 8).map fun i => (UInt8.ofNat (p.foldr (fun x acc => x.toNat + 2 * acc) 0)).toNat.testBit i) = p := by
      intro p hp
      have hl : p.length = 8 := Sha2.pieces_each hp
      match p, hl with
      | [a, b, c, d, e, f, g, h], _ => exact octet a b c d e f g h
    rw [show (pieces 8 z).flatMap (fun p => (List.range 8).map fun i => (UInt8.ofNat (p.foldr (fun x acc => x.toNat + 2 * acc) 0)).toNat.testBit i) =
      (pieces 8 z).flatMap id from List.flatMap_congr this, List.flatMap_id]
    exact flatten_pieces 8 n z (by omega)
  rw [← key x hx, ← key y hy, h]

theorem keccak_collides {out : Nat} (hout : 0 < out ∧ out ≤ 64) (suffix : List Bool) {a b : List UInt8} (hne : a ≠ b)
    (h : bytesLSB (keccak (16 * out) (bitsLSB a ++ suffix) (8 * out)) = bytesLSB (keccak (16 * out) (bitsLSB b ++ suffix) (8 * out))) :
    OutputCollides (1600 - 16 * out) suffix (8 * out) a b ∨ InnerCollides (1600 - 16 * out) suffix a b := by
  rw [squeeze_one (by omega), squeeze_one (by omega)] at h
  have hab : ∀ m, Spec.Sha3.absorb (1600 - 16 * out) ((bitsLSB m ++ suffix) ++ pad (1600 - 16 * out) (bitsLSB m ++ suffix).length) =
      after (1600 - 16 * out) (blocksOf (1600 - 16 * out) suffix m) := fun _ => rfl
  rw [hab, hab] at h
  by_cases e : after (1600 - 16 * out) (blocksOf (1600 - 16 * out) suffix a) = after (1600 - 16 * out) (blocksOf (1600 - 16 * out) suffix b)
  · exact .inr (sponge_collides (by omega) (by omega) suffix hne e)
  · refine .inl ⟨e, ?_⟩
    have la := after_length (r := 1600 - 16 * out) (blocksOf (1600 - 16 * out) suffix a)
    have lb := after_length (r := 1600 - 16 * out) (blocksOf (1600 - 16 * out) suffix b)
    exact bytes_inj out _ _ (by rw [List.length_take, la]; omega) (by rw [List.length_take, lb]; omega) h

end LCT.Hash.Sha3
