import Verif.Model.Hash.Sha3Target
import Verif.Lemmas.Hash.Sponge
import Verif.Lemmas.Hash.Hmac

/-!
# SHA-3 on a big-endian target

On a big-endian target the state holds, in every word, the bytes of the little-endian target's word in the opposite order; as an array of bytes it
is the same.
-/

namespace LCT.Hash.Sha3
open LCT.Spec LCT.Out LCT.Hash
open LCT.Hash.Sha2 (chunksExact remainder chunksExact_eq pieces_each)
variable {ε : Type}

theorem toBEk_reverse (k n : Nat) : toBEk k n = (toLEk k n).reverse := by
  induction k generalizing n with
  | zero => rfl
  | succ k ih => rw [toBEk, toLEk, List.reverse_cons, ih]

theorem fromBE_reverse (bs : List UInt8) : fromBE bs = fromLE bs.reverse := by
  unfold fromBE fromLE
  rw [List.foldr_reverse]
  congr 1
  funext a b
  omega

theorem word_inj {x y : BitVec 64} (h : toLEk 8 x.toNat = toLEk 8 y.toNat) : x = y := by
  have := congrArg ofLE h
  rw [ofLE_toLEk, ofLE_toLEk, Nat.mod_eq_of_lt x.isLt, Nat.mod_eq_of_lt y.isLt] at this
  exact BitVec.eq_of_toNat_eq this

theorem swapBytes_bytes (x : BitVec 64) : toLEk 8 (swapBytes x).toNat = (toLEk 8 x.toNat).reverse := by
  unfold swapBytes
  rw [fromBE_reverse, word_bytes (by simp)]

theorem swapBytes_swapBytes (x : BitVec 64) : swapBytes (swapBytes x) = x := by
  apply word_inj
  rw [swapBytes_bytes, swapBytes_bytes, List.reverse_reverse]

theorem zipWith_reverse {α : Type} (f : α → α → α) (as bs : List α) (h : as.length = bs.length) :
    List.zipWith f as.reverse bs.reverse = (List.zipWith f as bs).reverse := by
  induction as generalizing bs with
  | nil => simp
  | cons a as ih =>
    cases bs with
    | nil => cases h
    | cons b bs =>
      have h' : as.length = bs.length := Nat.succ.inj h
      rw [List.reverse_cons, List.reverse_cons, List.zipWith_append (by simpa using h'), ih bs h']
      show _ = (f a b :: List.zipWith f as bs).reverse
      rw [List.reverse_cons]
      rfl

theorem swapBytes_xor (x y : BitVec 64) : swapBytes (x ^^^ y) = swapBytes x ^^^ swapBytes y := by
  apply word_inj
  rw [swapBytes_bytes, BitVec.toNat_xor, BitVec.toNat_xor, toLEk_xor, toLEk_xor, swapBytes_bytes, swapBytes_bytes, zipWith_reverse _ _ _ (by simp)]

theorem swapBytes_zero : swapBytes 0 = 0 := by decide

theorem fromNe_big {bs : List UInt8} (h : bs.length = 8) : fromNe .big bs = swapBytes (fromNe .little bs) := by
  apply word_inj
  rw [swapBytes_bytes]
  unfold fromNe
  dsimp only
  rw [word_bytes h, fromBE_reverse, word_bytes (by simpa using h)]

theorem toNe_big (x : BitVec 64) : toNe .big (swapBytes x) = toNe .little x := by
  unfold toNe
  dsimp only
  rw [toBEk_reverse, swapBytes_bytes, List.reverse_reverse]

theorem swapOnBig_swapOnBig (e : Endian) (s : KState) : swapOnBig e (swapOnBig e s) = s := by
  cases e with
  | little => rfl
  | big =>
    show (s.map swapBytes).map swapBytes = s
    rw [Vector.map_map]
    apply Vector.ext
    intro i hi
    rw [Vector.getElem_map]
    exact swapBytes_swapBytes _

theorem xorWords_swap (ws : List (BitVec 64)) (j : Nat) (s : KState) :
    xorWords j (ws.map swapBytes) (s.map swapBytes) = (xorWords j ws s).map swapBytes := by
  induction ws generalizing j s with
  | nil => rfl
  | cons w ws ih =>
    rw [List.map_cons]
    unfold xorWords
    split
    · rename_i h
      rw [← ih]
      congr 1
      apply Vector.ext
      intro i hi
      simp only [Vector.getElem_map, Vector.getElem_set]
      split
      · rw [swapBytes_xor]
      · rfl
    · rfl

theorem toBytesOn_swap (e : Endian) (s : KState) : toBytesOn e (swapOnBig e s) = toBytes s := by
  cases e with
  | little => rfl
  | big =>
    show (s.map swapBytes).toList.flatMap (toNe .big) = s.toList.flatMap (toNe .little)
    rw [Vector.toList_map, List.flatMap_map]
    congr 1
    funext x
    exact toNe_big x

theorem fromBytesOn_swap (e : Endian) (bs : List UInt8) (h : bs.length = 200) : fromBytesOn e bs = swapOnBig e (fromBytes bs) := by
  cases e with
  | little => rfl
  | big =>
    apply Vector.ext
    intro i hi
    show (Vector.ofFn _)[i] = (Vector.map swapBytes (Vector.ofFn _))[i]
    rw [Vector.getElem_map, Vector.getElem_ofFn, Vector.getElem_ofFn, fromNe_big (by rw [List.length_take, List.length_drop, h]; omega)]
    rfl

theorem flatMap_piece (f : BitVec 64 → List UInt8) (hf : ∀ x, (f x).length = 8) (l : List (BitVec 64)) (i : Nat) (h : i < l.length) :
    ((l.flatMap f).drop (8 * i)).take 8 = f l[i] := by
  induction l generalizing i with
  | nil => cases h
  | cons x l ih =>
    rw [List.flatMap_cons]
    cases i with
    | zero => rw [Nat.mul_zero, List.drop_zero, List.take_append_of_le_length (by rw [hf]), List.take_of_length_le (by rw [hf])]; rfl
    | succ i =>
      rw [List.drop_append, List.drop_of_length_le (by rw [hf]; omega), hf, List.nil_append, show 8 * (i + 1) - 8 = 8 * i by omega,
        ih i (Nat.lt_of_succ_lt_succ h)]
      rfl

theorem fromBytes_toBytes (s : KState) : fromBytes (toBytes s) = s := by
  apply Vector.ext
  intro i hi
  unfold fromBytes
  rw [Vector.getElem_ofFn]
  apply word_inj
  have h := flatMap_piece (fun x => toLEk 8 x.toNat) (fun x => by simp) s.toList i (by simpa using hi)
  dsimp only
  rw [word_bytes (by unfold toBytes; rw [h]; simp)]
  unfold toBytes
  rw [h, Vector.getElem_toList]

theorem keccakfOn_swap (e : Endian) (s : KState) : keccakfOn e (swapOnBig e s) = swapOnBig e (keccakf s) := by
  unfold keccakfOn
  rw [swapOnBig_swapOnBig]

theorem absorbOn_swap (e : Endian) (blocks : List (List UInt8)) (s : KState) : absorbOn e blocks (swapOnBig e s) = swapOnBig e (absorb blocks s) := by
  induction blocks generalizing s with
  | nil => rfl
  | cons block blocks ih =>
    unfold absorbOn absorb
    dsimp only
    rw [← ih, ← keccakfOn_swap]
    congr 2
    cases e with
    | little => rfl
    | big =>
      show xorWords 0 _ (s.map swapBytes) = Vector.map swapBytes _
      rw [← xorWords_swap, List.map_map]
      congr 1
      apply List.map_congr_left
      intro b hb
      rw [chunksExact_eq] at hb
      exact fromNe_big (pieces_each hb)

theorem zero_swap (e : Endian) : (Vector.replicate 25 0 : KState) = swapOnBig e (Vector.replicate 25 0) := by
  cases e with
  | little => rfl
  | big =>
    show _ = Vector.map swapBytes _
    rw [Vector.map_replicate, swapBytes_zero]

theorem xorBlock_length {bs xs r : List UInt8} {d : UInt8} (h : (xorBlock bs xs d : Out ε _) = .ok r) : r.length = bs.length := by
  induction bs generalizing xs r with
  | nil => cases h
  | cons b bs ih =>
    cases xs with
    | nil => cases h; rfl
    | cons x xs =>
      unfold xorBlock at h
      cases e : (xorBlock bs xs d : Out ε _) with
      | ok r' =>
        rw [e, bind_ok] at h
        cases h
        rw [List.length_cons, List.length_cons, ih e]
      | err _ => rw [e] at h; cases h
      | panic => rw [e] at h; cases h
      | hang => rw [e] at h; cases h

theorem xorByte_length {bs r : List UInt8} {i : Nat} {x : UInt8} (h : (xorByte bs i x : Out ε _) = .ok r) : r.length = bs.length := by
  unfold xorByte at h
  split at h
  · cases h; simp
  · cases h

/-- `sha3_digest` on any target, in terms of `sha3_digest` on a little-endian one: the same bytes or the same panic, and a state of the same bytes. -/
theorem sha3DigestOn_eq (e : Endian) (m : Build) (msg : List UInt8) (s : KState) (out : Nat) (d : UInt8) :
    (sha3DigestOn e m msg s out d : Out ε _) = (do
      let (r, s) ← sha3Digest m msg s out d
      return (r, swapOnBig e s)) := by
  unfold sha3DigestOn sha3Digest
  dsimp only
  rw [show (Vector.replicate s.size 0 : KState) = Vector.replicate 25 0 from rfl]
  cases (dassert m ((200 - 2 * out) % 8 == 0) : Out ε _) with
  | err _ => rfl
  | panic => rfl
  | hang => rfl
  | ok _ =>
    simp only [bind_ok]
    rw [show absorbOn e (chunksExact (200 - 2 * out) msg) (Vector.replicate 25 0) =
        swapOnBig e (absorb (chunksExact (200 - 2 * out) msg) (Vector.replicate 25 0)) by rw [← absorbOn_swap, ← zero_swap], toBytesOn_swap]
    cases hb : (xorBlock (toBytes (absorb (chunksExact (200 - 2 * out) msg) (Vector.replicate 25 0))) (remainder (200 - 2 * out) msg) d : Out ε _) with
    | err _ => rfl
    | panic => rfl
    | hang => rfl
    | ok bs =>
      simp only [bind_ok]
      cases hx : (xorByte bs (200 - 2 * out - 1) 0x80 : Out ε _) with
      | err _ => rfl
      | panic => rfl
      | hang => rfl
      | ok bs' =>
        simp only [bind_ok]
        have hl : bs'.length = 200 := by rw [xorByte_length hx, xorBlock_length hb, toBytes_length]
        rw [fromBytesOn_swap e bs' hl, keccakfOn_swap, toBytesOn_swap]
        rfl

theorem hasherOn_eq (e : Endian) (m : Build) (block out : Nat) (d : UInt8) (s : KState) (msg : List UInt8) :
    ((hasherOn e block out d).digest m s msg : Out ε _) = (do
      let (r, s) ← (hasher block out d).digest m s msg
      return (r, swapOnBig e s)) := by
  show (do
    let (result, s) ← sha3DigestOn e m msg s out d
    dassert m (result.length == out)
    return (result, s) : Out ε _) = (do
      let (r, s) ← (do
        let (result, s) ← sha3Digest m msg s out d
        dassert m (result.length == out)
        return (result, s) : Out ε _)
      return (r, swapOnBig e s))
  rw [sha3DigestOn_eq]
  cases (sha3Digest m msg s out d : Out ε _) with
  | err _ => rfl
  | panic => rfl
  | hang => rfl
  | ok p =>
    simp only [bind_ok]
    show (do
      dassert m (p.1.length == out)
      return (p.1, swapOnBig e p.2) : Out ε _) = _
    cases (dassert m (p.1.length == out) : Out ε _) <;> rfl

theorem computesOn (e : Endian) {block out : Nat} {d : UInt8} {f : List UInt8 → List UInt8} {limit : Nat}
    (h : Computes (hasher block out d) f limit) : Computes (hasherOn e block out d) f limit := by
  refine ⟨fun ε m st msg hm => ?_, h.length⟩
  obtain ⟨st', e'⟩ := h.digest ε m st msg hm
  let t : KState := st'
  refine ⟨swapOnBig e t, (hasherOn_eq e m block out d st msg).trans ?_⟩
  exact congrArg (fun o : Out ε (List UInt8 × KState) => (do
    let (r, s) ← o
    return (r, swapOnBig e s) : Out ε (List UInt8 × KState))) e'

end LCT.Hash.Sha3
