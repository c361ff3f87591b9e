import Verif.Model.Hash.Sha2
import Verif.Spec.Sha2
import Verif.Spec.Hmac
import Verif.Lemmas.Bytes
import Verif.Lemmas.Yields

/-!
# Lemmas on SHA-2
-/

namespace LCT.Hash.Sha2
open LCT.Out LCT.Spec
open LCT.Spec.Sha2 hiding rounds
variable {ε : Type} {v n : Nat}

theorem octets_toBEk (k n : Nat) : octets k n = toBEk k n := by
  induction k generalizing n with
  | zero => rfl
  | succ k ih => simp only [octets, toBEk, ih]

/-! ## Cutting lists -/

theorem chunksExact_go {α : Type} (n q : Nat) (l : List α) : chunksExact.go n q l = (List.range q).map fun i => (l.drop (i * n)).take n := by
  induction q generalizing l with
  | zero => rfl
  | succ q ih =>
    rw [chunksExact.go, ih, List.range_succ_eq_map, List.map_cons, List.map_map]
    congr 1
    · simp
    · apply List.map_congr_left
      intro i _
      rw [List.drop_drop, Function.comp_apply, show n + i * n = i.succ * n by rw [Nat.succ_mul, Nat.add_comm]]

theorem chunksExact_eq {α : Type} (n : Nat) (l : List α) : chunksExact n l = pieces n l := chunksExact_go n _ l

theorem pieces_append {α : Type} {n : Nat} (hn : 0 < n) (l t : List α) : pieces n (l ++ t) = pieces n l ++ pieces n (remainder n l ++ t) := by
  unfold pieces remainder
  have hq : l.length / n * n ≤ l.length := Nat.div_mul_le_self _ _
  have hlen : (l ++ t).length / n = l.length / n + (l.drop (l.length / n * n) ++ t).length / n := by
    rw [List.length_append, List.length_append, List.length_drop]
    have h1 : l.length + t.length = (l.length - l.length / n * n + t.length) + l.length / n * n := by omega
    rw [h1, Nat.add_mul_div_right _ _ hn, Nat.add_comm]
  rw [hlen, List.range_add, List.map_append, List.map_map]
  congr 1
  · apply List.map_congr_left
    intro i hi
    rw [List.mem_range] at hi
    have h1 : i * n + n ≤ l.length / n * n := by
      rw [← Nat.succ_mul]
      exact Nat.mul_le_mul_right n hi
    rw [List.drop_append_of_le_length (by omega), List.take_append_of_le_length (by rw [List.length_drop]; omega)]
  · apply List.map_congr_left
    intro i _
    rw [Function.comp_apply, Nat.add_mul, ← List.drop_drop, List.drop_append_of_le_length hq]

theorem pieces_length {α : Type} (n : Nat) (l : List α) : (pieces n l).length = l.length / n := by
  unfold pieces; rw [List.length_map, List.length_range]

theorem pieces_each {α : Type} {n : Nat} {l b : List α} (h : b ∈ pieces n l) : b.length = n := by
  unfold pieces at h
  obtain ⟨i, hi, rfl⟩ := List.mem_map.mp h
  rw [List.mem_range] at hi
  have h1 : i * n + n ≤ l.length / n * n := by
    rw [← Nat.succ_mul]
    exact Nat.mul_le_mul_right n hi
  have hq : l.length / n * n ≤ l.length := Nat.div_mul_le_self _ _
  rw [List.length_take, List.length_drop]
  omega

/-! ## One block -/

/-- The line for round `i` in FIPS 180-4: the variables in the order that makes the shift of the variables unnecessary. -/
def lineOf (i k : Nat) : Line :=
  match i % 8 with
  | 0 => ⟨.a, .b, .c, .d, .e, .f, .g, .h, i, k⟩
  | 1 => ⟨.h, .a, .b, .c, .d, .e, .f, .g, i, k⟩
  | 2 => ⟨.g, .h, .a, .b, .c, .d, .e, .f, i, k⟩
  | 3 => ⟨.f, .g, .h, .a, .b, .c, .d, .e, i, k⟩
  | 4 => ⟨.e, .f, .g, .h, .a, .b, .c, .d, i, k⟩
  | 5 => ⟨.d, .e, .f, .g, .h, .a, .b, .c, i, k⟩
  | 6 => ⟨.c, .d, .e, .f, .g, .h, .a, .b, i, k⟩
  | _ => ⟨.b, .c, .d, .e, .f, .g, .h, .a, i, k⟩

/-- Where the working variables are before round `i`. -/
def regsAt (i : Nat) (x : Work v) : Regs v :=
  match i % 8 with
  | 0 => ⟨x.a, x.b, x.c, x.d, x.e, x.f, x.g, x.h⟩
  | 1 => ⟨x.b, x.c, x.d, x.e, x.f, x.g, x.h, x.a⟩
  | 2 => ⟨x.c, x.d, x.e, x.f, x.g, x.h, x.a, x.b⟩
  | 3 => ⟨x.d, x.e, x.f, x.g, x.h, x.a, x.b, x.c⟩
  | 4 => ⟨x.e, x.f, x.g, x.h, x.a, x.b, x.c, x.d⟩
  | 5 => ⟨x.f, x.g, x.h, x.a, x.b, x.c, x.d, x.e⟩
  | 6 => ⟨x.g, x.h, x.a, x.b, x.c, x.d, x.e, x.f⟩
  | _ => ⟨x.h, x.a, x.b, x.c, x.d, x.e, x.f, x.g⟩

/-- The code `C` has the parameters of the algorithm `A`. -/
structure Matches (C : Code v) (A : Variant v) : Prop where
  word : 0 < v / 8
  block : C.block = blockBytes v
  words : C.block = v / 8 * 16
  rounds : C.rounds = A.K.length
  rounds_ge : 16 ≤ C.rounds
  S0 : C.sigma0 = A.S0
  S1 : C.sigma1 = A.S1
  s0 : C.gamma0 = A.s0
  s1 : C.gamma1 = A.s1
  lines : C.lines = (List.range C.rounds).map fun i => lineOf i (A.K.getD i 0)

section
variable {C : Code v} {A : Variant v} (hM : Matches C A)

include hM in
theorem rnd_y (w : Vector (BitVec v) n) (i k : Nat) (x : Work v) (hi : i < n) :
    (rnd C w (lineOf i k) (regsAt i x) : Out ε _) = .ok (regsAt (i + 1) (round A (BitVec.ofNat v k) w[i] x)) := by
  have hr : i % 8 < 8 := Nat.mod_lt _ (by decide)
  have h1 : (i + 1) % 8 = (i % 8 + 1) % 8 := by omega
  have hl : (lineOf i k).i = i := by unfold lineOf; split <;> rfl
  unfold rnd
  rw [hl, Vector.getElem?_eq_getElem hi]
  simp only [unwrap_some, bind_ok, pure_def, hM.S0, hM.S1]
  unfold lineOf regsAt
  rw [h1]
  generalize i % 8 = r at hr
  match r, hr with
  | 0, _ | 1, _ | 2, _ | 3, _ | 4, _ | 5, _ | 6, _ | 7, _ => rfl

include hM in
theorem rnds_y (w : Vector (BitVec v) n) (W : Nat → BitVec v) (hW : ∀ t (h : t < n), w[t] = W t) (K : Nat → Nat) (q i : Nat) (hq : i + q ≤ n) (x : Work v) :
    (rnds C w ((List.range' i q).map fun t => lineOf t (K t)) (regsAt i x) : Out ε _) =
      .ok (regsAt (i + q) ((List.range' i q).foldl (fun x t => round A (BitVec.ofNat v (K t)) (W t) x) x)) := by
  induction q generalizing i x with
  | zero => rfl
  | succ q ih =>
    rw [List.range'_succ, List.map_cons, rnds, rnd_y hM w i (K i) x (by omega), bind_ok, ih (i + 1) (by omega), List.foldl_cons, hW i (by omega),
      show i + 1 + q = i + (q + 1) by omega]

theorem loadWords_get (j : Nat) (xs : List (BitVec v)) (w : Vector (BitVec v) n) (h16 : j + xs.length ≤ 16) (t : Nat) (ht : t < n) :
    (loadWords j xs w)[t] = if j ≤ t ∧ t < j + xs.length then xs.getD (t - j) 0 else w[t] := by
  induction xs generalizing j w with
  | nil => rw [if_neg (by simp)]; rfl
  | cons x xs ih =>
    rw [List.length_cons] at h16
    rw [loadWords, if_pos (by omega), ih (j + 1) _ (by omega), List.length_cons, Vector.getElem_setIfInBounds ht]
    by_cases h : t = j
    · subst h
      rw [if_neg (by omega), if_pos rfl, if_pos (by omega), Nat.sub_self]
      rfl
    · rw [if_neg (by omega : ¬ j = t)]
      by_cases h2 : j ≤ t ∧ t < j + (xs.length + 1)
      · rw [if_pos (by omega), if_pos h2, show t - j = (t - (j + 1)) + 1 by omega]
        rfl
      · rw [if_neg (by omega), if_neg h2]

theorem schedule_lt (M : List (BitVec v)) {t : Nat} (h : t < 16) : schedule A M t = M.getD t 0 := by
  rw [schedule, if_pos h]

theorem schedule_ge (M : List (BitVec v)) {t : Nat} (h : 16 ≤ t) :
    schedule A M t = A.s1 (schedule A M (t - 2)) + schedule A M (t - 7) + A.s0 (schedule A M (t - 15)) + schedule A M (t - 16) := by
  rw [schedule, if_neg (by omega)]

include hM in
theorem expand_y (M : List (BitVec v)) (q i : Nat) (h16 : 16 ≤ i) (hq : i + q = n) (w : Vector (BitVec v) n)
    (hw : ∀ t (h : t < n), t < i → w[t] = schedule A M t) :
    (expand C q i w : Out ε _).Yields (fun w' => ∀ t (h : t < n), w'[t] = schedule A M t) := by
  induction q generalizing i w with
  | zero => exact .ok fun t h => hw t h (by omega)
  | succ q ih =>
    rw [expand, Vector.getElem?_eq_getElem (by omega : i - 2 < n), Vector.getElem?_eq_getElem (by omega : i - 7 < n),
      Vector.getElem?_eq_getElem (by omega : i - 15 < n), Vector.getElem?_eq_getElem (by omega : i - 16 < n), decide_eq_true (by omega : i < n)]
    simp only [unwrap_some, bind_ok, rassert_true]
    refine ih (i + 1) (by omega) (by omega) _ fun t h ht => ?_
    rw [Vector.getElem_setIfInBounds h]
    by_cases e : i = t
    · subst e
      rw [if_pos rfl, schedule_ge M h16, hw _ _ (by omega), hw _ _ (by omega), hw _ _ (by omega), hw _ _ (by omega), hM.s0, hM.s1]
    · rw [if_neg e]
      exact hw t h (by omega)

/-- The state as a hash value. -/
def work (s : Vector (BitVec v) 8) : Work v := ⟨s[0], s[1], s[2], s[3], s[4], s[5], s[6], s[7]⟩

include hM in
theorem blockCompression_y (block : List UInt8) (hb : block.length = C.block) (hr : C.rounds % 8 = 0) (st : State C) :
    (blockCompression C block st : Out ε _).Yields (fun st' => work st'.s = compress A (work st.s) (wordsOf v block)) := by
  unfold blockCompression
  have hwords : ((chunksExact (v / 8) block).map fun bytes => BitVec.ofNat v (fromBE bytes)) = wordsOf v block := by
    rw [chunksExact_eq]; rfl
  have hlen : (wordsOf v block).length = 16 := by
    unfold wordsOf
    rw [List.length_map, pieces_length, hb, hM.words, Nat.mul_div_cancel_left _ hM.word]
  rw [hwords]
  have h16 := hM.rounds_ge
  run (expand_y hM (wordsOf v block) (C.rounds - 16) 16 (Nat.le_refl 16) (by omega) (loadWords 0 (wordsOf v block) st.w) (by
    intro t h ht
    rw [loadWords_get 0 _ _ (by omega), if_pos (by omega), schedule_lt _ ht, Nat.sub_zero])) with w hw
  have := rnds_y (ε := ε) hM w (schedule A (wordsOf v block)) hw (fun t => A.K.getD t 0) C.rounds 0 (by omega) (work st.s)
  rw [← List.range_eq_range', ← hM.lines] at this
  have h0 : regsAt 0 (work st.s) = ⟨st.s[0], st.s[1], st.s[2], st.s[3], st.s[4], st.s[5], st.s[6], st.s[7]⟩ := rfl
  rw [h0] at this
  simp only [this, bind_ok]
  refine .ok ?_
  have hz : (0 + C.rounds) % 8 = 0 := by omega
  unfold compress LCT.Spec.Sha2.rounds
  rw [← hM.rounds]
  generalize (List.range C.rounds).foldl _ (work st.s) = x
  unfold regsAt
  rw [hz]
  rfl

include hM in
theorem compressAll_y (hr : C.rounds % 8 = 0) (bs : List (List UInt8)) (hb : ∀ b ∈ bs, b.length = C.block) (st : State C) :
    (compressAll C bs st : Out ε _).Yields (fun st' => work st'.s = bs.foldl (fun H block => compress A H (wordsOf v block)) (work st.s)) := by
  induction bs generalizing st with
  | nil => exact .ok rfl
  | cons b bs ih =>
    rw [compressAll]
    run (blockCompression_y hM b (hb b List.mem_cons_self) hr st) with st' h'
    refine (ih (fun b' h => hb b' (List.mem_cons_of_mem _ h)) st').mono fun st'' h => ?_
    rw [h, h', List.foldl_cons]

/-- The numbers for the padding. -/
structure PadFacts (m : Build) (C : Code v) (len : Nat) : Prop where
  rest : ∀ {ε : Type}, ∃ k, (calculateK m (len * 8) (C.block * 8) C.lenBits : Out ε _) = .ok k ∧ 7 ≤ k ∧ (k - 7) / 8 = zeroBytes v len ∧
    (k - 7) % 8 = 0
  field : C.lengthField (len * 8) = octets (lengthBytes v) (8 * len)
  total : (len % C.block + 1 + zeroBytes v len + lengthBytes v = C.block) ∨ (len % C.block + 1 + zeroBytes v len + lengthBytes v = C.block * 2)

include hM in
theorem digestCore_y {m : Build} (hr : C.rounds % 8 = 0) (init : Vector (BitVec v) 8) (st : State C) (msg : List UInt8) (hlen : msg.length < 2 ^ 61)
    (hp : PadFacts m C msg.length) :
    (digestCore m C init st msg : Out ε _).Yields (fun st' => work st'.s = hashValue A (work init) msg) := by
  have hpos : 0 < C.block := by rw [hM.words]; have := hM.word; omega
  unfold digestCore
  rw [chunksExact_eq]
  run (compressAll_y hM hr (pieces C.block msg) (fun b hb => pieces_each hb) _) with st' h'
  rw [decide_eq_true (by omega : msg.length < 2 ^ 64), rassert_true, bind_ok]
  have hmul : (mulU64 m msg.length 8 : Out ε _) = .ok (msg.length * 8) := by unfold mulU64; rw [if_pos (by omega)]
  obtain ⟨k, hk, h7, hz, -⟩ := hp.rest (ε := ε)
  have hsub : (subU64 m k 7 : Out ε _) = .ok (k - 7) := by unfold subU64; rw [if_pos h7]
  rw [hmul, bind_ok, hk, bind_ok, hsub, bind_ok, hz, hp.field]
  have hlen' : (remainder C.block msg ++ [0x80] ++ List.replicate (zeroBytes v msg.length) 0 ++ octets (lengthBytes v) (8 * msg.length)).length =
      msg.length % C.block + 1 + zeroBytes v msg.length + lengthBytes v := by
    simp only [List.length_append, List.length_cons, List.length_nil, List.length_replicate, octets_toBEk, toBEk_length, remainder, List.length_drop]
    have := Nat.div_add_mod msg.length C.block
    rw [Nat.mul_comm] at this
    omega
  dsimp only
  rw [hlen']
  run (Yields.dassert (by
    rcases hp.total with h | h <;> rw [h] <;> simp)) with - -
  rw [chunksExact_eq]
  refine (compressAll_y hM hr _ (fun b hb => pieces_each hb) st').mono fun st'' h'' => ?_
  rw [h'', h', ← List.foldl_append]
  unfold hashValue padded
  rw [← hM.block, List.append_assoc, List.append_assoc, List.append_assoc, List.append_assoc, pieces_append hpos msg]

end

theorem toList_words (s : Vector (BitVec v) 8) : s.toList = (work s).words := by
  rcases s with ⟨⟨l⟩, h⟩
  match l, h with
  | [_, _, _, _, _, _, _, _], _ => rfl

theorem output_eq (ws : List (BitVec v)) : output ws = bytesOf ws := by
  unfold output bytesOf
  simp only [octets_toBEk]

theorem output_length (ws : List (BitVec v)) : (output ws).length = ws.length * (v / 8) := by
  unfold output
  induction ws with
  | nil => simp
  | cons x xs ih => rw [List.flatMap_cons, List.length_append, ih, toBEk_length, List.length_cons, Nat.succ_mul, Nat.add_comm]

/-! ## SHA-256 -/

theorem matches256 : Matches code256 A256 where
  word := by decide
  block := rfl
  words := rfl
  rounds := rfl
  rounds_ge := by decide
  S0 := rfl
  S1 := rfl
  s0 := rfl
  s1 := rfl
  lines := by decide +kernel

theorem pad256 (m : Build) {len : Nat} (h : len < 2 ^ 61) : PadFacts m code256 len where
  rest := by
    intro ε
    unfold calculateK subU64 zeroBytes blockBytes lengthBytes
    simp only [show code256.block = 64 from rfl, show code256.lenBits = 64 from rfl]
    rw [if_pos (by omega)]
    simp only [bind_ok, pure_def]
    by_cases hk : 2 * (64 * 8) - (len * 8 % (64 * 8) + 1 + 64) ≥ 64 * 8
    · rw [if_pos hk, if_pos (by omega)]
      exact ⟨_, rfl, by omega, by omega, by omega⟩
    · rw [if_neg hk]
      exact ⟨_, rfl, by omega, by omega, by omega⟩
  field := by rw [octets_toBEk, Nat.mul_comm]; rfl
  total := by
    simp only [show code256.block = 64 from rfl, zeroBytes, blockBytes, lengthBytes]
    omega

theorem digest256_y (m : Build) (st : Sha256.State) (msg : List UInt8) (h : msg.length < 2 ^ 61) :
    (Sha256.digest m st msg : Out ε _).Yields (fun r => r.1 = sha256 msg) := by
  show (Bind.bind (digestCore m code256 s256 st msg) _ : Out ε _).Yields _
  run (digestCore_y matches256 rfl s256 st msg h (pad256 m h)) with st' h'
  rw [toList_words, h']
  run (Yields.dassert (by rw [output_length]; rfl)) with - -
  exact .pure (output_eq _)

theorem computes256 : Computes Sha256 sha256 (2 ^ 61) where
  digest := by
    intro ε m st msg h
    obtain ⟨⟨r, st'⟩, e, rfl⟩ := digest256_y (ε := ε) m st msg h
    exact ⟨st', e⟩
  length msg := by
    unfold sha256
    rw [← output_eq, output_length]
    rfl

/-! ## SHA-384 and SHA-512 -/

theorem matches512 : Matches code512 A512 where
  word := by decide
  block := rfl
  words := rfl
  rounds := rfl
  rounds_ge := by decide
  S0 := rfl
  S1 := rfl
  s0 := rfl
  s1 := rfl
  lines := by decide +kernel

theorem toBEk_add (j k n : Nat) : toBEk (j + k) n = toBEk j (n / 256 ^ k) ++ toBEk k n := by
  induction k generalizing n with
  | zero => simp [toBEk]
  | succ k ih =>
    rw [← Nat.add_assoc, toBEk, toBEk, ih, Nat.div_div_eq_div_mul, List.append_assoc, Nat.pow_succ, Nat.mul_comm]

theorem pad512 (m : Build) {len : Nat} (h : len < 2 ^ 61) : PadFacts m code512 len where
  rest := by
    intro ε
    unfold calculateK subU64 zeroBytes blockBytes lengthBytes
    simp only [show code512.block = 128 from rfl, show code512.lenBits = 128 from rfl]
    rw [if_pos (by omega)]
    simp only [bind_ok, pure_def]
    by_cases hk : 2 * (128 * 8) - (len * 8 % (128 * 8) + 1 + 128) ≥ 128 * 8
    · rw [if_pos hk, if_pos (by omega)]
      exact ⟨_, rfl, by omega, by omega, by omega⟩
    · rw [if_neg hk]
      exact ⟨_, rfl, by omega, by omega, by omega⟩
  field := by
    rw [octets_toBEk, Nat.mul_comm]
    show toBEk 8 0 ++ toBEk 8 _ = toBEk (8 + 8) _
    rw [toBEk_add, Nat.div_eq_of_lt (by omega)]
  total := by
    simp only [show code512.block = 128 from rfl, zeroBytes, blockBytes, lengthBytes]
    omega

theorem digest512_y (m : Build) (st : Sha512.State) (msg : List UInt8) (h : msg.length < 2 ^ 61) :
    (Sha512.digest m st msg : Out ε _).Yields (fun r => r.1 = sha512 msg) := by
  show (Bind.bind (digestCore m code512 s512 st msg) _ : Out ε _).Yields _
  run (digestCore_y matches512 rfl s512 st msg h (pad512 m h)) with st' h'
  rw [toList_words, h']
  run (Yields.dassert (by rw [output_length]; rfl)) with - -
  exact .pure (output_eq _)

theorem computes512 : Computes Sha512 sha512 (2 ^ 61) where
  digest := by
    intro ε m st msg h
    obtain ⟨⟨r, st'⟩, e, rfl⟩ := digest512_y (ε := ε) m st msg h
    exact ⟨st', e⟩
  length msg := by
    unfold sha512
    rw [← output_eq, output_length]
    rfl

theorem digest384_y (m : Build) (st : Sha384.State) (msg : List UInt8) (h : msg.length < 2 ^ 61) :
    (Sha384.digest m st msg : Out ε _).Yields (fun r => r.1 = sha384 msg) := by
  show (Bind.bind (digestCore m code512 s384 st msg) _ : Out ε _).Yields _
  run (digestCore_y matches512 rfl s384 st msg h (pad512 m h)) with st' h'
  rw [toList_words, h']
  run (Yields.dassert (by rw [output_length]; rfl)) with - -
  exact .pure (output_eq _)

theorem computes384 : Computes Sha384 sha384 (2 ^ 61) where
  digest := by
    intro ε m st msg h
    obtain ⟨⟨r, st'⟩, e, rfl⟩ := digest384_y (ε := ε) m st msg h
    exact ⟨st', e⟩
  length msg := by
    unfold sha384
    rw [← output_eq, output_length]
    rfl

end LCT.Hash.Sha2
