import Verif.Spec.ConstTime
import Verif.Lemmas.Codecs

/-!
# What the hex codec lets an observer see
-/

namespace LCT.CT
open LCT.Spec LCT.Codecs

/-! ## The encoder -/

/-- The overflow tests of one digit. -/
def digitChecks : Build → List Event
  | .debug => [.check false, .check false, .check false]
  | .release => []

theorem digit_no_overflow : ∀ n : Fin 16,
    BitVec.saddOverflow 87#8 (BitVec.ofNat 8 n.val) = false ∧ BitVec.ssubOverflow (BitVec.ofNat 8 n.val) 10#8 = false ∧
    BitVec.saddOverflow (87#8 + BitVec.ofNat 8 n.val) ((BitVec.ofNat 8 n.val - 10#8).sshiftRight 7 &&& (-39#8)) = false := by decide

theorem eval_digit (m : Build) (st : State) (x : Var) (h : (st.env 8 x).toNat < 16) :
    eval m st (digit x) = (digitChecks m, some (nibbleToChar (st.env 8 x)).toBitVec) := by
  obtain ⟨h1, h2, h3⟩ := digit_no_overflow ⟨(st.env 8 x).toNat, h⟩
  simp only [BitVec.ofNat_toNat, BitVec.setWidth_eq] at h1 h2 h3
  cases m with
  | release => rfl
  | debug =>
    simp only [digit, eval, checked, both, one, Option.map, digitChecks]
    rw [show (87 : BitVec 8) = 87#8 from rfl, h1]
    simp only [Bool.false_eq_true, if_false]
    rw [show (10 : BitVec 8) = 10#8 from rfl, h2]
    simp only [Bool.false_eq_true, if_false]
    rw [show (-39 : BitVec 8) = -39#8 from rfl, h3]
    rfl

theorem run_push {ε : Type} (m : Build) (st : State) (e : Expr 8) {t : List Event} {v : BitVec 8} (h : eval m st e = (t, some v))
    (hc : st.out.length < st.cap) :
    run (ε := ε) m (.push e) st = (t ++ [.room true], .next { st with out := st.out ++ [⟨v⟩] }) := by
  simp only [run, h, if_pos hc]

theorem run_seq_next {ε : Type} (m : Build) (a b : Stmt ε) (st st' : State) (t : List Event) (h : run m a st = (t, .next st')) :
    run m (a ;; b) st = (t ++ (run m b st').1, (run m b st').2) := by
  simp only [run, h]

/-- What is seen of one round of the encoder. -/
def encodeSeen (m : Build) : List Event := digitChecks m ++ [.room true] ++ (digitChecks m ++ [.room true])

theorem eval_cast_self (m : Build) (st : State) (e : Expr 8) {t : List Event} {v : BitVec 8} (h : eval m st e = (t, some v)) :
    eval m st (.cast (w := 8) e) = (t, some v) := by
  simp [eval, one, h]

theorem nibbles (b : UInt8) : (b >>> 4).toBitVec.toNat < 16 ∧ (b &&& 0x0f).toBitVec.toNat < 16 ∧ b.toBitVec >>> 4 = (b >>> 4).toBitVec ∧
    b.toBitVec &&& 0x0f = (b &&& 0x0f).toBitVec := by
  have := all_uint8 (fun b => decide ((b >>> 4).toBitVec.toNat < 16 ∧ (b &&& 0x0f).toBitVec.toNat < 16 ∧ b.toBitVec >>> 4 = (b >>> 4).toBitVec ∧
    b.toBitVec &&& 0x0f = (b &&& 0x0f).toBitVec)) (by decide +kernel) b
  simpa using this

@[simp] theorem get_set (st : State) (w : Nat) (x : Var) (v : BitVec w) : (st.set w x v).env w x = v := by
  simp [State.set]

theorem get_set_ne (st : State) (w : Nat) (x y : Var) (v : BitVec w) (w' : Nat) (h : y ≠ x) : (st.set w x v).env w' y = st.env w' y := by
  simp [State.set, h]

theorem get_set_width (st : State) (w : Nat) (x y : Var) (v : BitVec w) (w' : Nat) (h : w' ≠ w) : (st.set w x v).env w' y = st.env w' y := by
  simp [State.set, h]

theorem encodeRound_run (m : Build) (st : State) (b : UInt8) (hc : st.out.length + 2 ≤ st.cap) :
    ∃ env, run m encodeRound (st.set 8 .byte b.toBitVec) =
      (encodeSeen m, .next { st with env := env, out := st.out ++ [nibbleToChar (b >>> 4).toBitVec, nibbleToChar (b &&& 0x0f).toBitVec] }) := by
  obtain ⟨h1, h2, e1, e2⟩ := nibbles b
  let st1 := (st.set 8 .byte b.toBitVec).set 8 .low_nibble (b &&& 0x0f).toBitVec
  let st2 := st1.set 8 .high_nibble (b >>> 4).toBitVec
  have r1 : run (ε := CodecsError) m (.assign 8 .low_nibble (.cast (.and (.var (w := 8) .byte) (.lit 0x0f)))) (st.set 8 .byte b.toBitVec) =
      ([], .next st1) := by
    simp only [run, eval, both, one, Option.map, get_set, BitVec.setWidth_eq, e2, List.append_nil, st1]
  have r2 : run (ε := CodecsError) m (.assign 8 .high_nibble (.cast (.shr (.var (w := 8) .byte) 4))) st1 = ([], .next st2) := by
    have : st1.env 8 .byte = b.toBitVec := by rw [get_set_ne _ _ _ _ _ _ (by decide), get_set]
    simp only [run, eval, one, Option.map, this, BitVec.setWidth_eq, e1, st2]
  have hh : st2.env 8 .high_nibble = (b >>> 4).toBitVec := get_set _ _ _ _
  have hl : st2.env 8 .low_nibble = (b &&& 0x0f).toBitVec := by
    rw [get_set_ne _ _ _ _ _ _ (by decide), get_set]
  have r3 := run_push (ε := CodecsError) m st2 (.cast (digit .high_nibble)) (eval_cast_self m st2 _ (eval_digit m st2 .high_nibble (by rw [hh]; exact h1)))
    (show st.out.length < st.cap by omega)
  have r4 := run_push (ε := CodecsError) m { st2 with out := st2.out ++ [⟨(nibbleToChar (st2.env 8 .high_nibble)).toBitVec⟩] } (.cast (digit .low_nibble))
    (eval_cast_self m _ _ (eval_digit m _ .low_nibble (by show (st2.env 8 .low_nibble).toNat < 16; rw [hl]; exact h2)))
    (show (st.out ++ [_]).length < st.cap by simp; omega)
  refine ⟨st2.env, ?_⟩
  rw [encodeRound, run_seq_next _ _ _ _ _ _ r1, run_seq_next _ _ _ _ _ _ r2, run_seq_next _ _ _ _ _ _ r3, r4]
  simp only [List.nil_append, encodeSeen, hh, hl]
  congr 2
  simp [st2, st1, State.set]

/-- What is seen of the encoder, and how it ends. -/
theorem encode_rounds (m : Build) (bs : List UInt8) : ∀ st : State, st.out.length + 2 * bs.length ≤ st.cap →
    ∃ env, rounds (fun b st => run m encodeRound (st.set 8 .byte b.toBitVec)) bs st =
      ((List.replicate bs.length (.loop true :: encodeSeen m)).flatten ++ [.loop false],
        .next { st with env := env, out := st.out ++ bytesToLowerHex bs }) := by
  induction bs with
  | nil => intro st _; exact ⟨st.env, by simp [rounds, bytesToLowerHex]⟩
  | cons b bs ih =>
    intro st hc
    simp only [List.length_cons] at hc
    obtain ⟨env, h⟩ := encodeRound_run m st b (by omega)
    obtain ⟨env', h'⟩ := ih { st with env := env, out := st.out ++ [nibbleToChar (b >>> 4).toBitVec, nibbleToChar (b &&& 0x0f).toBitVec] }
      (by simp; omega)
    refine ⟨env', ?_⟩
    simp only [rounds, h, h']
    simp [List.replicate_succ, bytesToLowerHex]

theorem encode_run (m : Build) (bs : List UInt8) :
    ∃ st, run m encodeProgram (start [] bs) =
        (.alloc (2 * bs.length) :: ((List.replicate bs.length (.loop true :: encodeSeen m)).flatten ++ [.loop false]), .next st) ∧
      st.out = bytesToLowerHex bs ∧ st.cap = 2 * bs.length := by
  obtain ⟨env, h⟩ := encode_rounds m bs { start [] bs with out := [], cap := (((start [] bs).mem .input).length * 2 / 1) }
    (by simp [start]; omega)
  refine ⟨{ env := env, mem := (start [] bs).mem, out := bytesToLowerHex bs, cap := 2 * bs.length }, ?_, rfl, rfl⟩
  · rw [encodeProgram, run_seq_next m _ _ _ _ _ rfl]
    have e : bs.length * 2 / 1 = 2 * bs.length := by omega
    simp only [run]
    rw [show (start [] bs).mem .input = bs from rfl] at h ⊢
    rw [h]
    simp [e]

/-! ## The decoder -/

/-- The value that `decodeChar` computes. -/
theorem decodeChar_run (m : Build) (st : State) (i : Nat) (hi : i < 2 ^ 64) (c : UInt8) (h : (st.mem .chunk)[i]? = some c) :
    match charToNibble c with
    | none => run m (decodeChar i) st = ([.check false, .addr i, .branch true], .fail .InvalidCharFound)
    | some v => ∃ env, run m (decodeChar i) st = ([.check false, .addr i, .branch false], .next { st with env := env }) ∧
        env 16 .c_val = v ∧ env 8 .c_acc = st.env 8 .c_acc := by
  have hi' : (BitVec.ofNat 64 i).toNat = i := by simp; omega
  have key : run (ε := CodecsError) m (.load .c .chunk (.lit (BitVec.ofNat 64 i))) st = ([.check false, .addr i], .next (st.set 8 .c c.toBitVec)) := by
    simp only [run, eval, hi', h]
    rfl
  rw [decodeChar, run_seq_next _ _ _ _ _ _ key]
  generalize hst : st.set 8 .c c.toBitVec = st0
  have hc : st0.env 8 .c = c.toBitVec := by rw [← hst, get_set]
  have hacc : st0.env 8 .c_acc = st.env 8 .c_acc := by rw [← hst, get_set_ne _ _ _ _ _ _ (by decide)]
  have hmem : st0.mem = st.mem := by rw [← hst]; rfl
  have hout : st0.out = st.out := by rw [← hst]; rfl
  have hcap : st0.cap = st.cap := by rw [← hst]; rfl
  have hbool : ∀ b : Bool, (BitVec.ofBool b = 1#1) = (b = true) := by decide
  simp only [run, eval, both, one, Option.map, get_set, get_set_ne, hc, ne_eq, reduceCtorEq, not_false_eq_true, List.append_nil, List.nil_append,
    hbool, BitVec.ofNat_eq_ofNat]
  cases hv : charToNibble c with
  | none =>
    simp only [charToNibble, BitVec.zeroExtend_eq_setWidth] at hv
    split at hv
    · rename_i hb
      rw [if_pos hb]
      rfl
    · cases hv
  | some v =>
    simp only [charToNibble, BitVec.zeroExtend_eq_setWidth] at hv
    split at hv
    · cases hv
    · rename_i hb
      cases hv
      rw [if_neg hb]
      refine ⟨_, Prod.ext rfl (congrArg Flow.next (State.ext rfl hmem hout hcap)), ?_, ?_⟩
      · simp only [get_set, get_set_ne, ne_eq, reduceCtorEq, not_false_eq_true]
      · simp only [get_set_ne, ne_eq, reduceCtorEq, not_false_eq_true, hacc]

/-- What is seen of the rounds over the characters of a text of even length. -/
def decodeSeen : List UInt8 → List Event
  | c1 :: c2 :: rest =>
    .loop true :: .check false :: .addr 0 ::
      if (hexVal c1).isSome then
        .branch false :: .check false :: .addr 1 :: if (hexVal c2).isSome then .branch false :: .room true :: decodeSeen rest else [.branch true]
      else [.branch true]
  | _ => [.loop false]

theorem chunks_two (c1 c2 : UInt8) (rest : List UInt8) :
    chunksExact 2 (c1 :: c2 :: rest).length (c1 :: c2 :: rest) = [c1, c2] :: chunksExact 2 (rest.length + 1) rest := by
  rw [List.length_cons, chunksExact, if_pos (by simp)]
  rfl

theorem chunks_fuel (n n' : Nat) : ∀ bs : List UInt8, bs.length ≤ 2 * n → bs.length ≤ 2 * n' → chunksExact 2 n bs = chunksExact 2 n' bs := by
  induction n generalizing n' with
  | zero =>
    intro bs h _
    have : bs = [] := by simpa using h
    subst this
    cases n' <;> rfl
  | succ n ih =>
    intro bs h h'
    cases n' with
    | zero =>
      have : bs = [] := by simpa using h'
      subst this
      rfl
    | succ n' =>
      simp only [chunksExact]
      rw [ih n' (bs.drop 2) (by simp; omega) (by simp; omega)]

theorem isSome_iff (c : UInt8) : (hexVal c).isSome = (charToNibble c).isSome := by
  rw [← charToNibble_eq, Option.isSome_map]

theorem decodeRound_run (m : Build) (st : State) (c1 c2 : UInt8) (hc : st.out.length < st.cap) :
    match charToNibble c1, charToNibble c2 with
    | none, _ => run m decodeRound (st.setMem .chunk [c1, c2]) = ([.check false, .addr 0, .branch true], .fail .InvalidCharFound)
    | some _, none => run m decodeRound (st.setMem .chunk [c1, c2]) =
        ([.check false, .addr 0, .branch false, .check false, .addr 1, .branch true], .fail .InvalidCharFound)
    | some v1, some v2 => ∃ env, run m decodeRound (st.setMem .chunk [c1, c2]) =
        ([.check false, .addr 0, .branch false, .check false, .addr 1, .branch false, .room true],
          .next { st.setMem .chunk [c1, c2] with env := env, out := st.out ++ [(⟨v1.truncate 8 <<< 4⟩ : UInt8) ||| ⟨v2.truncate 8⟩] }) := by
  have r1 := decodeChar_run m (st.setMem .chunk [c1, c2]) 0 (by decide) c1 rfl
  cases h1 : charToNibble c1 with
  | none =>
    rw [h1] at r1
    simp only at r1 ⊢
    rw [decodeRound, run, r1]
  | some v1 =>
    rw [h1] at r1
    obtain ⟨env1, r1, hv1, -⟩ := r1
    let st1 : State := { st.setMem .chunk [c1, c2] with env := env1 }
    let st2 : State := st1.set 8 .c_acc (v1.setWidth 8 <<< 4)
    have ra : run (ε := CodecsError) m (.assign 8 .c_acc (.shl (.cast (.var (w := 16) .c_val)) 4)) st1 = ([], .next st2) := by
      simp only [run, eval, one, Option.map, st2]
      rw [show st1.env 16 .c_val = v1 from hv1]
    have r2 := decodeChar_run m st2 1 (by decide) c2 rfl
    cases h2 : charToNibble c2 with
    | none =>
      rw [h2] at r2
      simp only at r2 ⊢
      rw [decodeRound, run_seq_next _ _ _ _ _ _ r1, run_seq_next _ _ _ _ _ _ ra, run, r2]
      rfl
    | some v2 =>
      rw [h2] at r2
      obtain ⟨env2, r2, hv2, ha2⟩ := r2
      let st3 : State := { st2 with env := env2 }
      let st4 : State := st3.set 8 .c_acc ((v1.setWidth 8 <<< 4) ||| v2.setWidth 8)
      have rb : run (ε := CodecsError) m (.assign 8 .c_acc (.or (.var .c_acc) (.cast (.var (w := 16) .c_val)))) st3 = ([], .next st4) := by
        simp only [run, eval, one, both, Option.map, st4, List.append_nil]
        rw [show st3.env 16 .c_val = v2 from hv2, show st3.env 8 .c_acc = _ from ha2, get_set]
      have rp := run_push (ε := CodecsError) m st4 (.var .c_acc) (t := []) (v := (v1.setWidth 8 <<< 4) ||| v2.setWidth 8)
        (by simp only [eval]; rw [get_set]) hc
      refine ⟨st4.env, ?_⟩
      rw [decodeRound, run_seq_next _ _ _ _ _ _ r1, run_seq_next _ _ _ _ _ _ ra, run_seq_next _ _ _ _ _ _ r2, run_seq_next _ _ _ _ _ _ rb, rp]
      rfl

/-- How the result of the rounds relates to the model of the loop. -/
def Ends (out : List UInt8) (r : Flow CodecsError) : Out CodecsError (List UInt8) → Prop
  | .ok bs => ∃ st, r = .next st ∧ st.out = out ++ bs
  | .err e => r = .fail e
  | _ => False

theorem decode_rounds (m : Build) (n : Nat) : ∀ (h : List UInt8), h.length = 2 * n → ∀ st : State, st.out.length + n ≤ st.cap →
    (rounds (fun ch st => run m decodeRound (st.setMem .chunk ch)) (chunksExact 2 h.length h) st).1 = decodeSeen h ∧
    Ends st.out (rounds (fun ch st => run m decodeRound (st.setMem .chunk ch)) (chunksExact 2 h.length h) st).2 (hexLoop h) := by
  induction n with
  | zero =>
    intro h hl st _
    have : h = [] := by simpa using hl
    subst this
    exact ⟨rfl, st, rfl, by simp⟩
  | succ n ih =>
    intro h hl st hc
    match h, hl with
    | c1 :: c2 :: rest, hl =>
      have hl : rest.length = 2 * n := by simp at hl; omega
      rw [chunks_two, chunks_fuel (rest.length + 1) rest.length rest (by omega) (by omega)]
      have hr := decodeRound_run m st c1 c2 (by omega)
      simp only [decodeSeen, isSome_iff, hexLoop, rounds]
      cases h1 : charToNibble c1 with
      | none =>
        rw [h1] at hr
        simp only at hr
        rw [hr]
        exact ⟨rfl, rfl⟩
      | some v1 =>
        rw [h1] at hr
        cases h2 : charToNibble c2 with
        | none =>
          rw [h2] at hr
          simp only at hr
          rw [hr]
          exact ⟨rfl, rfl⟩
        | some v2 =>
          rw [h2] at hr
          obtain ⟨env, hr⟩ := hr
          rw [hr]
          obtain ⟨i1, i2⟩ := ih rest hl { st.setMem .chunk [c1, c2] with env := env, out := st.out ++ [(⟨v1.truncate 8 <<< 4⟩ : UInt8) ||| ⟨v2.truncate 8⟩] }
            (by simp [State.setMem]; omega)
          refine ⟨?_, ?_⟩
          · show Event.loop true :: _ ++ _ = _
            rw [i1]
            rfl
          · simp only [Option.isSome]
            cases hx : hexLoop rest with
            | ok bs =>
              rw [hx] at i2
              obtain ⟨st', e, ho⟩ := i2
              exact ⟨st', e, by rw [ho]; simp⟩
            | err e => rw [hx] at i2; exact i2
            | panic => rw [hx] at i2; exact i2.elim
            | hang => rw [hx] at i2; exact i2.elim

/-- What is seen of the decoder. -/
def decodeAllSeen (h : List UInt8) : List Event :=
  if h.length % 2 = 0 then .branch true :: .alloc (h.length / 2) :: decodeSeen h else [.branch false]

theorem even_bit (n : Nat) (hn : n < 2 ^ 64) : (BitVec.ofBool ((BitVec.ofNat 64 n &&& 1#64) == 0#64) = 1#1) ↔ n % 2 = 0 := by
  have hbool : ∀ b : Bool, (BitVec.ofBool b = 1#1) ↔ (b = true) := by decide
  rw [hbool, beq_iff_eq, ← BitVec.toNat_inj, BitVec.toNat_and, BitVec.toNat_ofNat, BitVec.toNat_ofNat, Nat.mod_eq_of_lt hn]
  show n &&& 1 = 0 ↔ _
  rw [Nat.and_one_is_mod]

theorem decode_run (m : Build) (h : List UInt8) (hlen : h.length < 2 ^ 64) :
    seen m decodeProgram h = decodeAllSeen h ∧ result m decodeProgram h = hexToBytes h := by
  have hmem : (start [] h).mem .input = h := rfl
  by_cases he : h.length % 2 = 0
  · have r1 : run (ε := CodecsError) m (.ite (.isZero (.and (.len .input) (.lit 1))) .skip (.fail .NotByteAligned)) (start [] h) =
        ([.branch true], .next (start [] h)) := by
      simp only [run, eval, both, one, Option.map, hmem, BitVec.ofNat_eq_ofNat]
      rw [if_pos ((even_bit _ hlen).mpr he)]
      rfl
    obtain ⟨i1, i2⟩ := decode_rounds m (h.length / 2) h (by omega)
      { start [] h with out := [], cap := ((start [] h).mem .input).length * 1 / 2 } (by simp [hmem])
    rw [hmem] at i1 i2
    generalize hR : rounds (fun ch st => run m decodeRound (st.setMem .chunk ch)) (chunksExact 2 h.length h) _ = R at i1 i2
    have key : run m decodeProgram (start [] h) = (decodeAllSeen h, R.2) := by
      rw [decodeProgram, run_seq_next _ _ _ _ _ _ r1, run_seq_next m _ _ _ _ _ rfl]
      simp only [run, hmem]
      rw [hR, i1, decodeAllSeen, if_pos he, Nat.mul_one]
      rfl
    refine ⟨by rw [seen, key], ?_⟩
    rw [result, key]
    simp only [hexToBytes_eq, if_pos he]
    cases hx : hexLoop h with
    | ok bs =>
      rw [hx] at i2
      obtain ⟨st', e, ho⟩ := i2
      rw [e]
      simp [ho]
    | err e => rw [hx] at i2; simp only [Ends] at i2; rw [i2]
    | panic => rw [hx] at i2; exact i2.elim
    | hang => rw [hx] at i2; exact i2.elim
  · have r1 : run (ε := CodecsError) m (.ite (.isZero (.and (.len .input) (.lit 1))) .skip (.fail .NotByteAligned)) (start [] h) =
        ([.branch false], .fail .NotByteAligned) := by
      simp only [run, eval, both, one, Option.map, hmem, BitVec.ofNat_eq_ofNat]
      rw [if_neg (fun hh => he ((even_bit _ hlen).mp hh))]
      rfl
    have key : run m decodeProgram (start [] h) = ([.branch false], .fail .NotByteAligned) := by
      rw [decodeProgram, run, r1]
    rw [seen, result, key, decodeAllSeen, if_neg he, hexToBytes_eq, if_neg he]
    exact ⟨rfl, rfl⟩

/-! ## Who sees what -/

theorem decodeSeen_congr (n : Nat) : ∀ h h' : List UInt8, h.length = 2 * n → h'.length = 2 * n →
    (decodeSeen h = decodeSeen h' ↔ firstBad h = firstBad h') := by
  induction n with
  | zero =>
    intro h h' e e'
    have e : h = [] := by simpa using e
    have e' : h' = [] := by simpa using e'
    subst e; subst e'
    exact ⟨fun _ => rfl, fun _ => rfl⟩
  | succ n ih =>
    intro h h' e e'
    match h, h', e, e' with
    | c1 :: c2 :: rest, d1 :: d2 :: rest', e, e' =>
      have := ih rest rest' (by simp at e; omega) (by simp at e'; omega)
      simp only [decodeSeen, firstBad]
      cases (hexVal c1).isSome <;> cases (hexVal d1).isSome <;> cases (hexVal c2).isSome <;> cases (hexVal d2).isSome <;> simp [this]

/-! ## Encoders that are not constant time -/

theorem table_get : ∀ n : Fin 16, (lowerDigits)[n.val]? = some (hexDigit n.val) := by decide

theorem run_load {ε : Type} (m : Build) (st : State) (x : Var) (s : Mem) (i : Expr 64) {v : BitVec 64} {b : UInt8} (he : eval m st i = ([], some v))
    (hb : (st.mem s)[v.toNat]? = some b) :
    run (ε := ε) m (.load x s i) st = ([.check false, .addr v.toNat], .next (st.set 8 x b.toBitVec)) := by
  simp only [run, he, hb, List.nil_append]

theorem wide (b : UInt8) : ((b.toBitVec >>> 4).setWidth 64).toNat = b.toNat / 16 ∧ ((b.toBitVec &&& 0x0f).setWidth 64).toNat = b.toNat % 16 := by
  have := all_uint8 (fun b => decide (((b.toBitVec >>> 4).setWidth 64).toNat = b.toNat / 16 ∧ ((b.toBitVec &&& 0x0f).setWidth 64).toNat = b.toNat % 16))
    (by decide +kernel) b
  simpa using this

/-- The rounds of the table encoder. -/
theorem table_rounds (m : Build) (bs : List UInt8) :
    ∀ st : State, st.mem .table = lowerDigits → st.out.length + 2 * bs.length ≤ st.cap →
    ∃ env, rounds (fun b st => run m tableRound (st.set 8 .byte b.toBitVec)) bs st =
      (bs.flatMap (fun b => [.loop true, .check false, .addr (b.toNat / 16), .room true, .check false, .addr (b.toNat % 16), .room true]) ++ [.loop false],
        .next { st with env := env, out := st.out ++ hexOf bs }) := by
  induction bs with
  | nil => intro st _ _; exact ⟨st.env, by simp [rounds, hexOf]⟩
  | cons b bs ih =>
    intro st ht hc
    simp only [List.length_cons] at hc
    obtain ⟨w1, w2⟩ := wide b
    have hb := b.toNat_lt
    let st1 := st.set 8 .byte b.toBitVec
    let st2 := st1.set 8 .high_nibble (hexDigit (b.toNat / 16)).toBitVec
    let st3 : State := { st2 with out := st.out ++ [hexDigit (b.toNat / 16)] }
    let st4 := st3.set 8 .low_nibble (hexDigit (b.toNat % 16)).toBitVec
    let st5 : State := { st4 with out := st.out ++ [hexDigit (b.toNat / 16)] ++ [hexDigit (b.toNat % 16)] }
    have e1 : st1.env 8 .byte = b.toBitVec := get_set _ _ _ _
    have e3 : st3.env 8 .byte = b.toBitVec := (get_set_ne st1 8 .high_nibble .byte (hexDigit (b.toNat / 16)).toBitVec 8 (by decide)).trans e1
    have r1 := run_load (ε := CodecsError) m st1 .high_nibble .table (.cast (.shr (.var (w := 8) .byte) 4)) (v := (b.toBitVec >>> 4).setWidth 64)
      (b := hexDigit (b.toNat / 16)) (by simp only [eval, one, Option.map, e1]) (by
        show (st.mem .table)[_]? = _; rw [w1, ht]; exact table_get ⟨b.toNat / 16, by omega⟩)
    have r2 : run (ε := CodecsError) m (.push (.var .high_nibble)) st2 = ([.room true], .next st3) := run_push (ε := CodecsError) m st2 (.var .high_nibble) (t := []) (v := (hexDigit (b.toNat / 16)).toBitVec)
      (by simp only [eval]; rw [get_set]) (show st.out.length < st.cap by omega)
    have r3 := run_load (ε := CodecsError) m st3 .low_nibble .table (.cast (.and (.var (w := 8) .byte) (.lit 0x0f))) (v := (b.toBitVec &&& 0x0f).setWidth 64)
      (b := hexDigit (b.toNat % 16)) (by simp only [eval, one, both, Option.map, e3, List.append_nil]) (by
        show (st.mem .table)[_]? = _; rw [w2, ht]; exact table_get ⟨b.toNat % 16, by omega⟩)
    have r4 : run (ε := CodecsError) m (.push (.var .low_nibble)) st4 = ([.room true], .next st5) := run_push (ε := CodecsError) m st4 (.var .low_nibble) (t := []) (v := (hexDigit (b.toNat % 16)).toBitVec)
      (by simp only [eval]; rw [get_set]) (show (st.out ++ [_]).length < st.cap by simp; omega)
    obtain ⟨env', h'⟩ := ih st5 ht (show (st.out ++ [_] ++ [_]).length + _ ≤ st.cap by simp; omega)
    refine ⟨env', ?_⟩
    have key : run m tableRound (st.set 8 .byte b.toBitVec) = ([.check false, .addr (b.toNat / 16), .room true, .check false, .addr (b.toNat % 16),
        .room true], Flow.next st5) := by
      rw [tableRound]
      change run m _ st1 = _
      rw [w1] at r1
      rw [w2] at r3
      rw [run_seq_next _ _ _ _ _ _ r1, run_seq_next _ _ _ _ _ _ r2, run_seq_next _ _ _ _ _ _ r3, r4]
      rfl
    rw [rounds]
    simp only [key, h']
    refine Prod.ext ?_ (congrArg Flow.next (State.ext rfl rfl ?_ rfl))
    · simp
    · simp [st5, hexOf]

theorem table_run (m : Build) (bs : List UInt8) :
    seen m tableEncoder bs lowerDigits = .alloc (2 * bs.length) ::
      (bs.flatMap (fun b => [.loop true, .check false, .addr (b.toNat / 16), .room true, .check false, .addr (b.toNat % 16), .room true]) ++ [.loop false]) ∧
    result m tableEncoder bs lowerDigits = .ok (hexOf bs) := by
  obtain ⟨env, h⟩ := table_rounds m bs { start lowerDigits bs with out := [], cap := bs.length * 2 / 1 } rfl (by simp; omega)
  rw [seen, result, tableEncoder, run_seq_next m _ _ _ _ _ rfl, run]
  simp only [show (start lowerDigits bs).mem .input = bs from rfl]
  rw [h]
  simp [Nat.mul_comm]

theorem table_events_inj : ∀ bs bs' : List UInt8,
    (bs.flatMap (fun b => [Event.loop true, .check false, .addr (b.toNat / 16), .room true, .check false, .addr (b.toNat % 16), .room true]) ++ [.loop false]) =
    (bs'.flatMap (fun b => [Event.loop true, .check false, .addr (b.toNat / 16), .room true, .check false, .addr (b.toNat % 16), .room true]) ++ [.loop false]) →
    bs = bs' := by
  intro bs
  induction bs with
  | nil =>
    intro bs' h
    cases bs' with
    | nil => rfl
    | cons b bs' => simp at h
  | cons b bs ih =>
    intro bs' h
    cases bs' with
    | nil => simp at h
    | cons b' bs' =>
      simp only [List.flatMap_cons, List.append_assoc, List.cons_append, List.nil_append, List.cons.injEq, Event.addr.injEq, true_and] at h
      obtain ⟨h1, h2, h3⟩ := h
      rw [ih bs' h3, UInt8.toNat_inj.mp (show b.toNat = b'.toNat by omega)]

end LCT.CT
