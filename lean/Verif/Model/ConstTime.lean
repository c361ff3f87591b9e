import Verif.Model.Codecs

/-!
# What the hex codec lets an observer of time and memory accesses see

Models `/repo/src/crypto/codecs.rs:35-153` a second time, as programs of a small language whose meaning records, besides the result, everything that the
usual model of constant-time code takes to be observable: the outcome of every branch, of every test for overflow and of every test of a loop, the
index of every memory access, and the sizes of the allocations.  Arithmetic and bit operations on values leak nothing.
-/

namespace LCT.CT

/-- What an observer sees. -/
inductive Event where
  /-- The outcome of a branch of the program. -/
  | branch (taken : Bool)
  /-- The outcome of a test that the compiler adds: overflow in debug builds, bounds of an index in all builds. -/
  | check (failed : Bool)
  /-- The test of a loop: whether there is one more round. -/
  | loop (more : Bool)
  /-- The index of a memory access. -/
  | addr (i : Nat)
  /-- An allocation of `n` bytes. -/
  | alloc (n : Nat)
  /-- The test of `push`: whether the buffer has room; if it has not, the buffer moves. -/
  | room (there : Bool)
  deriving DecidableEq, Repr

/-- The local variables of `/repo/src/crypto/codecs.rs:35-153`. -/
inductive Var where
  | byte | low_nibble | high_nibble
  | c | c_num | c_num0 | c_alpha | c_alpha0 | c_val | c_acc
  deriving DecidableEq, Repr

/-- The slices that a program reads: the argument, the current chunk of a loop, and a constant table (which only the programs in
`Verif/Spec/ConstTime.lean` use). -/
inductive Mem where
  | input | chunk | table
  deriving DecidableEq, Repr

/-- Expressions of `w` bits.  `cast` is `as` between unsigned types, or between signed and unsigned types of the same size.  `add` and `sub` are `+`
and `-` on signed integers, which test for overflow in debug builds; `wsub` is `wrapping_sub`; `sar` is `>>` on signed and `shr` on unsigned
integers. -/
inductive Expr : Nat → Type where
  | lit {w : Nat} (v : BitVec w) : Expr w
  | var {w : Nat} (x : Var) : Expr w
  | len (s : Mem) : Expr 64
  | cast {v w : Nat} (a : Expr v) : Expr w
  | and {w : Nat} (a b : Expr w) : Expr w
  | or {w : Nat} (a b : Expr w) : Expr w
  | xor {w : Nat} (a b : Expr w) : Expr w
  | wsub {w : Nat} (a b : Expr w) : Expr w
  | add {w : Nat} (a b : Expr w) : Expr w
  | sub {w : Nat} (a b : Expr w) : Expr w
  | shl {w : Nat} (a : Expr w) (k : Nat) : Expr w
  | shr {w : Nat} (a : Expr w) (k : Nat) : Expr w
  | sar {w : Nat} (a : Expr w) (k : Nat) : Expr w
  | isZero {w : Nat} (a : Expr w) : Expr 1

/-- Statements; `ε` is the type of errors. -/
inductive Stmt (ε : Type) where
  | seq (a b : Stmt ε)
  | assign (w : Nat) (x : Var) (e : Expr w)
  /-- `let x = s[i]` for a slice of bytes. -/
  | load (x : Var) (s : Mem) (i : Expr 64)
  | ite (c : Expr 1) (a b : Stmt ε)
  | skip
  /-- `Vec::with_capacity(n * num / den)`, where `n` is the length of the argument. -/
  | withCapacity (num den : Nat)
  | push (e : Expr 8)
  /-- `for x in s`. -/
  | forBytes (x : Var) (s : Mem) (body : Stmt ε)
  /-- `for chunk in s.chunks_exact(k)`. -/
  | forChunks (k : Nat) (s : Mem) (body : Stmt ε)
  /-- `return Err(e)`. -/
  | fail (e : ε)

infixr:60 " ;; " => Stmt.seq

/-- The state: the variables (separately for every width), the slices, the buffer for the result and its capacity. -/
@[ext] structure State where
  env : (w : Nat) → Var → BitVec w
  mem : Mem → List UInt8
  out : List UInt8
  cap : Nat

/-- How a statement ends. -/
inductive Flow (ε : Type) where
  | next (st : State)
  | fail (e : ε)
  | panic

def State.set (st : State) (w : Nat) (x : Var) (v : BitVec w) : State :=
  { st with env := fun w' y => if h : w' = w ∧ y = x then h.1 ▸ v else st.env w' y }

def State.setMem (st : State) (s : Mem) (bs : List UInt8) : State :=
  { st with mem := fun s' => if s' = s then bs else st.mem s' }

/-- Evaluation of two operands and an operation that leaks nothing. -/
def both {w : Nat} (a b : List Event × Option (BitVec w)) (f : BitVec w → BitVec w → BitVec w) : List Event × Option (BitVec w) :=
  match a with
  | (ta, none) => (ta, none)
  | (ta, some va) =>
    match b with
    | (tb, none) => (ta ++ tb, none)
    | (tb, some vb) => (ta ++ tb, some (f va vb))

/-- The same for an operation that can overflow. -/
def checked {w : Nat} (m : Build) (a b : List Event × Option (BitVec w)) (f : BitVec w → BitVec w → BitVec w)
    (over : BitVec w → BitVec w → Bool) : List Event × Option (BitVec w) :=
  match a with
  | (ta, none) => (ta, none)
  | (ta, some va) =>
    match b with
    | (tb, none) => (ta ++ tb, none)
    | (tb, some vb) =>
      match m with
      | .release => (ta ++ tb, some (f va vb))
      | .debug => (ta ++ tb ++ [.check (over va vb)], if over va vb then none else some (f va vb))

def one {v w : Nat} (a : List Event × Option (BitVec v)) (f : BitVec v → BitVec w) : List Event × Option (BitVec w) :=
  (a.1, a.2.map f)

/-- Evaluation: what is seen, and the value (`none`: panic). -/
def eval (m : Build) (st : State) : {w : Nat} → Expr w → List Event × Option (BitVec w)
  | _, .lit v => ([], some v)
  | w, .var x => ([], some (st.env w x))
  | _, .len s => ([], some (BitVec.ofNat 64 (st.mem s).length))
  | w, .cast a => one (eval m st a) fun v => v.setWidth w
  | _, .and a b => both (eval m st a) (eval m st b) (· &&& ·)
  | _, .or a b => both (eval m st a) (eval m st b) (· ||| ·)
  | _, .xor a b => both (eval m st a) (eval m st b) (· ^^^ ·)
  | _, .wsub a b => both (eval m st a) (eval m st b) (· - ·)
  | _, .add a b => checked m (eval m st a) (eval m st b) (· + ·) BitVec.saddOverflow
  | _, .sub a b => checked m (eval m st a) (eval m st b) (· - ·) BitVec.ssubOverflow
  | _, .shl a k => one (eval m st a) (· <<< k)
  | _, .shr a k => one (eval m st a) (· >>> k)
  | _, .sar a k => one (eval m st a) fun v => v.sshiftRight k
  | _, .isZero a => one (eval m st a) fun v => BitVec.ofBool (v == 0#_)

/-- The rounds of a loop, over the list of what is left to visit. -/
def rounds {ε α : Type} (f : α → State → List Event × Flow ε) : List α → State → List Event × Flow ε
  | [], st => ([.loop false], .next st)
  | x :: xs, st =>
    match f x st with
    | (t, .next st') =>
      let (t', r) := rounds f xs st'
      (.loop true :: t ++ t', r)
    | (t, r) => (.loop true :: t, r)

/-- `chunks_exact(k)`: the complete chunks of `k` bytes. -/
def chunksExact (k : Nat) : Nat → List UInt8 → List (List UInt8)
  | 0, _ => []
  | n + 1, bs => if k ≤ bs.length then bs.take k :: chunksExact k n (bs.drop k) else []

/-- Execution: what is seen, and how the statement ends. -/
def run {ε : Type} (m : Build) : Stmt ε → State → List Event × Flow ε
  | .seq a b, st =>
    match run m a st with
    | (t, .next st') => let (t', r) := run m b st'; (t ++ t', r)
    | (t, r) => (t, r)
  | .assign w x e, st =>
    match eval m st e with
    | (t, some v) => (t, .next (st.set w x v))
    | (t, none) => (t, .panic)
  | .load x s i, st =>
    match eval m st i with
    | (t, some v) =>
      match (st.mem s)[v.toNat]? with
      | some b => (t ++ [.check false, .addr v.toNat], .next (st.set 8 x b.toBitVec))
      | none => (t ++ [.check true], .panic)
    | (t, none) => (t, .panic)
  | .ite c a b, st =>
    match eval m st c with
    | (t, some v) => if v = 1#1 then let (t', r) := run m a st; (t ++ .branch true :: t', r) else let (t', r) := run m b st; (t ++ .branch false :: t', r)
    | (t, none) => (t, .panic)
  | .skip, st => ([], .next st)
  | .withCapacity num den, st =>
    ([.alloc ((st.mem .input).length * num / den)], .next { st with out := [], cap := (st.mem .input).length * num / den })
  | .push e, st =>
    match eval m st e with
    | (t, some v) =>
      if st.out.length < st.cap then (t ++ [.room true], .next { st with out := st.out ++ [⟨v⟩] })
      else (t ++ [.room false, .alloc (2 * st.cap)], .next { st with out := st.out ++ [⟨v⟩], cap := 2 * st.cap })
    | (t, none) => (t, .panic)
  | .forBytes x s body, st => rounds (fun b st => run m body (st.set 8 x b.toBitVec)) (st.mem s) st
  | .forChunks k s body, st => rounds (fun ch st => run m body (st.setMem .chunk ch)) (chunksExact k (st.mem s).length (st.mem s)) st
  | .fail e, _ => ([], .fail e)

/-- The state in which a program starts: the values of the variables do not matter, none is read before it is set. -/
def start (table input : List UInt8) : State :=
  { env := fun _ _ => 0, mem := fun | .input => input | .chunk => [] | .table => table, out := [], cap := 0 }

/-- The result of a program: the buffer, or the error. -/
def result {ε : Type} (m : Build) (p : Stmt ε) (input : List UInt8) (table : List UInt8 := []) : Out ε (List UInt8) :=
  match (run m p (start table input)).2 with
  | .next st => .ok st.out
  | .fail e => .err e
  | .panic => .panic

/-- What an observer of a program sees. -/
def seen {ε : Type} (m : Build) (p : Stmt ε) (input : List UInt8) (table : List UInt8 := []) : List Event :=
  (run m p (start table input)).1

/-! ## The two programs -/

section
open Expr Stmt

/-- `/repo/src/crypto/codecs.rs:71-72`: `87 + nibble + (((nibble - 10) >> 7) & -39)`. -/
def digit (x : Var) : Expr 8 := add (add (lit 87) (var x)) (and (sar (sub (var x) (lit 10)) 7) (lit (-39)))

/-- `/repo/src/crypto/codecs.rs:40-72`: one round of the loop of `bytes_to_lower_hex`. -/
def encodeRound : Stmt Codecs.CodecsError :=
  assign 8 .low_nibble (cast (and (var (w := 8) .byte) (lit 0x0f))) ;;
  assign 8 .high_nibble (cast (shr (var (w := 8) .byte) 4)) ;;
  push (cast (digit .high_nibble)) ;;
  push (cast (digit .low_nibble))

/-- `/repo/src/crypto/codecs.rs:35-76` `bytes_to_lower_hex`. -/
def encodeProgram : Stmt Codecs.CodecsError :=
  withCapacity 2 1 ;;
  forBytes .byte .input encodeRound

/-- `/repo/src/crypto/codecs.rs:105-134` (and 138-145): the character `chunk[i]`, up to `c_val`. -/
def decodeChar (i : Nat) : Stmt Codecs.CodecsError :=
  load .c .chunk (lit (BitVec.ofNat 64 i)) ;;
  assign 16 .c (cast (var (w := 8) .c)) ;;
  assign 16 .c_num (xor (var .c) (lit 48)) ;;
  assign 16 .c_num0 (shr (wsub (var .c_num) (lit 10)) 8) ;;
  assign 16 .c_alpha (wsub (and (var .c) (lit (~~~32))) (lit 55)) ;;
  assign 16 .c_alpha0 (shr (xor (wsub (var .c_alpha) (lit 10)) (wsub (var .c_alpha) (lit 16))) 8) ;;
  ite (isZero (or (var (w := 16) .c_num0) (var .c_alpha0))) (fail .InvalidCharFound) skip ;;
  assign 16 .c_val (or (and (var .c_num0) (var .c_num)) (and (var .c_alpha0) (var .c_alpha)))

/-- `/repo/src/crypto/codecs.rs:105-149`: one round of the loop of `hex_to_bytes`. -/
def decodeRound : Stmt Codecs.CodecsError :=
  decodeChar 0 ;;
  assign 8 .c_acc (shl (cast (var (w := 16) .c_val)) 4) ;;
  decodeChar 1 ;;
  assign 8 .c_acc (or (var .c_acc) (cast (var (w := 16) .c_val))) ;;
  push (var .c_acc)

/-- `/repo/src/crypto/codecs.rs:96-153` `hex_to_bytes`. -/
def decodeProgram : Stmt Codecs.CodecsError :=
  ite (isZero (and (len .input) (lit 1))) skip (fail .NotByteAligned) ;;
  withCapacity 1 2 ;;
  forChunks 2 .input decodeRound

end

end LCT.CT
