import Verif.Model.Crypto.Params

/-!
# The shared curve constants

Models `/repo/src/crypto/secp256k1.rs` with its `static mut` variable and its `Once`, for any number of threads that call `secp256k1()` at any time.
One step of one thread is one access to shared memory; a schedule says which thread makes each step.  Simplification: memory is sequentially
consistent, which is what the documentation of `Once` promises for the writes made inside `call_once` (they happen before every return from
it).  A write of a whole structure is not atomic: it begins, and later ends.
-/

namespace LCT.Crypto.Statics

/-- `/repo/src/crypto/secp256k1.rs:12` `static mut SECP256K1: Option<EllipticCurveParams>`. -/
inductive Cell where
  /-- `None` -/
  | empty
  /-- a write has begun and not ended -/
  | torn
  /-- `Some(cp)` -/
  | full (cp : Params)

/-- `/repo/src/crypto/secp256k1.rs:13` `static INIT: Once` (standard library).  `poisoned`: the closure has panicked. -/
inductive OnceState where
  | incomplete
  | running
  | complete
  | poisoned

/-- Where a thread is in `/repo/src/crypto/secp256k1.rs:15-47`. -/
inductive Pc where
  /-- not in the function; its next step is the call of `call_once` (l.16) -/
  | idle
  /-- in the closure, before l.17 -/
  | closure
  /-- before l.42 -/
  | store (cp : Params)
  /-- in the middle of l.42 -/
  | storing (cp : Params)
  /-- at the end of the closure, l.43 -/
  | leave
  /-- before l.45 -/
  | load
  /-- it has panicked -/
  | dead
  /-- it has accessed the variable while another thread was writing to it -/
  | undefined

/-- The shared memory, the threads, the results of the calls that have returned (the latest first, with the thread that made the call), and
how often the closure has been entered. -/
structure Sys where
  once : OnceState
  cell : Cell
  pc : Nat → Pc
  returned : List (Nat × Params)
  entered : Nat

/-- The start of the program. -/
def Sys.start : Sys := ⟨.incomplete, .empty, fun _ => .idle, [], 0⟩

/-- The thread `t` goes to `p`. -/
def Sys.goto (σ : Sys) (t : Nat) (p : Pc) : Sys := { σ with pc := fun u => if u = t then p else σ.pc u }

/-- One step of the thread `t`: `/repo/src/crypto/secp256k1.rs:15-47`.  A thread that finds the closure running waits, which is a step that changes
nothing. -/
def step (w : Nat) (σ : Sys) (t : Nat) : Sys :=
  match σ.pc t with
  | .idle =>
    match σ.once with
    | .incomplete => { σ.goto t .closure with once := .running, entered := σ.entered + 1 }
    | .running => σ
    | .complete => σ.goto t .load
    | .poisoned => σ.goto t .dead
  | .closure =>
    match (secp256k1 w : Out Empty Params) with
    | .ok cp => σ.goto t (.store cp)
    | _ => { σ.goto t .dead with once := .poisoned }
  | .store cp =>
    match σ.cell with
    | .torn => σ.goto t .undefined
    | _ => { σ.goto t (.storing cp) with cell := .torn }
  | .storing cp => { σ.goto t .leave with cell := .full cp }
  | .leave => { σ.goto t .load with once := .complete }
  | .load =>
    match σ.cell with
    | .empty => σ.goto t .dead
    | .torn => σ.goto t .undefined
    | .full cp => { σ.goto t .idle with returned := (t, cp) :: σ.returned }
  | .dead => σ
  | .undefined => σ

/-- The state after a schedule. -/
def run (w : Nat) (sched : List Nat) : Sys := sched.foldl (step w) Sys.start

end LCT.Crypto.Statics
