import Verif.Basic

/-!
# Random bytes from the operating system

Models `/repo/src/random/{linux,apple,windows}.rs` and the wrappers in `/repo/src/os/{linux,apple,windows,errno}.rs`.
The system calls are modelled by arbitrary replies.  Not modelled: the choice of the platform by `cfg`, raw pointers.
-/

namespace LCT.Random

/-- `/repo/src/random/error.rs:12-18` `GetOsRandomBytesError`.  The status types are those of `/repo/src/os/mod.rs:12-20`. -/
inductive RandomError where
  | AppleSecRandom (status : Int)
  | LinuxGetRandom (errno : Int)
  | LinuxGetRandomCopiedNumberLessThanRequested
  | WindowsBCryptGenRandom (status : UInt32)
  deriving Repr, DecidableEq

/-- Copies `data` over the start of a buffer; what does not fit is dropped. -/
def overwrite (buf data : List UInt8) : List UInt8 := data.take buf.length ++ buf.drop data.length

/-- What one call of `getrandom(2)` does: the returned number, the bytes it wrote at the start of the buffer, and the value of
`errno` afterwards. -/
structure LinuxReply where
  ret : Int
  written : List UInt8
  errno : Int

/-- The kernel: the reply to the `i`-th call, which asks for the given number of bytes. -/
abbrev Linux := Nat → Nat → LinuxReply

/-- `/repo/src/os/linux.rs:41-61` `getrandom` (with `errno.rs:12-16`): the number of bytes copied or the error number, and the buffer
afterwards. -/
def getrandom (r : LinuxReply) (dest : List UInt8) : Except Int Int × List UInt8 :=
  (if r.ret = -1 then .error r.errno else .ok r.ret, overwrite dest r.written)

/-- The loop `/repo/src/random/linux.rs:19-30` over the chunks of the buffer.  `i` counts the calls; the chunks handled so far are in
`done`. -/
def linuxLoop (os : Linux) : Nat → List UInt8 → List (List UInt8) → Out RandomError (List UInt8)
  | _, done, [] => .ok done
  | i, done, chunk :: rest =>
    match getrandom (os i chunk.length) chunk with
    | (.ok n, chunk') =>
      if n < 0 then .panic
      else if n.toNat ≠ chunk'.length then .err .LinuxGetRandomCopiedNumberLessThanRequested
      else linuxLoop os (i + 1) (done ++ chunk') rest
    | (.error e, _) => .err (.LinuxGetRandom e)

/-- `chunks_mut(k)`: consecutive pieces of length `k`, the last one possibly shorter.  `f` bounds the number of pieces. -/
def chunks (k : Nat) : Nat → List UInt8 → List (List UInt8)
  | 0, _ => []
  | f + 1, l => if l = [] then [] else l.take k :: chunks k f (l.drop k)

/-- `/repo/src/random/linux.rs:5-33` `get_os_random_bytes_impl`. -/
def getRandomLinux (os : Linux) (len : Nat) : Out RandomError (List UInt8) :=
  linuxLoop os 0 [] (chunks 256 len (List.replicate len 0))

/-- `/repo/src/random/apple.rs:14-23` (with `/repo/src/os/apple.rs:42-50`): the call's status and what it wrote. -/
def getRandomApple (reply : Nat → Int × List UInt8) (len : Nat) : Out RandomError (List UInt8) :=
  let (ret, written) := reply len
  if ret = 0 then .ok (overwrite (List.replicate len 0) written) else .err (.AppleSecRandom ret)

/-- `/repo/src/random/windows.rs:13-25` (with `/repo/src/os/windows.rs:48-62`). -/
def getRandomWindows (reply : Nat → UInt32 × List UInt8) (len : Nat) : Out RandomError (List UInt8) :=
  let (status, written) := reply len
  if status >>> 30 = 3 then .err (.WindowsBCryptGenRandom status) else .ok (overwrite (List.replicate len 0) written)

end LCT.Random
