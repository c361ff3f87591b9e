import Verif.Model.Random
import Verif.Model.RandomTests

/-!
# The tests of the random bytes of the operating system

`/repo/tests/random/os_random.rs`.  A failed assertion is a panic.
-/

namespace LCT.OsRandomTests
open LCT.Random LCT.RandomTests

/-- `/repo/tests/random/os_random.rs:9-13` `get_os_random_bytes_0`; `get` is `get_os_random_bytes` on one of the systems. -/
def testNone (get : Nat → Out RandomError (List UInt8)) : Out Unit Unit := do
  let bytes ← unwrapped (get 0)
  rassert (bytes.length == 0)

/-- `/repo/tests/random/os_random.rs:35-39` `test_get_os_random_bytes_with_len`, which the other tests call with 16, 256, 512 and 1000. -/
def testLength (get : Nat → Out RandomError (List UInt8)) (len : Nat) : Out Unit Unit := do
  let bytes ← unwrapped (get len)
  rassert (bytes.length == len)
  rassert (bytes != List.replicate len 0)

end LCT.OsRandomTests
