import Verif.Model.Crypto.Encoding
import Verif.Replay.Literals

/-!
# The crate's own tests of integers, modular arithmetic, curves and codecs, run on the model by the kernel

The assertions in the test modules of `/repo/src/bigint/`, `/repo/src/math/`, `/repo/src/crypto/codecs.rs`,
`/repo/src/crypto/elliptic_curve_params.rs` and `/repo/src/tools/bytes.rs`, except those on random input,
the one on all texts of two characters and the square root modulo a number of 119 bits, for both widths of a digit.
These are tests of the model, not proofs of properties.
-/

namespace LCT.Replay
open LCT.BigInt LCT.Modular LCT.Curve LCT.Crypto LCT.Codecs

private def yes {ε : Type} : Out ε Bool → Bool
  | .ok b => b
  | _ => false

private def panics {ε α : Type} : Out ε α → Bool
  | .panic => true
  | _ => false

/-- A test that passes in both builds, with every width of a digit. -/
private def passes (f : Build → Nat → Bool) : Bool := [8, 64].all fun w => f .debug w && f .release w

/-- A longer test, only with 64-bit digits in a debug build. -/
private def passesOnce (f : Build → Nat → Bool) : Bool := f .debug 64

/-- Tests with `#[should_panic]` for an assertion that only debug builds have. -/
private def panicsInDebug {α : Type} (f : Build → Nat → Out Unit α) : Bool := [8, 64].all fun w => panics (f .debug w)

private def top (w : Nat) : Nat := 2 ^ w - 1

private abbrev int (w : Nat) (i : Int) : Out Unit BInt := BInt.ofInt w i
private def hexInt (w : Nat) (s : List UInt8) : Out Unit BInt := (BInt.fromHex w s).mapErr fun _ => ()
private def hexIs (x : Out Unit BInt) (m : Build) (w : Nat) (s : List UInt8) : Bool := yes do
  let x ← x
  let t ← BInt.toLowerHex (ε := Unit) m w x
  return t == s
private def equal (m : Build) (x y : Out Unit BInt) : Bool := yes do BInt.beq m (← x) (← y)

/-! ## `bytes.rs:76-105`, `bits.rs:57-81` -/

example : passes fun m w =>
    [(0, 0), (1, 1), (top w, w / 8), (top w / 2, w / 8), (top w + 1, w / 8 + 1)].all fun (n, k) =>
      yes do return (← BInt.byteLen (ε := Unit) m w (← BInt.ofNat w n)) == k := by decide +kernel

example : passes fun m w =>
    [(0, 0), (1, 1), (top w, w), (top w / 2, w - 1), (top w + 1, w + 1)].all fun (n, k) =>
      yes do return (← BInt.bitLen (ε := Unit) m w (← BInt.ofNat w n)) == k := by decide +kernel

/-! ## `bigint_new.rs:151-274`, `bigint_into.rs:43-64`, `neg.rs:48-60`, `biguint.rs:141-154` -/

private def gx : List UInt8 := ascii! "79be667ef9dcbbac55a06295ce870b07029bfcdb2dce28d959f2815b16f81798"

example : passes fun m w =>
    [(ascii! "", ascii! "00"), (ascii! "00", ascii! "00"), (ascii! "79be66", ascii! "79be66"), (gx, gx), (ascii! "-00", ascii! "00"), (ascii! "-79be66", ascii! "-79be66"), (45 :: gx, 45 :: gx)].all fun (s, t) =>
      hexIs (hexInt w s) m w t := by decide +kernel

example : passes fun _ w =>
    [(ascii! "0", ParseIntError.CodecsError .NotByteAligned), (ascii! "79be661", .CodecsError .NotByteAligned), (ascii! "-0", .CodecsError .NotByteAligned),
      (ascii! "-0x79be66", .CodecsError .InvalidCharFound), (ascii! "-", .InvalidInput)].all fun (s, e) => BInt.fromHex w s == .err e := by decide +kernel

example : passes fun m w =>
    [ascii! "==791290", ascii! "ab791290", ascii! "-"].all fun s => BInt.fromStrRadix m w s 10 == .err .InvalidInput := by decide +kernel

example : panicsInDebug fun m w => (BInt.fromStrRadix m w (ascii! "123456") 1).mapErr fun _ => () := by decide +kernel
example : panicsInDebug fun m w => (BInt.fromStrRadix m w (ascii! "123456") 37).mapErr fun _ => () := by decide +kernel

example : passes fun m w =>
    [(0, ascii! "00"), (1, ascii! "01"), (-1, ascii! "-01"), (-128, ascii! "-80")].all fun (i, s) => hexIs (int w i) m w s := by decide +kernel
example : passes fun m w => [ascii! "", ascii! "-00", ascii! "+00"].all fun s => hexIs (hexInt w s) m w (ascii! "00") := by decide +kernel

example : passes fun m w => hexIs (do return (← int w 17).neg) m w (ascii! "-11") := by decide +kernel

example : passes fun m w =>
    equal m ((BUint.tryFromStr m w (ascii! "0x12ef")).mapErr fun _ => ()) ((BUint.tryFromStr m w (ascii! "4847")).mapErr fun _ => ()) := by
  decide +kernel

/-! ## `helper_methods.rs:46-66`, `add.rs:163-228`, `sub.rs:158-236`, `mul.rs:162-236`

Digits are written from the most significant to the least, as in the tests. -/

example : passes fun _ w =>
    carryingAdd w 5 2 false == (7, false) && carryingAdd w 5 2 true == (8, false) && carryingAdd w (top w) 1 false == (0, true) &&
    carryingAdd w (top w) 1 true == (1, true) := by decide +kernel

example : passes fun _ w =>
    borrowingSub w 5 2 false == (3, false) && borrowingSub w 5 2 true == (2, false) && borrowingSub w 0 1 false == (top w, true) &&
    borrowingSub w 0 1 true == (top w - 1, true) := by decide +kernel

/-- The result, its length, and zeros in the rest of the output. -/
private def digitsAre (r : Out Unit (List Nat × Nat)) (expected : List Nat) : Bool :=
  match r with
  | .ok (out, len) => len == expected.length && out == expected.reverse ++ List.replicate (out.length - len) 0
  | _ => false

example : passes fun m w =>
    [([1, 2, 3], [4, 5, 6], [5, 7, 9]), ([1, 2, 3], [4, 5, top w], [5, 8, 2]), ([1, top w, 3], [4, 5, top w], [6, 5, 2]),
      ([1, top w, 3], [top w, 5, top w], [1, 1, 5, 2])].all fun (a, b, c) =>
        digitsAre (addDigits m w a.reverse b.reverse (max a.length b.length + 1)) c := by decide +kernel

example : passes fun m w =>
    [([20, 10], [2, 1], [18, 9]), ([5, 3], [2, top w], [2, 4]), ([1, 0, 0, 0, 3], [top w], [top w, top w, top w, 4]),
      ([1, 1], [1, 1], [0]), ([0], [0], [0])].all fun (a, b, c) =>
        digitsAre (subDigits m w a.reverse b.reverse (max a.length b.length)) c := by decide +kernel

example : panicsInDebug fun m w => subDigits m w [3, 2, 1] [4, 2, 1] 3 := by decide +kernel

example : passes fun m w =>
    [([1, 2, 3], [4, 5, 6], [4, 13, 28, 27, 18]), ([1, 2, 3], [4, 5, top w], [4, 14, 23, 15, top w - 2]),
      ([1, top w, 3], [4, 5, top w], [8, 8, 4, 18, top w - 2]),
      ([1, top w, 3], [top w, 5, top w], [1, top w - 2, 15, top w - 10, 18, top w - 2]),
      ([1, 2, 3], [0], [0]), ([0], [1, 2, 3], [0]), ([0], [0], [0])].all fun (a, b, c) =>
        digitsAre (mulDigits m w a.reverse b.reverse (a.length + b.length)) c := by decide +kernel

private def pairs : List (Int × Int) :=
  [(0, 0), (2, 1), (1, 2), (1, 1), (-2, -1), (-1, -2), (-1, -1), (2, -1), (-2, 1), (1, -2), (-1, 2), (1, -1), (-1, 1)]

example : passes fun m w => pairs.all fun (a, b) => equal m (do BInt.add m w (← int w a) (← int w b)) (int w (a + b)) := by decide +kernel
example : passes fun m w => pairs.all fun (a, b) => equal m (do BInt.sub m w (← int w a) (← int w b)) (int w (a - b)) := by decide +kernel
example : passes fun m w => pairs.all fun (a, b) => equal m (do BInt.mul m w (← int w a) (← int w b)) (int w (a * b)) := by decide +kernel

/-! ## `cmp.rs:75-197`, `zero.rs:22-49`, `len.rs:22-50` -/

private def ordering (m : Build) (a b : List Nat) : Out Unit Ordering := cmpDigits m a.reverse b.reverse

example : passes fun m _ =>
    [([3, 2, 1], [3, 2, 1]), ([3, 2, 1, 0], [3, 2, 1, 0]), ([0], [0])].all fun (a, b) => ordering m a b == .ok .eq := by decide +kernel
example : passes fun m _ =>
    [([3, 2, 1], [3, 2, 2]), ([3, 2, 1], [1, 3, 2, 1]), ([0], [1])].all fun (a, b) => ordering m a b == .ok .lt := by decide +kernel
example : passes fun m _ =>
    [([3, 2, 2], [3, 2, 1]), ([1, 3, 2, 1], [3, 2, 1]), ([1, 1], [1, 0]), ([1], [0])].all fun (a, b) => ordering m a b == .ok .gt := by
  decide +kernel
example : panicsInDebug fun m _ => ordering m [0, 3] [2] := by decide +kernel

example : passes fun m w =>
    [((0 : Int), (0 : Int), true, true), (-1, 1, false, false), (1, -1, false, true), (1, 1, true, true), (-1, -1, true, true),
      (-1, 2, false, false), (1, 2, false, false), (2, 1, false, true)].all fun (a, b, eq, ge) => yes do
        let a ← int w a
        let b ← int w b
        return (← BInt.beq (ε := Unit) m a b) == eq && (← BInt.ge (ε := Unit) m a b) == ge := by decide +kernel

example : passes fun m _ => yes do
    let a : BInt := ⟨[0], 1, .positive⟩
    let b : BInt := ⟨[0], 1, .negative⟩
    return (← BInt.beq (ε := Unit) m a b) && !(← BInt.gt (ε := Unit) m a b) && !(← BInt.lt (ε := Unit) m a b) := by decide +kernel

example : passes fun m _ =>
    [([0], true), ([6], false), ([1, 0], false), ([1, 2, 3], false)].all fun (ds, z) =>
      isZeroDigits (ε := Unit) m ds.reverse == .ok z := by decide +kernel
example : panicsInDebug fun m _ => isZeroDigits m [0, 0] := by decide +kernel

example : [([3, 2, 1, 0, 0], 5), ([0, 0, 0, 3, 2, 1, 0], 4), ([0, 0, 0], 1)].all fun (ds, k) =>
    lenDigitsM (ε := Unit) ds.reverse == .ok k := by decide +kernel
example : lenDigitsM (ε := Unit) [] = .panic := by decide +kernel

/-! ## `divrem.rs:531-638`, `shift.rs:120-205`, `math.rs:31-64` -/

example : passes fun m w => panics (do BInt.div m w (← int w 123) (← int w 0)) := by decide +kernel

example : passes fun m w =>
    [(ascii! "54", ascii! "15"), (ascii! "4e432fBecBAF6B2EfE401dC31caC3C74b46cB1ACc826", ascii! "C7"), (ascii! "4e432fBecBAF6B2EfE401dC31caC3C74b46cB1ACc826", ascii! "D0F8C7ae"),
      (ascii! "00", ascii! "D0F8"), (ascii! "4e432fBe", ascii! "4e432fBe"), (ascii! "D0F8C7ae", ascii! "4e432fBecBAF6B2EfE401dC31caC3C74b46cB1ACc826"),
      (ascii! "DF9D8de0aDBCcC5effc99f39b8Cfe2Db8F4294dDf77B849ce548546d2fc4D3fEb6FdCe40ebBe2B8eAFcC01", ascii! "01eca5aE9Cc7")].all fun (a, b) =>
        equal m (do
          let a ← hexInt w a
          let b ← hexInt w b
          BInt.add m w (← BInt.mul m w (← BInt.div m w a b) b) (← BInt.rem m w a b)) (hexInt w a) := by decide +kernel

example : passes fun m w =>
    [((6 : Int), (1 : Int)), (1, 2), (1, 1), (-7, -2), (-1, -2), (-1, -1), (7, -2), (-7, 2), (2, -7), (-2, 7), (1, -1), (-1, 1)].all
      fun (a, b) => equal m (do BInt.div m w (← int w a) (← int w b)) (int w (a.tdiv b)) &&
        equal m (do BInt.rem m w (← int w a) (← int w b)) (int w (a.tmod b)) := by decide +kernel

private def a26 : List UInt8 := ascii! "c8f14181b339ccd9092ce946d7a4c7ebc3708632ca4714ec67fb"

private def shifts (m : Build) (w : Nat) (step : BInt → BInt → Out Unit (BInt × BInt)) : Nat → BInt → BInt → Out Unit BInt
  | 0, a, _ => return a
  | k + 1, a, b => do
    let (a, b) ← step a b
    rassert (yes (BInt.beq (ε := Unit) m a b))
    shifts m w step k a b

example : passesOnce fun m w => equal m (do BInt.shr m w (← hexInt w a26) 0) (hexInt w a26) && yes do
    let a ← hexInt w a26
    let two ← int w 2
    let a ← shifts m w (fun a b => do return (← BInt.shr m w a 1, ← BInt.div m w b two)) 208 a a
    return (← BInt.isZero (ε := Unit) m a) := by decide +kernel

example : passesOnce fun m w => equal m (do BInt.shl w (← hexInt w a26) 0) (hexInt w a26) && yes do
    let a ← hexInt w a26
    let two ← int w 2
    let _ ← shifts m w (fun a b => do return (← BInt.shl w a 1, ← BInt.mul m w b two)) 208 a a
    return true := by decide +kernel

example : passes fun _ w =>
    [((1 : Int), false), (2, true), (3, false), (4, true), (17, false)].all fun (n, even) => yes do
      return (← BInt.isEven (ε := Unit) (← int w n)) == even && (← BInt.isOdd (ε := Unit) (← int w n)) == !even := by decide +kernel

example : passes fun m w =>
    [0, 1, 2, w - 1, w, w + 1, 2 * w - 1, 2 * w, 2 * w + 1].all fun i => yes do
      return (← BInt.trailingZeros (ε := Unit) m w (← BInt.shl w (← int w 1) i)) == i := by decide +kernel

/-! ## `gcd.rs:643-909` -/

private def fuel : Nat := 1000

example : passes fun m w =>
    [((17 : Int), (1 : Int), (1 : Int)), (127, 45, 1), (693, 609, 21), (768454923, 542167814, 1)].all fun (a, b, v) => yes do
      let a ← int w a
      let b ← int w b
      let (x, y, d) ← BInt.gcd (ε := Unit) m w fuel a b
      return (← BInt.beq (ε := Unit) m d (← int w v)) &&
        (← BInt.beq m (← BInt.add m w (← BInt.mul m w x a) (← BInt.mul m w y b)) d) := by decide +kernel

example : panicsInDebug fun m w => (do BInt.gcd m w fuel (← int w 7) (← int w 17)) := by decide +kernel
example : panicsInDebug fun m w => (do BInt.gcd m w fuel (← int w 7) (← int w 7)) := by decide +kernel
example : panicsInDebug fun m w => (do BInt.gcd m w fuel (← int w 7) (← int w 0)) := by decide +kernel
example : panicsInDebug fun m w => (do BInt.gcd m w fuel (← int w 7) (← int w (-1))) := by decide +kernel
example : panicsInDebug fun m w => (do BInt.gcd m w fuel (← int w (-7)) (← int w (-17))) := by decide +kernel
example : panicsInDebug fun m w => gcdDigits m w fuel [7] [17] := by decide +kernel
example : panicsInDebug fun m w => gcdDigits m w fuel [7] [7] := by decide +kernel
example : panicsInDebug fun m w => gcdDigits m w fuel [7] [0] := by decide +kernel

/-! ## `/repo/src/math/modular.rs:155-220` -/

example : passes fun m w =>
    [((6 : Int), (1 : Int), (0 : Int)), (1, 2, 1), (-7, 2, 1), (-2, 7, 5), (-1, 1, 0)].all fun (a, b, c) =>
      equal m (do modulo m w (← int w a) (← int w b)) (int w c) := by decide +kernel

example : passes fun m w =>
    (List.range 29).all fun e =>
      equal m (do pow m w (← int w 3) (← int w e) (← BInt.ofNat w (2 ^ 64 - 1))) (BInt.ofNat w (3 ^ e)) := by decide +kernel

example : passes fun m w => equal m (do pow m w (← int w 78) (← int w 12) (← int w 123)) (int w 57) := by decide +kernel

example : passesOnce fun m w =>
    [((2 : Int), (113 : Int), (62 : Int), (51 : Int)), (5, 40961, 19424, 21537)].all fun (a, p, r1, r2) => yes do
      let p ← int w p
      match ← sqrt (ε := Unit) m w (← int w a) p with
      | none => return false
      | some (x, y) =>
        return (← BInt.beq (ε := Unit) m x (← int w r1)) && (← BInt.beq m y (← int w r2)) &&
          (← BInt.beq m (← modulo m w (← BInt.mul m w x x) p) (← int w a)) &&
          (← BInt.beq m (← modulo m w (← BInt.mul m w y y) p) (← int w a)) &&
          (← sqrt m w (← int w (a + 1)) p).isNone := by decide +kernel

/-! ## `/repo/src/math/elliptic_curve.rs:164-243`, `/repo/src/crypto/elliptic_curve_params.rs:95-165` -/

private def curve17 (w : Nat) : Out Unit Curve := do return ⟨← int w 2, ← int w 2, ← int w 17⟩
private def point (w : Nat) (x y : Int) : Out Unit Point := do return ⟨← int w x, ← int w y⟩

example : passesOnce fun m w =>
    [((1 : Int), (5 : Int), (1 : Int)), (2, 6, 3), (3, 10, 6), (4, 3, 1), (5, 9, 16), (6, 16, 13), (7, 0, 6), (8, 13, 7), (9, 7, 6),
      (10, 7, 11), (11, 13, 10), (12, 0, 11), (13, 16, 4), (14, 9, 1), (15, 3, 16), (16, 10, 11), (17, 6, 14), (18, 5, 16), (19, 0, 0),
      (20, 5, 1)].all fun (n, x, y) => yes do
        let c ← curve17 w
        let r ← mulPoint (ε := Unit) m w c (← point w 5 1) (← int w n)
        let expected ← point w x y
        let o ← mulPoint (ε := Unit) m w c expected (← int w 19)
        return (← Point.beq (ε := Unit) m r expected) && (← o.isIdentity (ε := Unit) m) := by decide +kernel

example : panicsInDebug fun m w => (do
    let p ← hexInt w (ascii! "fffffffffffffffffffffffffffffffffffffffffffffffffffffffefffffc2f")
    let one ← int w 1
    addPoints m w ⟨← int w 0, ← int w 7, p⟩ ⟨one, one⟩ ⟨← BInt.add m w p one, one⟩) := by decide +kernel

example : passes fun m w =>
    [((-1 : Int), (2 : Int), false), (1, -2, false), (21, 2, false), (2, 21, false), (17, 2, false), (2, 17, false), (1, 2, false),
      (0, 0, false), (10, 11, true)].all fun (x, y, ok) => [1, 2].all fun h => yes do
        let cp : Params := ⟨← curve17 w, ← point w 5 1, ← int w 19, h⟩
        return (← cp.validatePoint (ε := Unit) m w (← point w x y)) == ok := by decide +kernel

/-! ## `/repo/src/crypto/codecs.rs:158-244`, `/repo/src/tools/bytes.rs:23-49` -/

example : bytesToLowerHex [] = [] := by decide +kernel
example : hexToBytes (ascii! "") = .ok [] := by decide +kernel
example : hexToBytes (ascii! "d559b") = .err .NotByteAligned := by decide +kernel
example : hexToBytes (ascii! "d55G9b") = .err .InvalidCharFound := by decide +kernel

private def allBytes : List UInt8 := (List.range 256).map UInt8.ofNat
example : allBytes.all fun b => hexToBytes (bytesToLowerHex [b]) == .ok [b] := by decide +kernel
example : ([([0], []), ([0, 0], []), ([0, 0, 1], [1]), ([1], [1]), ([0, 1], [1]), ([0, 1, 1], [1, 1]), ([0, 0, 1, 1], [1, 1]),
    ([0, 0, 1, 1, 0], [1, 1, 0])] : List (List UInt8 × List UInt8)).all fun (a, b) => stripLeadingZeros a == b := by decide +kernel

end LCT.Replay
