import Verif.Spec.Numerals
import Verif.Spec.Bytes
import Verif.Model.BigInt.DivRem
import Mathlib.Data.Int.Init

/-!
# Programs that use `BigInt` (specification)

A program is a client that makes one call after another, on numbers that earlier calls returned; what it calls next may depend on everything it
has seen so far.  It sees what calls return, except numbers: it looks at these with further calls.
-/

namespace LCT.Spec
open LCT.BigInt

/-- A call.  Numbers are named by their position among the numbers returned so far. -/
inductive Request where
  | unsigned (n : Nat)
  | signed (i : Int)
  | zero
  | one
  | hex (text : List UInt8)
  | radix (text : List UInt8) (r : Nat)
  | add (i j : Nat)
  | sub (i j : Nat)
  | mul (i j : Nat)
  | div (i j : Nat)
  | rem (i j : Nat)
  | neg (i : Nat)
  | shl (i n : Nat)
  | shr (i n : Nat)
  | equal (i j : Nat)
  | order (i j : Nat)
  | isZero (i : Nat)
  | bitLen (i : Nat)
  | lowerHex (i : Nat)
  | display (i : Nat)

/-- What a client sees of the outcome of a call. -/
inductive Reply where
  | number
  | rejected (e : ParseIntError)
  | truth (b : Bool)
  | order (o : Ordering)
  | count (n : Nat)
  | text (t : List UInt8)
  deriving DecidableEq

/-- A client decides on the next call from the replies so far. -/
abbrev Client := List Reply → Request

/-- The text without its sign (43 is `+`, 45 is `-`). -/
def signless : List UInt8 → List UInt8
  | [] => []
  | c :: cs => if c = 45 ∨ c = 43 then cs else c :: cs

/-- Why a text is not a hex numeral. -/
def hexError (t : List UInt8) : ParseIntError :=
  if signless t = [] then .InvalidInput
  else if (signless t).length % 2 = 1 then .CodecsError .NotByteAligned else .CodecsError .InvalidCharFound

/-- The integers answer a call: with a reply and the numbers known from then on, or, for divisions by zero, with a panic (`none`).  Calls that
are not mentioned have no answer: those that name numbers that do not exist, those that cannot be written in Rust because the argument does not
fit the type, radixes other than 2 to 36, left shifts of zero by 8 bits or more, and texts with a digit equal to the radix. -/
inductive Ideal (s : List Int) : Request → Option (Reply × List Int) → Prop where
  | unsigned {n : Nat} : n < 2 ^ 128 → Ideal s (.unsigned n) (some (.number, s ++ [(n : Int)]))
  | signed {i : Int} : -2 ^ 127 ≤ i → i < 2 ^ 127 → Ideal s (.signed i) (some (.number, s ++ [i]))
  | zero : Ideal s .zero (some (.number, s ++ [0]))
  | one : Ideal s .one (some (.number, s ++ [1]))
  | hexEmpty : Ideal s (.hex []) (some (.number, s ++ [0]))
  | hex {t z} : HexNumeral t z → Ideal s (.hex t) (some (.number, s ++ [z]))
  | hexRejected {t} : t ≠ [] → (∀ z, ¬ HexNumeral t z) → Ideal s (.hex t) (some (.rejected (hexError t), s))
  | radixEmpty {r} : 2 ≤ r → r ≤ 36 → Ideal s (.radix [] r) (some (.number, s ++ [0]))
  | radix {t r z} : 2 ≤ r → r ≤ 36 → SignedNumeral r r t z → Ideal s (.radix t r) (some (.number, s ++ [z]))
  | radixRejected {t r} : 2 ≤ r → r ≤ 36 → t ≠ [] → (∀ z, ¬ SignedNumeral r (r + 1) t z) →
    Ideal s (.radix t r) (some (.rejected .InvalidInput, s))
  | add {i j a b} : s[i]? = some a → s[j]? = some b → Ideal s (.add i j) (some (.number, s ++ [a + b]))
  | sub {i j a b} : s[i]? = some a → s[j]? = some b → Ideal s (.sub i j) (some (.number, s ++ [a - b]))
  | mul {i j a b} : s[i]? = some a → s[j]? = some b → Ideal s (.mul i j) (some (.number, s ++ [a * b]))
  | div {i j a b} : s[i]? = some a → s[j]? = some b → b ≠ 0 → Ideal s (.div i j) (some (.number, s ++ [a.tdiv b]))
  | divZero {i j a} : s[i]? = some a → s[j]? = some 0 → Ideal s (.div i j) none
  | rem {i j a b} : s[i]? = some a → s[j]? = some b → b ≠ 0 → Ideal s (.rem i j) (some (.number, s ++ [a.tmod b]))
  | remZero {i j a} : s[i]? = some a → s[j]? = some 0 → Ideal s (.rem i j) none
  | neg {i a} : s[i]? = some a → Ideal s (.neg i) (some (.number, s ++ [-a]))
  | shl {i n a} : s[i]? = some a → a ≠ 0 ∨ n < 8 → Ideal s (.shl i n) (some (.number, s ++ [a * 2 ^ n]))
  | shr {i n a} : s[i]? = some a → Ideal s (.shr i n) (some (.number, s ++ [a.tdiv (2 ^ n)]))
  | equal {i j a b} : s[i]? = some a → s[j]? = some b → Ideal s (.equal i j) (some (.truth (decide (a = b)), s))
  | order {i j a b} : s[i]? = some a → s[j]? = some b → Ideal s (.order i j) (some (.order (compare a b), s))
  | isZero {i a} : s[i]? = some a → Ideal s (.isZero i) (some (.truth (decide (a = 0)), s))
  | bitLen {i a} : s[i]? = some a → Ideal s (.bitLen i) (some (.count (bitLength a.natAbs), s))
  | lowerHex {i a} : s[i]? = some a → Ideal s (.lowerHex i) (some (.text (hexText a), s))
  | display {i a} : s[i]? = some a → Ideal s (.display i) (some (.text ([48, 120] ++ hexText a), s))

/-- The client talks to the integers: after these replies it has these numbers. -/
inductive IdealRun (c : Client) : List Reply → List Int → Prop where
  | start : IdealRun c [] []
  | call {rs s r s'} : IdealRun c rs s → Ideal s (c rs) (some (r, s')) → IdealRun c (rs ++ [r]) s'

/-- The client can be written in Rust at this point: the numbers it names exist, its arguments fit their types, and radixes are allowed. -/
def Request.WellFormed (count : Nat) : Request → Prop
  | .unsigned n => n < 2 ^ 128
  | .signed i => -2 ^ 127 ≤ i ∧ i < 2 ^ 127
  | .zero | .one | .hex _ => True
  | .radix _ r => 2 ≤ r ∧ r ≤ 36
  | .add i j | .sub i j | .mul i j | .div i j | .rem i j | .equal i j | .order i j => i < count ∧ j < count
  | .neg i | .shl i _ | .shr i _ | .isZero i | .bitLen i | .lowerHex i | .display i => i < count

/-- The two calls on which the library is known to deviate (C04, C08). -/
def Request.Deviates (s : List Int) : Request → Prop
  | .shl i n => s[i]? = some 0 ∧ 8 ≤ n
  | .radix t r => (∃ z, SignedNumeral r (r + 1) t z) ∧ ∀ z, ¬ SignedNumeral r r t z
  | _ => False

/-! ## The same client with the library -/

/-- A call that returns a number. -/
def numberReply (xs : List BInt) (x : Out Unit BInt) : Out Unit (Reply × List BInt) := do
  let x ← x
  return (.number, xs ++ [x])

/-- A call that parses. -/
def parseReply (xs : List BInt) : Out ParseIntError BInt → Out Unit (Reply × List BInt)
  | .ok x => .ok (.number, xs ++ [x])
  | .err e => .ok (.rejected e, xs)
  | .panic => .panic
  | .hang => .hang

/-- The library answers a call.  Calls that name numbers that do not exist are counted as panics. -/
def answer (m : Build) (w : Nat) (xs : List BInt) : Request → Out Unit (Reply × List BInt)
  | .unsigned n => numberReply xs (BInt.ofNat w n)
  | .signed i => numberReply xs (BInt.ofInt w i)
  | .zero => numberReply xs (BInt.zero w)
  | .one => numberReply xs (BInt.one w)
  | .hex t => parseReply xs (BInt.fromHex w t)
  | .radix t r => parseReply xs (BInt.fromStrRadix m w t r)
  | .add i j => do numberReply xs (BInt.add m w (← unwrap xs[i]?) (← unwrap xs[j]?))
  | .sub i j => do numberReply xs (BInt.sub m w (← unwrap xs[i]?) (← unwrap xs[j]?))
  | .mul i j => do numberReply xs (BInt.mul m w (← unwrap xs[i]?) (← unwrap xs[j]?))
  | .div i j => do numberReply xs (BInt.div m w (← unwrap xs[i]?) (← unwrap xs[j]?))
  | .rem i j => do numberReply xs (BInt.rem m w (← unwrap xs[i]?) (← unwrap xs[j]?))
  | .neg i => do numberReply xs (.ok (← unwrap xs[i]?).neg)
  | .shl i n => do numberReply xs (BInt.shl w (← unwrap xs[i]?) n)
  | .shr i n => do numberReply xs (BInt.shr m w (← unwrap xs[i]?) n)
  | .equal i j => do return (.truth (← BInt.beq m (← unwrap xs[i]?) (← unwrap xs[j]?)), xs)
  | .order i j => do return (.order (← BInt.cmp m (← unwrap xs[i]?) (← unwrap xs[j]?)), xs)
  | .isZero i => do return (.truth (← BInt.isZero m (← unwrap xs[i]?)), xs)
  | .bitLen i => do return (.count (← BInt.bitLen m w (← unwrap xs[i]?)), xs)
  | .lowerHex i => do return (.text (← BInt.toLowerHex m w (← unwrap xs[i]?)), xs)
  | .display i => do return (.text (← BInt.display m w (← unwrap xs[i]?)), xs)

/-- The first `n` calls of the client: the replies and the numbers it has. -/
def session (m : Build) (w : Nat) (c : Client) : Nat → Out Unit (List Reply × List BInt)
  | 0 => .ok ([], [])
  | n + 1 => do
    let (rs, xs) ← session m w c n
    let (r, xs) ← answer m w xs (c rs)
    return (rs ++ [r], xs)

end LCT.Spec
