import Verif.Model.Ethereum.Display
import Verif.Model.Ethereum.Account
import Verif.Model.Random

/-!
# The example programs

Models `/repo/examples/ethereum/*.rs` and `/repo/examples/randombytes.rs`.  A program is a function from its first argument (`none`: there
is none; the argument is UTF-8 text, given by its bytes) to what it writes to the standard output.  The messages of panics, which go to the
standard error, are not modelled; text that was printed before a panic is lost.  The pretty printer of `serde_json` is a parameter.  Writing to
the standard output is taken never to fail.
-/

namespace LCT.Examples
open LCT.BigInt LCT.Rlp LCT.Codecs LCT.Crypto LCT.Random LCT.Ethereum
variable {ε : Type}

/-- `Result::expect`, and `match r { Ok(v) => v, Err(err) => panic!(..) }`. -/
def expect {ε' α : Type} : Out ε' α → Out ε α
  | .ok a => .ok a
  | .err _ => .panic
  | .panic => .panic
  | .hang => .hang

/-- `std::env::args().nth(1).expect(..)` followed by `arg.strip_prefix("0x").unwrap_or(&arg)`:
`/repo/examples/ethereum/tx_decoder.rs:68-71`, `/repo/examples/ethereum/eoa_key_to_address.rs:18-21`,
`/repo/examples/ethereum/rlp_decoder.rs:34-37`. -/
def hexArgument (arg : Option (List UInt8)) : Out ε (List UInt8) := do
  let s ← unwrap arg
  match s with
  | 48 :: 120 :: h => return h
  | _ => return s

/-- `/repo/examples/ethereum/tx_decoder.rs:67-129` `main`. -/
def txDecoder (m : Build) (w : Nat) (arg : Option (List UInt8)) : Out ε (List UInt8) := do
  let txHex ← hexArgument arg
  let txData ← expect (hexToBytes txHex)
  match txData with
  | [] => .panic
  | firstByte :: rest =>
    if firstByte = TransactionEip1559.transactionType then
      let transaction ← expect (decode m (decTransactionEip1559 m w) rest)
      let text ← transaction.display m w
      return writeln text
    else if firstByte = TransactionEip2930.transactionType then
      let transaction ← expect (decode m (decTransactionEip2930 m w) rest)
      let text ← transaction.display m w
      return writeln text
    else
      match decode m (decTransactionEip155 m w) txData with
      | .ok transaction =>
        let text ← transaction.display m w
        return writeln text
      | .err .TransactionTypeMismatch =>
        let transaction ← expect (decode m (decTransactionLegacy m w) txData)
        let text ← transaction.display m w
        return writeln text
      | .err .InvalidFormat => .panic
      | .panic => .panic
      | .hang => .hang

/-- `/repo/examples/ethereum/eoa_key_to_address.rs:17-30` `main`. -/
def keyToAddress (m : Build) (w : Nat) (arg : Option (List UInt8)) : Out ε (List UInt8) := do
  let keyHex ← hexArgument arg
  let keyBytes ← expect (hexToBytes keyHex)
  if len : keyBytes.length = 32 then
    let key ← EoaPrivateKey.new m w keyBytes len
    let eoaPrivateKey ← unwrap key
    let eoaPublicKey ← EoaPrivateKey.publicKey m w eoaPrivateKey
    let address ← EoaPublicKey.address m w eoaPublicKey
    let text ← address.display m
    return writeln text
  else .panic

/-- The `serde_json::Value`s that `/repo/examples/ethereum/rlp_decoder.rs:58-77` builds. -/
inductive Json where
  | string (s : List UInt8)
  | array (xs : List Json)

/-- `/repo/examples/ethereum/rlp_decoder.rs:60-77` `decode_from`; `fuel` bounds the nesting depth. -/
def decJson (m : Build) : Nat → Dec Json
  | 0 => fun _ => .hang
  | fuel + 1 => fun d =>
    match d.itemType with
    | .SingleValue => d.decodeAsBytes.bind fun bytes => .ok (.string (lit "0x" ++ bytesToLowerHex bytes))
    | .List => (decVec m (decJson m fuel) d).bind fun values => .ok (.array values)

/-- `/repo/src/crypto/codecs.rs:162-169` `Display for CodecsError`. -/
def codecsMessage : CodecsError → List UInt8
  | .InvalidCharFound => lit "Invalid char found"
  | .NotByteAligned => lit "Not 1-byte aligned"

/-- `/repo/src/blockchain/ethereum/rlp/decoding.rs:169-180` `Display for RlpDataDecodingError`. -/
def rlpMessage : RlpErr → List UInt8
  | .InvalidFormat => lit "Invalid format"
  | .TransactionTypeMismatch => lit "Transaction interpreted with the wrong type"

/-- `/repo/examples/ethereum/rlp_decoder.rs:33-56` `main`.  Nesting deeper than the number of bytes is impossible. -/
def rlpDecoder (m : Build) (pretty : Json → List UInt8) (arg : Option (List UInt8)) : Out ε (List UInt8) := do
  let rlpHex ← hexArgument arg
  match hexToBytes rlpHex with
  | .err e => return writeln (lit "invalid hex input: " ++ codecsMessage e)
  | .panic => .panic
  | .hang => .hang
  | .ok rlpData =>
    match decode m (decJson m (rlpData.length + 1)) rlpData with
    | .err e => return writeln (lit "Decoding failed: " ++ rlpMessage e)
    | .panic => .panic
    | .hang => .hang
    | .ok value => return writeln (pretty value)

/-- `32_usize.pow(n)`, at `/repo/examples/ethereum/eoa_gen_vanity_address.rs:38`: overflow panics in debug builds and wraps in release builds.
No intermediate result is greater than the final one. -/
def pow32 (m : Build) (n : Nat) : Out ε Nat :=
  if 32 ^ n < 2 ^ 64 then .ok (32 ^ n)
  else match m with
    | .debug => .panic
    | .release => .ok (32 ^ n % 2 ^ 64)

/-- `a * b` on `usize`. -/
def mulU64 (m : Build) (a b : Nat) : Out ε Nat :=
  if a * b < 2 ^ 64 then .ok (a * b)
  else match m with
    | .debug => .panic
    | .release => .ok (a * b % 2 ^ 64)

/-- `a / b` on `usize`. -/
def divU64 (a b : Nat) : Out ε Nat := if b = 0 then .panic else .ok (a / b)

/-- `/repo/examples/ethereum/eoa_gen_vanity_address.rs:44-49`: the report.  `clock` is what the clocks show: `some s` if more than three seconds
have passed since the last report, where `s` are the seconds since the start. -/
def vanityReport (m : Build) (estimatedCount count : Nat) (clock : Option Nat) : Out ε (List UInt8) :=
  match clock with
  | none => return []
  | some seconds => do
    let hundred ← mulU64 m count 100
    let percent ← divU64 hundred estimatedCount
    let countPerSecond ← divU64 count seconds
    return writeln (lit "> " ++ decimalText count ++ lit ", " ++ decimalText percent ++ lit "%, " ++ decimalText countPerSecond ++ lit "/s")

/-- The loop `/repo/examples/ethereum/eoa_gen_vanity_address.rs:42-70`, with fuel.  `clock count` and `random count` are what the clocks show and
what `get_os_random_bytes(32)` returns in the round in which the counter is `count`; `printed` is what has been printed. -/
def vanityLoop (m : Build) (w : Nat) (clock : Nat → Option Nat) (random : Nat → Out RandomError (List UInt8)) (pre : List UInt8)
    (estimatedCount : Nat) : Nat → Nat → List UInt8 → Out ε (List UInt8)
  | 0, _, _ => .hang
  | fuel + 1, count, printed => do
    let count ← addU64 m count 1
    let report ← vanityReport m estimatedCount count (clock count)
    let printed := printed ++ report
    let keyBytes ← expect (random count)
    if len : keyBytes.length = 32 then
      let key ← EoaPrivateKey.new m w keyBytes len
      let key ← unwrap key
      let publicKey ← EoaPrivateKey.publicKey m w key
      let address ← EoaPublicKey.address m w publicKey
      let checksummedHex ← address.toChecksummedHex m
      if ¬ pre.isPrefixOf checksummedHex then vanityLoop m w clock random pre estimatedCount fuel count printed
      else
        let printed := printed ++ writeln (lit "=====================")
        let printed := printed ++ writeln (lit "Vanity Address Found!")
        let printed := printed ++ writeln (lit "=====================")
        let printed := printed ++ writeln (lit "public address: 0x" ++ checksummedHex)
        return printed ++ writeln (lit "private key: 0x" ++ bytesToLowerHex keyBytes)
    else .panic

/-- `/repo/examples/ethereum/eoa_gen_vanity_address.rs:21-71` `main`.  A text all of whose bytes are ASCII hex digits is one all of whose
characters are. -/
def vanityAddress (m : Build) (w fuel : Nat) (clock : Nat → Option Nat) (random : Nat → Out RandomError (List UInt8))
    (arg : Option (List UInt8)) : Out ε (List UInt8) := do
  let pre ← unwrap arg
  rassert (!pre.isEmpty && decide (pre.length < 40))
  rassert (pre.all fun c => decide ((48 ≤ c ∧ c ≤ 57) ∨ (97 ≤ c ∧ c ≤ 102) ∨ (65 ≤ c ∧ c ≤ 70)))
  let estimatedCount ← pow32 m pre.length
  vanityLoop m w clock random pre estimatedCount fuel 0 []

/-- The standard library's `str::parse::<u32>()`: an optional `+`, then one or more decimal digits, of a number below `2^32`
(used at `/repo/examples/randombytes.rs:20`). -/
def parseU32 (s : List UInt8) : Option Nat :=
  let digits := match s with
    | 43 :: rest => rest
    | _ => s
  if digits.isEmpty then none
  else if digits.all fun c => decide (48 ≤ c ∧ c ≤ 57) then
    let n := digits.foldl (fun acc c => acc * 10 + (c.toNat - 48)) 0
    if n < 2 ^ 32 then some n else none
  else none

/-- The standard library's `{}` of a signed integer. -/
def intText (z : Int) : List UInt8 := if z < 0 then 45 :: decimalText z.natAbs else decimalText z.natAbs

/-- `/repo/src/random/error.rs:21-42` `Display for GetOsRandomBytesError`. -/
def randomMessage : RandomError → List UInt8
  | .AppleSecRandom status => lit "SecRandomCopyBytes failed with status " ++ intText status
  | .LinuxGetRandom errno => lit "getrandom failed with errno " ++ intText errno
  | .LinuxGetRandomCopiedNumberLessThanRequested =>
    lit "getrandom failed: the number of bytes copied is less than the number requested"
  | .WindowsBCryptGenRandom status => lit "BCryptGenRandom failed with status " ++ decimalText status.toNat

/-- `/repo/examples/randombytes.rs:16-31` `main`; `random` is `get_os_random_bytes`. -/
def randomBytes (random : Nat → Out RandomError (List UInt8)) (arg : Option (List UInt8)) : Out ε (List UInt8) := do
  let s ← unwrap arg
  let bytesLen ← unwrap (parseU32 s)
  match random bytesLen with
  | .ok bytes => return writeln (bytesToLowerHex bytes)
  | .err e => return writeln (lit "Error: " ++ randomMessage e)
  | .panic => .panic
  | .hang => .hang

end LCT.Examples
