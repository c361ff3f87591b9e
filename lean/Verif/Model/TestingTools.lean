import Verif.Model.RandomTests
import Verif.Model.Ethereum.Transaction

/-!
# Testing tools and benchmarks

Models `/repo/src/testing_tools/quickcheck.rs`, `/repo/crates/devtools/src/hex.rs`, `/repo/benches/bigint/divrem.rs`, `/repo/benches/crypto/ecdsa.rs`
and `/repo/benches/crypto/secp256k1.rs`.  The random source of the crate `quickcheck` is the sequence of numbers that it will draw.
-/

namespace LCT.TestingTools
open LCT.BigInt LCT.Out LCT.Crypto LCT.Codecs LCT.RandomTests LCT.Random
variable {ε : Type}

/-- `quickcheck::Gen`: the numbers that will be drawn. -/
abbrev Gen := Nat → Nat

/-- `Gen::choose`: a draw is an index, below the length; nothing is chosen from an empty slice. -/
def choose {α : Type} (xs : List α) (g : Gen) : Option α × Gen := (xs[g 0 % xs.length]?, fun i => g (i + 1))

/-- `from_utf8(..).unwrap()`. -/
def utf8 (bytes : List UInt8) : Out ε (List UInt8) := if (String.fromUTF8? ⟨bytes.toArray⟩).isSome then .ok bytes else .panic

/-- Draws `n` characters from `chars`, each with `*g.choose(chars).unwrap()`: the loop of `random_hex` and of `Vec::<HexChar>::arbitrary`. -/
def chooseMany (chars : List UInt8) : Nat → Gen → Out ε (List UInt8 × Gen)
  | 0, g => .ok ([], g)
  | n + 1, g => do
    let (c, g) := choose chars g
    let c ← unwrap c
    let (cs, g) ← chooseMany chars n g
    return (c :: cs, g)

/-- `/repo/src/testing_tools/quickcheck.rs:18` `HEX_CHARS_BYTES`. -/
def hexChars : List UInt8 := [48, 49, 50, 51, 52, 53, 54, 55, 56, 57, 97, 98, 99, 100, 101, 102, 65, 66, 67, 68, 69, 70]

/-- `/repo/src/testing_tools/quickcheck.rs:60` `SIGN_CHARS_BYTES`. -/
def signChars : List UInt8 := [43, 45]

/-- `/repo/src/testing_tools/quickcheck.rs:38-44,65-71`: a vector of characters, filled up.  `Vec::arbitrary` of `quickcheck` draws a length below
the size of the source, then the elements. -/
def hexVec (size : Nat) (g : Gen) : Out ε (List UInt8 × Gen) := do
  let n := g 0 % size
  let (v, g) ← chooseMany hexChars n fun i => g (i + 1)
  if v.length = 0 then chooseMany hexChars 2 g
  else if v.length % 2 ≠ 0 then do
    let (c, g) ← chooseMany hexChars 1 g
    return (v ++ c, g)
  else return (v, g)

/-- `/repo/src/testing_tools/quickcheck.rs:34-49` `HexString::arbitrary`. -/
def hexString (size : Nat) (g : Gen) : Out ε (List UInt8) := do
  let (v, _) ← hexVec size g
  utf8 v

/-- `/repo/src/testing_tools/quickcheck.rs:61-78` `BigIntHexString::arbitrary`. -/
def signedHexString (size : Nat) (g : Gen) : Out ε (List UInt8) := do
  let (v, g) ← hexVec size g
  let sign ← unwrap (choose signChars g).1
  utf8 (sign :: v)

/-- `/repo/crates/devtools/src/hex.rs:13`. -/
def lowerHexChars : List UInt8 := [48, 49, 50, 51, 52, 53, 54, 55, 56, 57, 97, 98, 99, 100, 101, 102]

/-- `/repo/crates/devtools/src/hex.rs:12-22` `random_hex`. -/
def randomHex (n : Nat) (g : Gen) : Out ε (List UInt8) := do
  let (chars, _) ← chooseMany lowerHexChars n g
  utf8 chars

/-- `/repo/crates/devtools/src/hex.rs:28-42` `byte_aligned_hex`. -/
def byteAlignedHex (hex : List UInt8) : List UInt8 :=
  if hex.length % 2 = 0 then hex
  else if [48, 120] <+: hex then [48, 120, 48] ++ hex.drop 2
  else 48 :: hex

/-- `/repo/benches/bigint/divrem.rs:11-22` `div_rem_bench_bits`, with one round of the measured closure (which has no state).  Each call of
`random_hex` has a source of its own. -/
def divRemBench (m : Build) (w bits : Nat) (g g' : Gen) : Out ε Unit := do
  let hexLen := bits / 4
  let aHex ← randomHex (hexLen * 2) g
  let a ← unwrapped (BInt.fromHex w aHex)
  let bHex ← randomHex hexLen g'
  let b ← unwrapped (BInt.fromHex w bHex)
  let _ ← BInt.div m w a b
  return ()

/-- `/repo/benches/crypto/ecdsa.rs:13-24` `public_key_from_private`, with one round. -/
def publicKeyBench (m : Build) (w : Nat) (g : Gen) : Out ε Unit := do
  let cp ← secp256k1 w
  let hex ← randomHex (32 * 2) g
  let n ← unwrapped (BInt.fromHex w hex)
  let key ← PrivateKey.new m w n cp
  let key ← unwrap key
  let _ ← key.publicKey m w
  return ()

/-- `/repo/benches/crypto/secp256k1.rs:15-41` `secp256k1_signing_and_verifying`, with one round.  `f` and `nf` are the fuel of signing. -/
def signBench (m : Build) (w f nf : Nat) (rand : Nat → Out RandomError (List UInt8)) (g g' : Gen) : Out ε Unit := do
  let cp ← secp256k1 w
  let hex ← randomHex (32 * 2) g
  let n ← unwrapped (BInt.fromHex w hex)
  let key ← PrivateKey.new m w n cp
  let key ← unwrap key
  let publicKey ← key.publicKey m w
  let hashHex ← randomHex (32 * 2) g'
  let hash ← unwrapped (hexToBytes hashHex)
  let (signature, _) ← unwrapped (Ethereum.signDefault m w f nf rand hash key { SigningOptions.default with employExtraRandomData := false })
  let result ← unwrapped (verify m w hash signature publicKey)
  if result then return () else .panic

end LCT.TestingTools
