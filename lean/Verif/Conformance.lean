import Verif.Model.Ethereum.Account
import Verif.Model.Ethereum.Display
import Verif.Model.Ethereum.Transaction
import Verif.Model.Crypto.Recovery
import Verif.Model.Crypto.Encoding

/-!
# Running the model on the project's test data

Not a proof and not used by one.  `main` reads test cases, one per line, and compares what the model computes with the result recorded in
the project's tests.  `conformance/run.sh` compiles it; `conformance/README.md` says which data are used and what came out.
-/

namespace LCT.Conformance
open LCT.BigInt LCT.Crypto LCT.Curve LCT.Hash LCT.Rlp LCT.Ethereum LCT.Random LCT.Codecs

def bytes (s : String) : List UInt8 := s.toUTF8.toList
def text (bs : List UInt8) : String := String.ofList (bs.map fun b => Char.ofNat b.toNat)

def show' {ε α : Type} (f : α → String) : Out ε α → String
  | .ok a => f a
  | .err _ => "error"
  | .panic => "panic"
  | .hang => "hang"

/-- Errors of all kinds, to run functions with different errors in one sequence. -/
def any {ε α : Type} (x : Out ε α) : Out Unit α := x.mapErr fun _ => ()

def unhex (s : String) : Out Unit (List UInt8) := any (hexToBytes (bytes s))

def int (w : Nat) (s : String) : Out Unit BInt :=
  if s == "-3" then BInt.ofInt w (-3) else any (BInt.fromHex w (bytes s))

def hasher : String → Hasher
  | "sha256" => Sha2.Sha256
  | "sha384" => Sha2.Sha384
  | "sha512" => Sha2.Sha512
  | "keccak256" => Sha3.Keccak256
  | "sha3_224" => Sha3.Sha3_224
  | "sha3_256" => Sha3.Sha3_256
  | "sha3_384" => Sha3.Sha3_384
  | _ => Sha3.Sha3_512

/-- A curve: `secp256k1`, or `a,b,p,x,y,n,cofactor`. -/
def params (w : Nat) (s : String) : Out Unit Params :=
  match (s.splitOn ",") with
  | [a, b, p, x, y, n, h] => do
    return ⟨⟨← int w a, ← int w b, ← int w p⟩, ⟨← int w x, ← int w y⟩, ← int w n, h.toNat!⟩
  | _ => secp256k1 w

def noRandom : Nat → Out RandomError (List UInt8) := fun _ => .panic

def privateKey (m : Build) (w : Nat) (d : String) (cp : Params) : Out Unit PrivateKey := do
  match ← any (ε := Unit) (PrivateKey.new m w (← int w d) cp) with
  | some k => return k
  | none => .err ()

def digestOf (m : Build) (H : Hasher) (bs : List UInt8) : Out Unit (List UInt8) := do
  let (h, _) ← H.digest m H.fresh bs
  return h

def hexOf (bs : List UInt8) : String := text (bytesToLowerHex bs)

def keyHex (m : Build) (w : Nat) (k : PublicKey) : Out Unit String := do return text (← k.toSec1Hex m w true)

/-- The coordinates; `to_sec1_hex` cannot be used on curves with a cofactor, see `C19_panics`. -/
def coordinates (m : Build) (w : Nat) (k : PublicKey) : Out Unit String := do
  return text (← BInt.toLowerHex m w k.data.x) ++ ":" ++ text (← BInt.toLowerHex m w k.data.y)

def keysHex (m : Build) (w : Nat) : List PublicKey → Out Unit String
  | [] => return ""
  | k :: ks => do return (← coordinates m w k) ++ " " ++ (← keysHex m w ks)

/-- Signs, and tells whether the signature is accepted, and whether recovery gives the key, with the recovery id and without. -/
def signAndCheck (m : Build) (w : Nat) (cp : Params) (H : Hasher) (d : String) (hash : List UInt8) (low strict zero : Bool) :
    Out Unit String := do
  let key ← privateKey m w d cp
  let pub ← key.publicKey m w
  let (sig, id) ← any (signWithOptions m w H 10 10 H.fresh noRandom hash key ⟨low, strict, false, zero⟩)
  let ok ← any (verifyWithOptions m w hash sig pub ⟨low, strict⟩)
  let one ← any (recoverWithOptions m w sig hash (some id) ⟨strict⟩)
  let all ← any (recoverWithOptions m w sig hash none ⟨strict⟩)
  let one ← keysHex m w one
  let all ← keysHex m w all
  let k ← coordinates m w pub
  return s!"{text (← sig.toP1363Hex m w)} {ok} {one == k ++ " "} {(all.splitOn " ").contains k}"

def address (s : String) : Out Unit Address := any (Address.tryFromStr (bytes s))

def accessItem (s : String) : Out Unit AccessListItem := do
  match s.splitOn "," with
  | a :: ks => do
    let a ← address a
    let ks ← ks.mapM fun k => any (StorageKey.tryFromStr (bytes k))
    return ⟨a, ks⟩
  | [] => .err ()

def accessList (s : String) : Out Unit AccessList := if s.isEmpty then .ok [] else (s.splitOn ";").mapM accessItem

def nonce (s : String) : Out Unit EoaNonce :=
  match EoaNonce.fromU64 s.toNat!.toUInt64 with
  | some n => .ok n
  | none => .err ()

def wei (m : Build) (w : Nat) (s : String) : Out Unit Wei := any (Wei.tryFromStr m w (bytes s))

def built {α : Type} (x : Out Unit (Except BuildingError α × Builder)) : Out Unit α := do
  match ← x with
  | (.ok p, _) => return p
  | (.error _, _) => .err ()

def builder (m : Build) (w : Nat) (n gas dest value data : String) : Out Unit Builder := do
  return ((((Builder.new.withNonce (← nonce n)).withGasLimit gas.toNat!.toUInt64).withDestination (← address dest)).withAmount
    (← wei m w value)).withData (← unhex data)

def options : SigningOptions := { SigningOptions.default with employExtraRandomData := false }

/-- A transaction, and whether decoding and encoding gives it back. -/
def sent {α : Type} (m : Build) (dec : Dec α) (enc : α → Out Unit (List UInt8)) (skip : Nat) (bs : List UInt8) : Out Unit String := do
  let t ← any (decode m dec (bs.drop skip))
  return s!"{hexOf bs} {(← enc t) == bs}"

mutual
def itemText : Rlp.Item → String
  | .bytes b => hexOf b
  | .list l => "[" ++ itemTexts l ++ "]"
def itemTexts : List Rlp.Item → String
  | [] => ""
  | x :: xs => itemText x ++ "," ++ itemTexts xs
end

/-- What the model computes for a test case. -/
def compute (m : Build) (w : Nat) : List String → Out Unit String
  | ["hash", h, msg] => do return hexOf (← digestOf m (hasher h) (← unhex msg))
  | ["hmac", h, key, msg] => do
    let H := hasher h
    let (t, _) ← hmac m H H.fresh (← unhex key) (← unhex msg)
    return hexOf t
  | ["verify", c, h, key, sig, msg, low] => do
    let cp ← params w c
    let pk ← any (PublicKey.fromSec1Hex m w (bytes key) cp)
    let sig ← any (Signature.fromP1363Hex m w (bytes sig) cp)
    let hash ← if h == "none" then unhex msg else digestOf m (hasher h) (← unhex msg)
    let r ← any (verifyWithOptions m w hash sig pk ⟨low == "low", h == "none"⟩)
    return s!"{r}"
  | ["sign", c, h, d, hash, low, strict, zero] => do
    let cp ← params w c
    signAndCheck m w cp (hasher h) d (← unhex hash) (low == "low") (strict == "strict") (zero == "zero")
  | ["point", p] => do
    let cp ← params w "secp256k1"
    let _ ← any (PublicKey.fromSec1Hex m w (bytes p) cp)
    return "true"
  | ["compress", p, c] => do
    let cp ← params w "secp256k1"
    let pk ← any (PublicKey.fromSec1Hex m w (bytes p) cp)
    return text (← pk.toSec1Hex m w (c == "true"))
  | ["scalar", d] => do
    let cp ← params w "secp256k1"
    let k ← privateKey m w d cp
    keyHex m w (← k.publicKey m w)
  | ["decimal", d] => do
    let cp ← params w "secp256k1"
    let d ← any (BInt.fromStrRadix m w (bytes d) 10)
    match ← any (ε := Unit) (PrivateKey.new m w d cp) with
    | some k => do
      let q ← k.publicKey m w
      return text (padHex 64 (← BInt.toLowerHex m w q.data.x))
    | none => return "none"
  | ["multiply", p, d] => do
    let cp ← params w "secp256k1"
    let pk ← any (PublicKey.fromSec1Hex m w (bytes p) cp)
    let k ← privateKey m w d cp
    let q ← mulPoint m w cp.curve pk.data k.data
    keyHex m w ⟨q, cp⟩
  | ["pointadd", p, q] => do
    let cp ← params w "secp256k1"
    let p ← any (PublicKey.fromSec1Hex m w (bytes p) cp)
    let q ← any (PublicKey.fromSec1Hex m w (bytes q) cp)
    let r ← addPoints m w cp.curve p.data q.data
    if ← r.isIdentity m then return "null" else keyHex m w ⟨r, cp⟩
  | ["address", key] => do
    let bs ← unhex key
    if h : bs.length = 32 then
      match ← any (ε := Unit) (EoaPrivateKey.new m w bs h) with
      | some k => do
        let a ← EoaPublicKey.address m w (← EoaPrivateKey.publicKey m w k)
        return text (← a.display m)
      | none => return "none"
    else return "length"
  | ["checksum", a] => do
    let a ← address a
    return text (← a.display m)
  | ["legacy", d, n, price, gas, dest, value, data] => do
    let key ← privateKey m w d (← params w "secp256k1")
    let b ← builder m w n gas dest value data
    let p ← built (b.withGasPrice (← wei m w price)).takeAndBuildLegacy
    let t ← any (p.sign m w 10 10 noRandom key options)
    sent m (decTransactionLegacy m w) (·.encode m w) 0 (← t.encode m w)
  | ["eip155", d, chain, n, price, gas, dest, value, data] => do
    let key ← privateKey m w d (← params w "secp256k1")
    let b ← builder m w n gas dest value data
    let b := b.withChainId (← ChainId.fromU64 w chain.toNat!.toUInt64)
    let p ← built (b.withGasPrice (← wei m w price)).takeAndBuildEip155
    let t ← any (p.sign m w 10 10 noRandom key options)
    sent m (decTransactionEip155 m w) (·.encode m w) 0 (← t.encode m w)
  | ["eip2930", d, chain, n, price, gas, dest, value, data, list] => do
    let key ← privateKey m w d (← params w "secp256k1")
    let b ← builder m w n gas dest value data
    let b := (b.withChainId (← ChainId.fromU64 w chain.toNat!.toUInt64)).withAccessList (← accessList list)
    let p ← built (b.withGasPrice (← wei m w price)).takeAndBuildEip2930
    let t ← any (p.sign m w 10 10 noRandom key options)
    sent m (decTransactionEip2930 m w) (·.encode m w) 1 (← t.encode m w)
  | ["eip1559", d, chain, n, priority, fee, gas, dest, value, data, list] => do
    let key ← privateKey m w d (← params w "secp256k1")
    let b ← builder m w n gas dest value data
    let b := (b.withChainId (← ChainId.fromU64 w chain.toNat!.toUInt64)).withAccessList (← accessList list)
    let p ← built ((b.withMaxPriorityFeePerGas (← wei m w priority)).withMaxFeePerGas (← wei m w fee)).takeAndBuildEip1559
    let t ← any (p.sign m w 10 10 noRandom key options)
    sent m (decTransactionEip1559 m w) (·.encode m w) 1 (← t.encode m w)
  | ["rlp", data] => do
    let bs ← unhex data
    let x ← any (decodeTree m bs)
    return itemText x
  | _ => .panic

def mode (s : String) : Build := if s == "debug" then .debug else .release

/-- `*` stands for any word; Wycheproof's words are `valid`, `invalid` (rejected in some way), and `acceptable` (here: not decoded). -/
def agrees (expected got : String) : Bool :=
  match expected with
  | "valid" => got == "true"
  | "invalid" => got == "false" || got == "error"
  | "acceptable" => got == "error"
  | _ =>
    let e := expected.splitOn " "
    let g := got.splitOn " "
    e.length == g.length && (e.zip g).all fun (x, y) => x == "*" || x == y

/-- One line is `expected|command|arguments`. -/
def check (m : Build) (w : Nat) (line : String) : Option String :=
  match line.splitOn "|" with
  | expected :: cmd =>
    let got := show' id (compute m w cmd)
    if agrees expected got then none else some s!"expected {expected}, got {got}: {cmd}"
  | [] => none

partial def loop (m : Build) (w : Nat) (stdin : IO.FS.Stream) (n bad : Nat) : IO (Nat × Nat) := do
  let line ← stdin.getLine
  if line.isEmpty then return (n, bad)
  let line := (line.dropEndWhile (· == '\n')).toString
  match check m w line with
  | none => loop m w stdin (n + 1) bad
  | some msg => do
    IO.println (msg.take 600).toString
    loop m w stdin (n + 1) (bad + 1)

/-- Arguments: `debug` or `release`, and the digit width. -/
def run (args : List String) : IO UInt32 := do
  match args with
  | [b, w] => do
    let (n, bad) ← loop (mode b) w.toNat! (← IO.getStdin) 0 0
    IO.println s!"{b} {w}: {n} cases, {bad} differences"
    return if bad == 0 then 0 else 1
  | _ => return 2

end LCT.Conformance

def main (args : List String) : IO UInt32 := LCT.Conformance.run args
