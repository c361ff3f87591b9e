import Verif.Spec.Client
import Verif.Spec.Signing
import Verif.Spec.Sec1Error
import Verif.Model.Crypto.Signing
import Verif.Model.Crypto.Recovery
import Verif.Model.Crypto.Encoding
import Verif.Model.Equality

/-!
# Programs that use keys and signatures (specification)

As in `Spec/Client`, a program is a client that makes one call after another on what earlier calls returned.  Besides numbers it holds private
keys, public keys and signatures, which it names by their position among those returned so far and looks at with further calls.
-/

namespace LCT.Spec
open LCT.BigInt LCT.Crypto LCT.Random LCT.Hash

/-- A call. -/
inductive KeyRequest where
  /-- a call on numbers -/
  | number (q : Request)
  /-- `PrivateKey::new` with a number -/
  | privateKey (i : Nat)
  /-- `public_key` of a private key -/
  | publicKey (k : Nat)
  /-- `Signature::new` with two numbers -/
  | signature (i j : Nat)
  /-- `sign_with_options…` with a private key -/
  | sign (k : Nat) (hash : List UInt8) (o : SigningOptions)
  /-- `verify_with_options` with a public key and a signature -/
  | verify (q s : Nat) (hash : List UInt8) (o : VerifyingOptions)
  /-- `recover_public_keys_from_signature_with_options` with a signature -/
  | recover (s : Nat) (hash : List UInt8) (id : Option RecoveryId) (o : RecoveryOptions)
  /-- `to_p1363_hex` of a signature -/
  | signatureText (s : Nat)
  /-- `Signature::from_p1363_hex` -/
  | parseSignature (t : List UInt8)
  /-- `to_sec1_hex` of a public key -/
  | keyText (q : Nat) (compressed : Bool)
  /-- `PublicKey::from_sec1_hex` -/
  | parseKey (t : List UInt8)
  /-- `==` on public keys -/
  | sameKey (q q' : Nat)

/-- What a client sees of the outcome of a call. -/
inductive KeyReply where
  | number (r : Reply)
  /-- an `Option`: whether there is a result -/
  | some (present : Bool)
  | done
  | signed (id : RecoveryId)
  | notSigned (e : SigningError)
  | verified (b : Bool)
  | notVerified (e : VerifyingError)
  | recovered (count : Nat)
  | notRecovered (e : RecoveryError)
  | text (t : List UInt8)
  | notSignature (e : SignatureDecodingError)
  | notKey (e : PointDecodingError)
  | truth (b : Bool)

/-- A client decides on the next call from the replies so far. -/
abbrev KeyClient := List KeyReply → KeyRequest

section
variable {p : Nat} [Fact p.Prime] {a b : Int}

/-- What the client holds, in mathematical terms: integers, secret numbers, points of the curve, and pairs of numbers. -/
structure Holds (p : Nat) (a b : Int) where
  numbers : List Int
  secrets : List Nat
  keys : List (curve (a : ZMod p) (b : ZMod p)).Point
  signatures : List (Nat × Nat)

/-- The second half of a signature, lowered if asked for: `n - s` for `s > n/2`. -/
def lowS (low : Bool) (n s : Nat) : Nat := if low = true ∧ n / 2 < s then n - s else s

/-- The checks on the hash that signing makes, in their order. -/
def signingComplaint (n : Nat) (hash : List UInt8) (o : SigningOptions) : Option SigningError :=
  if hash = [] then some .EmptyHashNotAllowed
  else if o.strictHashByteLength = true ∧ hash.length * 8 ≠ bitLength n then some .HashBitLengthDoesNotMatchBasePointOrder
  else if o.isZeroHashAllowed = false ∧ leadingBits (bitLength n) hash = 0 then some .ZeroHashNotAllowed
  else none

/-- The checks that verification makes before it computes, in their order. -/
def verifyingComplaint (n s : Nat) (hash : List UInt8) (o : VerifyingOptions) : Option VerifyingError :=
  if hash = [] then some .EmptyHashNotAllowed
  else if o.enforceLowS = true ∧ n / 2 < s then some .StrictHighSFound
  else if o.strictHashByteLength = true ∧ hash.length * 8 ≠ bitLength n then some .HashBitLengthDoesNotMatchBasePointOrder
  else if leadingBits (bitLength n) hash = 0 then some .ZeroHashNotAllowed
  else none

/-- The checks that recovery makes before it computes, in their order. -/
def recoveryComplaint (n : Nat) (hash : List UInt8) (o : RecoveryOptions) : Option RecoveryError :=
  if hash = [] then some .EmptyHashNotAllowed
  else if o.strictHashByteLength = true ∧ hash.length * 8 ≠ bitLength n then some .HashBitLengthDoesNotMatchBasePointOrder
  else if leadingBits (bitLength n) hash = 0 then some .ZeroHashNotAllowed
  else none

/-- A pair of numbers that are the halves of a signature: both in `[1, n-1]`. -/
def InRange (n r s : Nat) : Prop := 0 < r ∧ r < n ∧ 0 < s ∧ s < n

/-- All rounds before the `j`-th have a nonce by RFC 6979 (with HMAC over `h`, which `H` computes, and the random bytes of the round) that gives
no signature. -/
def Fruitless (H : Hasher) (h : List UInt8 → List UInt8) (n : Nat) (G : (curve (a : ZMod p) (b : ZMod p)).Point) (d : Nat) (hash : List UInt8)
    (extra : Bool) (rand : Nat → Out RandomError (List UInt8)) (j : Nat) : Prop :=
  ∀ i < j, ∃ k, NonceOf H h n d hash extra (rand i) k ∧ Unusable n G d (leadingBits (bitLength n) hash) k

variable (H : Hasher) (h : List UInt8 → List UInt8) (n : Nat) (G : (curve (a : ZMod p) (b : ZMod p)).Point)

/-- Mathematics answers a call: with a reply and what the client holds from then on, or (`none`) with a panic.  `rand` are the random bytes that
the operating system delivers during the call. -/
inductive KeyIdeal (rand : Nat → Out RandomError (List UInt8)) (x : Holds p a b) : KeyRequest → Option (KeyReply × Holds p a b) → Prop where
  | number {q r ns} : Ideal x.numbers q (.some (r, ns)) → KeyIdeal rand x (.number q) (.some (.number r, { x with numbers := ns }))
  | divisionByZero {q} : Ideal x.numbers q none → KeyIdeal rand x (.number q) none
  | privateKey {i} {d : Nat} : x.numbers[i]? = .some (d : Int) → 0 < d → d < n →
    KeyIdeal rand x (.privateKey i) (.some (.some true, { x with secrets := x.secrets ++ [d] }))
  | noPrivateKey {i} {z : Int} : x.numbers[i]? = .some z → ¬ (0 < z ∧ z < n) → KeyIdeal rand x (.privateKey i) (.some (.some false, x))
  | publicKey {k d} : x.secrets[k]? = .some d → KeyIdeal rand x (.publicKey k) (.some (.done, { x with keys := x.keys ++ [d • G] }))
  | signature {i j} {r s : Nat} : x.numbers[i]? = .some (r : Int) → x.numbers[j]? = .some (s : Int) → InRange n r s →
    KeyIdeal rand x (.signature i j) (.some (.some true, { x with signatures := x.signatures ++ [(r, s)] }))
  | noSignature {i j} {r s : Int} : x.numbers[i]? = .some r → x.numbers[j]? = .some s → ¬ (0 < r ∧ r < n ∧ 0 < s ∧ s < n) →
    KeyIdeal rand x (.signature i j) (.some (.some false, x))
  | signComplaint {k d hash o e} : x.secrets[k]? = .some d → signingComplaint n hash o = .some e →
    KeyIdeal rand x (.sign k hash o) (.some (.notSigned e, x))
  /-- The signature of the first round whose nonce `k` gives one: `r` and `s` of the textbook, `s` lowered if asked for, and the recovery id that
  describes the point which a verifier computes. -/
  | sign {i d hash o j k id} : x.secrets[i]? = .some d → signingComplaint n hash o = none →
    Fruitless H h n G d hash o.employExtraRandomData rand j → NonceOf H h n d hash o.employExtraRandomData (rand j) k →
    ¬ Unusable n G d (leadingBits (bitLength n) hash) k →
    IdDescribes n G (d • G) (leadingBits (bitLength n) hash) (ecdsaR n G k)
      (lowS o.enforceLowS n (ecdsaS n G d (leadingBits (bitLength n) hash) k)) id →
    KeyIdeal rand x (.sign i hash o) (.some (.signed id, { x with signatures :=
      x.signatures ++ [(ecdsaR n G k, lowS o.enforceLowS n (ecdsaS n G d (leadingBits (bitLength n) hash) k))] }))
  | signRandomError {i d hash o j e} : x.secrets[i]? = .some d → signingComplaint n hash o = none → o.employExtraRandomData = true →
    Fruitless H h n G d hash true rand j → rand j = .err e →
    KeyIdeal rand x (.sign i hash o) (.some (.notSigned (.FailedToGenerateNonce (.FailedToGenerateRandomBytes e)), x))
  | verifyComplaint {q s Q r t hash o e} : x.keys[q]? = .some Q → x.signatures[s]? = .some (r, t) → verifyingComplaint n t hash o = .some e →
    KeyIdeal rand x (.verify q s hash o) (.some (.notVerified e, x))
  | verified {q s Q r t hash o} : x.keys[q]? = .some Q → x.signatures[s]? = .some (r, t) → verifyingComplaint n t hash o = none →
    EcdsaVerifies n G Q (leadingBits (bitLength n) hash) r t → KeyIdeal rand x (.verify q s hash o) (.some (.verified true, x))
  | refuted {q s Q r t hash o} : x.keys[q]? = .some Q → x.signatures[s]? = .some (r, t) → verifyingComplaint n t hash o = none →
    ¬ EcdsaVerifies n G Q (leadingBits (bitLength n) hash) r t → KeyIdeal rand x (.verify q s hash o) (.some (.verified false, x))
  | recoverComplaint {s r t hash id o e} : x.signatures[s]? = .some (r, t) → recoveryComplaint n hash o = .some e →
    KeyIdeal rand x (.recover s hash id o) (.some (.notRecovered e, x))
  /-- Exactly the public keys with which the signature verifies and which fit the recovery id, each once, in some order. -/
  | recovered {s r t hash id o Qs} : x.signatures[s]? = .some (r, t) → recoveryComplaint n hash o = none → Qs.Nodup →
    (∀ Q, Q ∈ Qs ↔ Q ≠ 0 ∧ EcdsaVerifies n G Q (leadingBits (bitLength n) hash) r t ∧
      ∀ i, id = .some i → IdDescribes n G Q (leadingBits (bitLength n) hash) r t i) →
    KeyIdeal rand x (.recover s hash id o) (.some (.recovered Qs.length, { x with keys := x.keys ++ Qs }))
  | signatureText {s r t} : x.signatures[s]? = .some (r, t) → KeyIdeal rand x (.signatureText s) (.some (.text (p1363Text n r t), x))
  | badFormat {t} : t.length ≠ 4 * byteLength n ∨ (∃ c ∈ t, ¬ IsHexDigit c) →
    KeyIdeal rand x (.parseSignature t) (.some (.notSignature .InvalidFormat, x))
  | outOfRange {t r s} : r < 256 ^ byteLength n → s < 256 ^ byteLength n → lower t = p1363Text n r s → ¬ InRange n r s →
    KeyIdeal rand x (.parseSignature t) (.some (.notSignature .InvalidSignature, x))
  | parseSignature {t r s} : lower t = p1363Text n r s → InRange n r s →
    KeyIdeal rand x (.parseSignature t) (.some (.done, { x with signatures := x.signatures ++ [(r, s)] }))
  | keyText {q Q c} : x.keys[q]? = .some Q → InRange n (xCoord Q) (yCoord Q) →
    KeyIdeal rand x (.keyText q c) (.some (.text (if c then compressedText n Q else uncompressedText n Q), x))
  /-- The one place where the library panics (C19): a coordinate that is zero or not below the order. -/
  | noKeyText {q Q c} : x.keys[q]? = .some Q → ¬ InRange n (xCoord Q) (yCoord Q) → KeyIdeal rand x (.keyText q c) none
  | parseKey {t Q} : Q ≠ 0 → IsUncompressed n t Q ∨ LaxCompressed n t Q →
    KeyIdeal rand x (.parseKey t) (.some (.done, { x with keys := x.keys ++ [Q] }))
  | parseNoKey {t} : (∀ Q : (curve (a : ZMod p) (b : ZMod p)).Point, Q ≠ 0 → ¬ (IsUncompressed n t Q ∨ LaxCompressed n t Q)) →
    KeyIdeal rand x (.parseKey t) (.some (.notKey (sec1Error p n a b t), x))
  | same {q q' Q} : x.keys[q]? = .some Q → x.keys[q']? = .some Q → KeyIdeal rand x (.sameKey q q') (.some (.truth true, x))
  | different {q q' Q Q'} : x.keys[q]? = .some Q → x.keys[q']? = .some Q' → Q ≠ Q' → KeyIdeal rand x (.sameKey q q') (.some (.truth false, x))

/-- The client talks to mathematics: after these replies it holds these things.  `env i` are the random bytes delivered during the `i`-th call. -/
inductive KeyRun (c : KeyClient) (env : Nat → Nat → Out RandomError (List UInt8)) : List KeyReply → Holds p a b → Prop where
  | start : KeyRun c env [] ⟨[], [], [], []⟩
  | call {rs x r x'} : KeyRun c env rs x → KeyIdeal H h n G (env rs.length) x (c rs) (.some (r, x')) → KeyRun c env (rs ++ [r]) x'

omit [Fact p.Prime] in
/-- The call can be written in Rust when the client holds these things, and is none of those on which numbers deviate (C04, C08). -/
def KeyRequest.Proper (x : Holds p a b) : KeyRequest → Prop
  | .number q => q.WellFormed x.numbers.length ∧ ¬ q.Deviates x.numbers
  | .privateKey i => i < x.numbers.length
  | .publicKey k | .sign k _ _ => k < x.secrets.length
  | .signature i j => i < x.numbers.length ∧ j < x.numbers.length
  | .verify q s _ _ => q < x.keys.length ∧ s < x.signatures.length
  | .recover s _ _ _ | .signatureText s => s < x.signatures.length
  | .parseSignature _ | .parseKey _ => True
  | .keyText q _ => q < x.keys.length
  | .sameKey q q' => q < x.keys.length ∧ q' < x.keys.length

end

/-! ## The same client with the library -/

/-- What the client holds. -/
structure Objects where
  numbers : List BInt
  secrets : List PrivateKey
  keys : List PublicKey
  signatures : List Signature

/-- The outcome of a call as a reply. -/
def reply {ε α : Type} (x : Out ε α) (ok : α → KeyReply × Objects) (err : ε → KeyReply × Objects) : Out Unit (KeyReply × Objects) :=
  match x with
  | .ok r => .ok (ok r)
  | .err e => .ok (err e)
  | .panic => .panic
  | .hang => .hang

/-- The library answers a call.  Signing gets fuel `f` for its rounds and `nf` for the candidates in a round, and a hasher in state `st`.  Calls
that name things that do not exist are counted as panics. -/
def keyAnswer (m : Build) (w : Nat) (H : Hasher) (f nf : Nat) (st : H.State) (cp : Params) (rand : Nat → Out RandomError (List UInt8)) (x : Objects) :
    KeyRequest → Out Unit (KeyReply × Objects)
  | .number q => do
    let (r, ns) ← answer m w x.numbers q
    return (.number r, { x with numbers := ns })
  | .privateKey i => do
    match ← PrivateKey.new m w (← unwrap x.numbers[i]?) cp with
    | some k => return (.some true, { x with secrets := x.secrets ++ [k] })
    | none => return (.some false, x)
  | .publicKey k => do
    let pk ← (← unwrap x.secrets[k]?).publicKey m w
    return (.done, { x with keys := x.keys ++ [pk] })
  | .signature i j => do
    match ← Signature.new m w (← unwrap x.numbers[i]?) (← unwrap x.numbers[j]?) cp with
    | some sig => return (.some true, { x with signatures := x.signatures ++ [sig] })
    | none => return (.some false, x)
  | .sign k hash o => do
    reply (signWithOptions m w H f nf st rand hash (← unwrap x.secrets[k]?) o)
      (fun r => (.signed r.2, { x with signatures := x.signatures ++ [r.1] })) (fun e => (.notSigned e, x))
  | .verify q s hash o => do
    reply (verifyWithOptions m w hash (← unwrap x.signatures[s]?) (← unwrap x.keys[q]?) o)
      (fun b => (.verified b, x)) (fun e => (.notVerified e, x))
  | .recover s hash id o => do
    reply (recoverWithOptions m w (← unwrap x.signatures[s]?) hash id o)
      (fun ks => (.recovered ks.length, { x with keys := x.keys ++ ks })) (fun e => (.notRecovered e, x))
  | .signatureText s => do
    let t ← (← unwrap x.signatures[s]?).toP1363Hex m w
    return (.text t, x)
  | .parseSignature t =>
    reply (Signature.fromP1363Hex m w t cp) (fun sig => (.done, { x with signatures := x.signatures ++ [sig] })) (fun e => (.notSignature e, x))
  | .keyText q c => do
    let t ← (← unwrap x.keys[q]?).toSec1Hex m w c
    return (.text t, x)
  | .parseKey t =>
    reply (PublicKey.fromSec1Hex m w t cp) (fun pk => (.done, { x with keys := x.keys ++ [pk] })) (fun e => (.notKey e, x))
  | .sameKey q q' => do
    let b ← PublicKey.beq m (← unwrap x.keys[q]?) (← unwrap x.keys[q']?)
    return (.truth b, x)

/-- The first `n` calls of a client. -/
def keySession (m : Build) (w : Nat) (H : Hasher) (f nf : Nat) (st : H.State) (cp : Params) (env : Nat → Nat → Out RandomError (List UInt8))
    (c : KeyClient) : Nat → Out Unit (List KeyReply × Objects)
  | 0 => .ok ([], ⟨[], [], [], []⟩)
  | n + 1 => do
    let (rs, x) ← keySession m w H f nf st cp env c n
    let (r, x) ← keyAnswer m w H f nf st cp (env rs.length) x (c rs)
    return (rs ++ [r], x)

end LCT.Spec
