import Verif.Model.Bytes
import Verif.Model.Hash.Sha2
import Verif.Spec.Ssz

/-!
# SSZ

Models `/repo/src/blockchain/ethereum/ssz/`.  The trait `SszType` is a record of functions, and its implementations are values of this
record, generic where the code is generic.
-/

namespace LCT.Ssz
open LCT.Hash.Sha2 (chunksExact)

/-- `/repo/src/blockchain/ethereum/ssz/decoder.rs:27-31` `SszDataDecodingError`. -/
inductive Err where
  | invalidFormat
  deriving Repr, DecidableEq

/-! ## Arithmetic on `u32` and slices (standard library) -/

/-- `u32::try_from(n).unwrap()`. -/
def toU32 (n : Nat) : Out Err Nat := if n < 2 ^ 32 then .ok n else .panic

/-- `a.checked_add(b).unwrap()`. -/
def checkedAdd (a b : Nat) : Out Err Nat := if a + b < 2 ^ 32 then .ok (a + b) else .panic

/-- `a.checked_mul(b).unwrap()`. -/
def checkedMul (a b : Nat) : Out Err Nat := if a * b < 2 ^ 32 then .ok (a * b) else .panic

/-- `a + b`: overflow panics in debug builds and wraps in release builds. -/
def addU32 (m : Build) (a b : Nat) : Out Err Nat :=
  if a + b < 2 ^ 32 then .ok (a + b)
  else match m with
    | .debug => .panic
    | .release => .ok ((a + b) % 2 ^ 32)

/-- `a - b`: overflow panics in debug builds and wraps in release builds. -/
def subU32 (m : Build) (a b : Nat) : Out Err Nat :=
  if b ≤ a then .ok (a - b)
  else match m with
    | .debug => .panic
    | .release => .ok (a + 2 ^ 32 - b)

/-- `&bytes[a..b]`. -/
def slice (bs : List UInt8) (a b : Nat) : Out Err (List UInt8) :=
  if a ≤ b ∧ b ≤ bs.length then .ok ((bs.drop a).take (b - a)) else .panic

/-- `bytes.chunks_exact(n)`. -/
def chunks (n : Nat) (bs : List UInt8) : Out Err (List (List UInt8)) := if n = 0 then .panic else .ok (chunksExact n bs)

/-! ## The trait -/

/-- `/repo/src/blockchain/ethereum/ssz/core.rs:11-21` `SszType`. -/
structure SszType (α : Type) where
  size : Build → Out Err (Option Nat)
  toBytes : Build → α → Out Err (List UInt8)
  tryFromBytes : Build → List UInt8 → Out Err α

/-! ## The encoding item -/

/-- `/repo/src/blockchain/ethereum/ssz/encoder.rs:12-15` `HeaderType`. -/
inductive Header where
  | data (d : List UInt8)
  | offset (o : Nat)
  deriving Repr, DecidableEq

/-- `/repo/src/blockchain/ethereum/ssz/encoder.rs:18-22` `SszEncodingItem`. -/
structure Item where
  headers : List Header
  headersLen : Nat
  objects : List UInt8
  deriving Repr, DecidableEq

/-- `/repo/src/blockchain/ethereum/ssz/encoder.rs:53-59` `new`. -/
def Item.new : Item := ⟨[], 0, []⟩

/-- `/repo/src/blockchain/ethereum/ssz/encoder.rs:26-28` `is_empty`. -/
def Item.isEmpty (it : Item) : Bool := it.headersLen == 0

/-- `/repo/src/blockchain/ethereum/ssz/encoder.rs:30-35` `encode_fixed_size_data`. -/
def encodeFixed (it : Item) (bs : List UInt8) : Out Err Item := do
  let len ← toU32 bs.length
  let total ← checkedAdd it.headersLen len
  return { it with headers := it.headers ++ [.data bs], headersLen := total }

/-- `/repo/src/blockchain/ethereum/ssz/encoder.rs:37-49` `encode_variable_size_data`. -/
def encodeVariable (it : Item) (bs : List UInt8) : Out Err Item := do
  let relative ← toU32 it.objects.length
  let total ← checkedAdd it.headersLen 4
  return { headers := it.headers ++ [.offset relative], headersLen := total, objects := it.objects ++ bs }

/-- `/repo/src/blockchain/ethereum/ssz/encoder.rs:67-77`: the headers. -/
def buildHeaders (len : Nat) : List Header → Out Err (List UInt8)
  | [] => .ok []
  | .data d :: hs => do
    let rest ← buildHeaders len hs
    return d ++ rest
  | .offset o :: hs => do
    let offset ← checkedAdd o len
    let rest ← buildHeaders len hs
    return toLEk 4 offset ++ rest

/-- `/repo/src/blockchain/ethereum/ssz/encoder.rs:61-84` `take_data`: the data, and the item left empty. -/
def takeData (it : Item) : Out Err (List UInt8 × Item) := do
  let data ← buildHeaders it.headersLen it.headers
  return (data ++ it.objects, { headers := [], headersLen := 0, objects := [] })

/-- `/repo/src/blockchain/ethereum/ssz/core.rs:23-31` `encode_to`. -/
def encodeTo {α : Type} (m : Build) (T : SszType α) (it : Item) (v : α) : Out Err Item := do
  dassert m it.isEmpty
  let bs ← T.toBytes m v
  encodeFixed it bs

/-- `/repo/src/tools/codable/core.rs:13-18` `encode`. -/
def encode {α : Type} (m : Build) (T : SszType α) (v : α) : Out Err (List UInt8) := do
  let it ← encodeTo m T Item.new v
  let (data, _) ← takeData it
  return data

/-- `/repo/src/tools/codable/core.rs:21-26` `decode`, with `new_from_data` (`/repo/src/blockchain/ethereum/ssz/decoder.rs:22-24`) and `decode_from`
(`/repo/src/blockchain/ethereum/ssz/core.rs:33-37`). -/
def decode {α : Type} (m : Build) (T : SszType α) (bs : List UInt8) : Out Err α := T.tryFromBytes m bs

/-! ## Basic types -/

/-- `/repo/src/blockchain/ethereum/ssz/basic_types.rs:13-35`: `u8`, `u16`, `u32`, `u64`, `u128`. -/
def uintImpl (k : Nat) : SszType (BitVec (8 * k)) where
  size _ := .ok (some k)
  toBytes _ x := .ok (toLEk k x.toNat)
  tryFromBytes _ bs := if bs.length = k then .ok (BitVec.ofNat (8 * k) (fromLE bs)) else .err .invalidFormat

/-- `/repo/src/blockchain/ethereum/ssz/basic_types.rs:37-58`: `bool`. -/
def boolImpl : SszType Bool where
  size _ := .ok (some 1)
  toBytes _ b := .ok (toLEk 1 b.toNat)
  tryFromBytes _ bs :=
    if bs.length = 1 then
      match fromLE bs with
      | 0 => .ok false
      | 1 => .ok true
      | _ => .err .invalidFormat
    else .err .invalidFormat

/-- `u32::decode_from` (`/repo/src/blockchain/ethereum/ssz/basic_types.rs:24-26`), as a number. -/
def decodeU32 (m : Build) (bs : List UInt8) : Out Err Nat := do
  let x ← (uintImpl 4).tryFromBytes m bs
  return x.toNat

/-! ## Vectors and lists -/

/-- `/repo/src/blockchain/ethereum/ssz/array_types.rs:32-40`, `/repo/src/blockchain/ethereum/ssz/list_types.rs:26-34`: the elements are added to the item. -/
def encodeAll {α : Type} (m : Build) (T : SszType α) (isVar : Bool) : Item → List α → Out Err Item
  | it, [] => .ok it
  | it, v :: vs => do
    let bs ← T.toBytes m v
    let it ← (if isVar then encodeVariable it bs else encodeFixed it bs : Out Err Item)
    encodeAll m T isVar it vs

/-- `/repo/src/blockchain/ethereum/ssz/array_types.rs:29-43`, `/repo/src/blockchain/ethereum/ssz/list_types.rs:23-37` `to_bytes`. -/
def seqToBytes {α : Type} (m : Build) (T : SszType α) (vs : List α) : Out Err (List UInt8) := do
  let size ← T.size m
  let it ← encodeAll m T size.isNone Item.new vs
  let (data, _) ← takeData it
  return data

/-- `/repo/src/blockchain/ethereum/ssz/array_types.rs:59-64`, `/repo/src/blockchain/ethereum/ssz/list_types.rs:63-68`: the elements of the chunks. -/
def decodeEach {α : Type} (m : Build) (T : SszType α) : List (List UInt8) → Out Err (List α)
  | [] => .ok []
  | c :: cs => do
    let v ← decode m T c
    let vs ← decodeEach m T cs
    return v :: vs

/-- `/repo/src/blockchain/ethereum/ssz/array_types.rs:100-110`: the offsets. -/
def readOffsets (m : Build) (len : Nat) : Nat → List (List UInt8) → Out Err (List Nat)
  | _, [] => .ok []
  | previous, c :: cs => do
    let offset ← decodeU32 m c
    if offset < previous || offset > len then .err .invalidFormat
    else do
      let offsets ← readOffsets m len offset cs
      return offset :: offsets

/-- `/repo/src/blockchain/ethereum/ssz/array_types.rs:118-128`: the objects between the offsets. -/
def decodeWindows {α : Type} (m : Build) (T : SszType α) (bs : List UInt8) : List Nat → Out Err (List α)
  | o1 :: o2 :: os => do
    dassert m (decide (o2 ≥ o1))
    let object ← slice bs o1 o2
    let v ← decode m T object
    let vs ← decodeWindows m T bs (o2 :: os)
    return v :: vs
  | _ => .ok []

/-- The assertions at `/repo/src/blockchain/ethereum/ssz/array_types.rs:82-86`. -/
def variableAsserts {α : Type} (m : Build) (T : SszType α) (n headersLen : Nat) : Out Err Unit :=
  match m with
  | .release => .ok ()
  | .debug => do
    let size ← T.size .debug
    rassert size.isNone
    let product ← checkedMul n 4
    rassert (product == headersLen)

/-- `/repo/src/blockchain/ethereum/ssz/array_types.rs:77-131` `decode_variable_size_objects_from_bytes`. -/
def decodeVariable {α : Type} (m : Build) (T : SszType α) (bs : List UInt8) (n headersLen : Nat) : Out Err (List α) := do
  variableAsserts m T n headersLen
  if 2 ^ 32 ≤ bs.length then .err .invalidFormat
  else if bs.length < headersLen then .err .invalidFormat
  else do
    let _ ← addU32 m n 1
    let headers ← slice bs 0 headersLen
    let cs ← chunks 4 headers
    let offsets ← readOffsets m bs.length 0 cs
    let offsets := if offsets.isEmpty then offsets else offsets ++ [bs.length]
    decodeWindows m T bs offsets

/-- `/repo/src/blockchain/ethereum/ssz/array_types.rs:52,65`: `objects.try_into().unwrap()`. -/
def toArray {α : Type} (n : Nat) (vs : List α) : Out Err { vs : List α // vs.length = n } :=
  if h : vs.length = n then .ok ⟨vs, h⟩ else .panic

/-- `/repo/src/blockchain/ethereum/ssz/array_types.rs:18-69`: `[T; N]`. -/
def arrayImpl {α : Type} (n : Nat) (T : SszType α) : SszType { vs : List α // vs.length = n } where
  size m := do
    match ← T.size m with
    | none => return none
    | some size => do
      let n ← toU32 n
      let product ← checkedMul size n
      return some product
  toBytes m vs := seqToBytes m T vs.val
  tryFromBytes m bs := do
    match ← T.size m with
    | none => do
      let n32 ← toU32 n
      let headersLen ← checkedMul n32 4
      let vs ← decodeVariable m T bs n32 headersLen
      toArray n vs
    | some size => do
      let n32 ← toU32 n
      let product ← checkedMul size n32
      if bs.length ≠ product then .err .invalidFormat
      else do
        let cs ← chunks size bs
        let vs ← decodeEach m T cs
        toArray n vs

/-- `/repo/src/blockchain/ethereum/ssz/list_types.rs:17-73`: `Vec<T>`. -/
def listImpl {α : Type} (T : SszType α) : SszType (List α) where
  size _ := .ok none
  toBytes m vs := seqToBytes m T vs
  tryFromBytes m bs := do
    match ← T.size m with
    | none => do
      let first ← slice bs 0 4
      let payloadOffset ← decodeU32 m first
      if payloadOffset < 4 || payloadOffset % 4 != 0 then .err .invalidFormat
      else decodeVariable m T bs (payloadOffset / 4) payloadOffset
    | some size => do
      let _ ← (if size = 0 then .panic else .ok () : Out Err Unit)
      if bs.length % size ≠ 0 then .err .invalidFormat
      else do
        let cs ← chunks size bs
        decodeEach m T cs

/-! ## Containers -/

/-- `/repo/src/blockchain/ethereum/ssz/container_types.rs:17-23` `encode_as_container_element`. -/
def encodeElement {α : Type} (m : Build) (T : SszType α) (it : Item) (v : α) : Out Err Item := do
  let size ← T.size m
  let bs ← T.toBytes m v
  if size.isNone then encodeVariable it bs else encodeFixed it bs

/-- `/repo/src/blockchain/ethereum/ssz/container_types.rs:38-48`: the length of the headers. -/
def headersLength (m : Build) : Nat → List (Option Nat) → Out Err Nat
  | len, [] => .ok len
  | len, none :: sizes => do
    let len ← addU32 m len 4
    headersLength m len sizes
  | len, some size :: sizes => do
    let len ← addU32 m len size
    headersLength m len sizes

/-- `/repo/src/blockchain/ethereum/ssz/container_types.rs:71-107`: the loop, from the last element to the first.  The items are collected at the
front of `items`, for which the code has `push` here and `reverse` at the end. -/
def itemsLoop (m : Build) (bs : List UInt8) : List (Option Nat) → Nat → Nat → List (List UInt8) → Out Err (List (List UInt8))
  | [], _, _, items => .ok items
  | none :: sizes, previous, cursor, items => do
    let start ← subU32 m cursor 4
    let header ← slice bs start cursor
    let offset ← decodeU32 m header
    if offset > previous then .err .invalidFormat
    else do
      let item ← slice bs offset previous
      let cursor ← subU32 m cursor 4
      itemsLoop m bs sizes offset cursor (item :: items)
  | some size :: sizes, previous, cursor, items =>
    if size > cursor then .err .invalidFormat
    else do
      let item ← slice bs (cursor - size) cursor
      itemsLoop m bs sizes previous (cursor - size) (item :: items)

/-- `/repo/src/blockchain/ethereum/ssz/container_types.rs:33-111` `decode_as_items`. -/
def decodeAsItems (m : Build) (bs : List UInt8) (sizes : List (Option Nat)) : Out Err (List (List UInt8)) := do
  let headersLen ← headersLength m 0 sizes
  if 2 ^ 32 ≤ bs.length then .err .invalidFormat
  else if bs.length < headersLen then .err .invalidFormat
  else itemsLoop m bs sizes.reverse bs.length headersLen []

/-- The fields of a container: their sizes in order, the calls of `encode_as_container_element`, and the calls of `decode_from` on the items.
The crate has no derive macro; implementations are written by hand, as in `/repo/src/blockchain/ethereum/ssz/container_types.rs:160-183,280-305,365-390`. -/
structure Fields (α : Type) where
  sizes : Build → Out Err (List (Option Nat))
  encode : Build → Item → α → Out Err Item
  decode : Build → List (List UInt8) → Out Err α

/-- No (more) fields. -/
def noFields : Fields Unit where
  sizes _ := .ok []
  encode _ it _ := .ok it
  decode _ _ := .ok ()

/-- A field before other fields. -/
def addField {α β : Type} (T : SszType α) (F : Fields β) : Fields (α × β) where
  sizes m := do
    let size ← T.size m
    let sizes ← F.sizes m
    return size :: sizes
  encode m it v := do
    let it ← encodeElement m T it v.1
    F.encode m it v.2
  decode m items :=
    match items with
    | [] => .panic
    | item :: items => do
      let a ← LCT.Ssz.decode m T item
      let b ← F.decode m items
      return (a, b)

/-- `u16::size().unwrap() + …` -/
def sumSizes (m : Build) : Nat → List (Option Nat) → Out Err (Option Nat)
  | total, [] => .ok (some total)
  | _, none :: _ => .ok none
  | total, some size :: sizes => do
    let total ← addU32 m total size
    sumSizes m total sizes

/-- The implementation of the trait for a struct, as in `/repo/src/blockchain/ethereum/ssz/container_types.rs:160-183,280-305,365-390`: `size` is the sum
of the sizes of the fields, or `None` if one of them has none. -/
def containerImpl {α : Type} (F : Fields α) : SszType α where
  size m := do
    let sizes ← F.sizes m
    if sizes.any Option.isNone then return none else sumSizes m 0 sizes
  toBytes m v := do
    let it ← F.encode m Item.new v
    let (data, _) ← takeData it
    return data
  tryFromBytes m bs := do
    let sizes ← F.sizes m
    let items ← decodeAsItems m bs sizes
    F.decode m items

/-! ## All types -/

open Spec.Ssz in
mutual
  /-- The implementation for each type of the grammar in `Verif.Spec.Ssz`. -/
  def impl : (t : Ty) → SszType t.Val
    | .bool => boolImpl
    | .uint w => uintImpl w.bytes
    | .vec n t => arrayImpl n (impl t)
    | .list t => listImpl (impl t)
    | .container fs => containerImpl (fields fs)
  def fields : (fs : List Ty) → Fields (Vals fs)
    | [] => noFields
    | t :: fs => addField (impl t) (fields fs)
end

/-! ## Histories of an item -/

/-- A call on an encoding item: a value is encoded to it (`/repo/src/blockchain/ethereum/ssz/core.rs:23-31`), data is added to it
(`/repo/src/blockchain/ethereum/ssz/encoder.rs:30-49`), or its data is taken (`/repo/src/blockchain/ethereum/ssz/encoder.rs:61-84`). -/
inductive Op where
  | value (t : Spec.Ssz.Ty) (v : t.Val)
  | fixed (bs : List UInt8)
  | var (bs : List UInt8)
  | take

/-- A sequence of calls: the item that is left, and the data that was taken. -/
def runOps (m : Build) : Item → List Op → Out Err (Item × List (List UInt8))
  | it, [] => .ok (it, [])
  | it, .value t v :: ops => do
    let it ← encodeTo m (impl t) it v
    runOps m it ops
  | it, .fixed bs :: ops => do
    let it ← encodeFixed it bs
    runOps m it ops
  | it, .var bs :: ops => do
    let it ← encodeVariable it bs
    runOps m it ops
  | it, .take :: ops => do
    let (data, it) ← takeData it
    let (it, taken) ← runOps m it ops
    return (it, data :: taken)

end LCT.Ssz
