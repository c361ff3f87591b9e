import Verif.Model.Ethereum.Transaction
import Verif.Replay.Literals

/-!
# The crate's own tests of RLP and of transaction payloads, run on the model by the kernel

The assertions in the test modules of `/repo/src/blockchain/ethereum/rlp/` (the samples in `rlp_spec_samples.json` are run by
`Verif.Conformance`) and `/repo/src/blockchain/ethereum/transaction/payload/`.  These are tests of the model, not proofs of properties.
-/

namespace LCT.Replay
open LCT.Rlp LCT.Ethereum LCT.BigInt

private def bothBuilds (f : Build → Bool) : Bool := f .debug && f .release

/-! ## `encoding.rs:92-176`, `encoder.rs:91-153` -/

private def lorem : List UInt8 := ascii! "Lorem ipsum dolor sit amet, consectetur adipisicing elit"
private def encodeList (payload : List UInt8) : List UInt8 := encodeItem .List payload

example : encodeSingleValue (ascii! "dog") = 0x83 :: ascii! "dog" := by decide +kernel
example : encodeList (encodeSingleValue (ascii! "cat") ++ encodeSingleValue (ascii! "dog")) =
    0xc8 :: 0x83 :: ascii! "cat" ++ 0x83 :: ascii! "dog" := by decide +kernel
example : encodeSingleValue [] = [0x80] := by decide +kernel
example : encodeList [] = [0xc0] := by decide +kernel
example : encodeSingleValue (stripLeadingZeros [0]) = [0x80] := by decide +kernel
example : encodeSingleValue [0x00] = [0x00] := by decide +kernel
example : encodeSingleValue [0x0f] = [0x0f] := by decide +kernel
example : encodeSingleValue (stripLeadingZeros (toBEk 8 1024)) = [0x82, 0x04, 0x00] := by decide +kernel
example :
    let one := encodeList []
    let two := encodeList one
    let three := encodeList (one ++ two)
    encodeList (one ++ two ++ three) = [0xc7, 0xc0, 0xc1, 0xc0, 0xc3, 0xc0, 0xc1, 0xc0] := by decide +kernel
example : encodeSingleValue lorem = 0xb8 :: 0x38 :: lorem := by decide +kernel

example :
    let (first, rest) := (encU64 12 EncItem.new).takeData
    let (second, _) := (encU64 19 rest).takeData
    (first, second) = (hex! "0c", hex! "13") := by decide +kernel

/-! ## `decoding.rs:185-305`, `decoder.rs:128-150` -/

private def three : List UInt8 := [0xc7, 0xc0, 0xc1, 0xc0, 0xc3, 0xc0, 0xc1, 0xc0]

example : bothBuilds fun m => decodeData m (0x83 :: ascii! "dog") == .ok (.SingleValue, ascii! "dog") := by decide +kernel
example : bothBuilds fun m =>
    match decodeData m (0xc8 :: 0x83 :: ascii! "cat" ++ 0x83 :: ascii! "dog") with
    | .ok (.List, payload) => decodeListPayload m payload == .ok [(.SingleValue, ascii! "cat"), (.SingleValue, ascii! "dog")]
    | _ => false := by decide +kernel
example : bothBuilds fun m => decodeData m [0x80] == .ok (.SingleValue, []) := by decide +kernel
example : bothBuilds fun m => decodeData m [0xc0] == .ok (.List, []) := by decide +kernel
example : bothBuilds fun m => decodeData m [0x00] == .ok (.SingleValue, [0]) := by decide +kernel
example : bothBuilds fun m => decodeData m [0x0f] == .ok (.SingleValue, [0x0f]) := by decide +kernel
example : bothBuilds fun m =>
    match decodeData m [0x82, 0x04, 0x00] with
    | .ok (.SingleValue, payload) => payload.length == 2 && fromBE payload == 1024
    | _ => false := by decide +kernel
example : bothBuilds fun m =>
    match decodeData m three with
    | .ok (.List, payload) =>
      match decodeListPayload m payload with
      | .ok ((.List, a) :: (.List, b) :: (.List, c) :: _) =>
        decodeListPayload m a == .ok [] &&
        (match decodeListPayload m b with
          | .ok [(_, inner)] => decodeListPayload m inner == .ok []
          | _ => false) &&
        decodeListPayload m c == .ok [(.List, a), (.List, b)]
      | _ => false
    | _ => false := by decide +kernel
example : bothBuilds fun m => decodeData m (0xb8 :: 0x38 :: lorem) == .ok (.SingleValue, lorem) := by decide +kernel

private def isErr {ε α : Type} : Out ε α → Bool
  | .err _ => true
  | _ => false

example : bothBuilds fun m => isErr (decodeData m (0x83 :: ascii! "dogf")) && isErr (decodeData m (0x83 :: ascii! "do")) := by decide +kernel
example : bothBuilds fun m =>
    match decodeData m three with
    | .ok (.List, payload) => isErr (decodeListPayload m (payload ++ [0x83])) && isErr (decodeListPayload m payload.dropLast)
    | _ => false := by decide +kernel

example : decU64 ⟨.SingleValue, []⟩ = .ok 0 := by decide +kernel
example : isErr (decU64 ⟨.SingleValue, [1, 2, 3, 4, 5, 6, 7, 8, 9]⟩) := by decide +kernel

/-! ## `payload/eip_155.rs:74-107`, `payload/eip_1559.rs:85-130`, `payload/eip_2930.rs:76-108`, `payload/legacy.rs:71-109` -/

private def any {ε α : Type} (x : Out ε α) : Out Unit α := x.mapErr fun _ => ()
private def wei (m : Build) (w : Nat) (s : List UInt8) : Out Unit Wei := any (Wei.tryFromStr m w s)
private def address (s : List UInt8) : Out Unit Address := any (Address.tryFromStr s)
private def nonce (n : UInt64) : Out Unit EoaNonce := unwrap (EoaNonce.fromU64 n)
private def payload {α : Type} (x : Out Unit (Except BuildingError α × Builder)) : Out Unit α := do
  match ← x with
  | (.ok p, _) => return p
  | _ => .panic

private def passes (f : Build → Nat → Out Unit (List UInt8)) (expected : List UInt8) : Bool :=
  [8, 64].all fun w => f .debug w == .ok expected && f .release w == .ok expected

example : passes (fun m w => do
    let b := Builder.new.withChainId (← Chain.chainId w .EthereumMainnet)
    let b := b.withNonce (← nonce 9)
    let b := b.withGasPrice (← wei m w (ascii! "20000000000"))
    let b := b.withGasLimit 21000
    let b := b.withDestination (← address (ascii! "0x3535353535353535353535353535353535353535"))
    let b := b.withAmount (← wei m w (ascii! "1000000000000000000"))
    encodeM (PayloadEip155.encodeTo m w) (← payload (Builder.takeAndBuildEip155 b)))
    (hex! "ec098504a817c80082520894353535353535" "3535353535353535353535353535880de0b6" "b3a764000080018080") := by decide +kernel

example : passes (fun m w => do
    let b := Builder.new.withChainId (← BUint.ofNat w 123)
    let b := b.withNonce (← nonce 42)
    let b := b.withMaxPriorityFeePerGas (← wei m w (ascii! "0x42"))
    let b := b.withMaxFeePerGas (← wei m w (ascii! "0x0143"))
    let b := b.withGasLimit 0x5208
    let b := b.withDestination (← address (ascii! "0x123456789a123456789a123456789a123456789a"))
    let b := b.withAmount (← wei m w (ascii! "0x0123"))
    let key ← any (StorageKey.tryFromStr (ascii! "0x0123456789abcdef0123456789abcdef0123456789abcdef0123456789abcdef"))
    let b := b.withAccessList [⟨← address (ascii! "0x123456789a123456789a123456789a123456789a"), [key]⟩]
    encodeM (PayloadEip1559.encodeTo m w) (← payload (Builder.takeAndBuildEip1559 b)))
    (hex! "f85c7b2a4282014382520894123456789a12" "3456789a123456789a123456789a82012380" "f838f794123456789a123456789a12345678"
      "9a123456789ae1a00123456789abcdef0123" "456789abcdef0123456789abcdef0123456789abcdef") := by decide +kernel

example : passes (fun m w => do
    let b := Builder.new.withChainId (← BUint.ofNat w 144)
    let b := b.withNonce (← nonce 9)
    let b := b.withGasPrice (← wei m w (ascii! "0x765898be"))
    let b := b.withGasLimit 0xbb
    let b := b.withDestination (← address (ascii! "0xf933abf2475062e0f3e7bde89da3f6c9e6963b67"))
    let b := b.withAmount (← wei m w (ascii! "0xd7"))
    let b := b.withData (← any (Codecs.hexToBytes (ascii! "74a53d7a649760e78359")))
    encodeM (PayloadEip2930.encodeTo m w) (← payload (Builder.takeAndBuildEip2930 b)))
    (hex! "ed81900984765898be81bb94f933abf24750" "62e0f3e7bde89da3f6c9e6963b6781d78a74" "a53d7a649760e78359c0") := by decide +kernel

example : passes (fun m w => do
    let b := Builder.new.withNonce (← nonce 0)
    let b := b.withGasPrice (← wei m w (ascii! "0x09184e72a000"))
    let b := b.withGasLimit 0x2710
    let b := b.withDestination (← address (ascii! "0x0000000000000000000000000000000000000000"))
    let b := b.withAmount (← BUint.ofNat w 0)
    let b := b.withData (← any (Codecs.hexToBytes (ascii! "7f7465737432000000000000000000000000000000000000000000000000000000600057")))
    encodeM (PayloadLegacy.encodeTo m w) (← payload (Builder.takeAndBuildLegacy b)))
    (hex! "f846808609184e72a0008227109400000000" "0000000000000000000000000000000080a4" "7f7465737432000000000000000000000000"
      "000000000000000000000000000000600057") := by decide +kernel

end LCT.Replay
