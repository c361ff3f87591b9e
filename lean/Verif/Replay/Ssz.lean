import Verif.Model.Ssz
import Verif.Model.SszExample
import Verif.Replay.Literals

/-!
# The crate's own SSZ tests, run on the model by the kernel

Every assertion in the test modules of `/repo/src/blockchain/ethereum/ssz/`, and the worked example in `/repo/tests`.  These are tests of the model, not proofs of properties.
-/

namespace LCT.Replay
open LCT.Ssz Spec.Ssz

mutual
  /-- Comparison of values. -/
  private def same : (t : Ty) → t.Val → t.Val → Bool
    | .bool, a, b => (show Bool from a) == (show Bool from b)
    | .uint w, a, b => (show BitVec (8 * w.bytes) from a) == (show BitVec (8 * w.bytes) from b)
    | .vec _ t, a, b =>
      let a := (show { _vs : List t.Val // _ } from a).val
      let b := (show { _vs : List t.Val // _ } from b).val
      a.length == b.length && (List.zipWith (same t) a b).all id
    | .list t, a, b =>
      let a := (show List t.Val from a)
      let b := (show List t.Val from b)
      a.length == b.length && (List.zipWith (same t) a b).all id
    | .container fs, a, b => sames fs a b
  private def sames : (fs : List Ty) → Vals fs → Vals fs → Bool
    | [], _, _ => true
    | t :: fs, a, b =>
      let a := (show t.Val × Vals fs from a)
      let b := (show t.Val × Vals fs from b)
      same t a.1 b.1 && sames fs a.2 b.2
end

private def bothBuilds (f : Build → Bool) : Bool := f .debug && f .release
private def enc (t : Ty) (v : t.Val) (bs : List UInt8) : Bool := bothBuilds fun m => encode m (impl t) v == .ok bs
private def dec (t : Ty) (bs : List UInt8) (v : t.Val) : Bool := bothBuilds fun m =>
  match decode m (impl t) bs with
  | .ok r => same t r v
  | _ => false
private def bad (t : Ty) (bs : List UInt8) : Bool := bothBuilds fun m =>
  match decode m (impl t) bs with
  | .err .invalidFormat => true
  | _ => false

local macro "run" : tactic => `(tactic| decide +kernel)

abbrev u8 : Ty := .uint .w8
abbrev u16 : Ty := .uint .w16
abbrev u32 : Ty := .uint .w32
abbrev u64 : Ty := .uint .w64
abbrev u128 : Ty := .uint .w128

/-! ## `basic_types.rs:61-247` -/

example : enc .bool false (hex! "00") := by run
example : enc .bool true (hex! "01") := by run
example : dec .bool (hex! "00") false := by run
example : dec .bool (hex! "01") true := by run
example : bad .bool (hex! "02") := by run
example : bad .bool (hex! "0001") := by run
example : enc u8 0#8 (hex! "00") := by run
example : enc u8 1#8 (hex! "01") := by run
example : enc u8 0xab#8 (hex! "ab") := by run
example : dec u8 (hex! "00") 0#8 := by run
example : dec u8 (hex! "01") 1#8 := by run
example : dec u8 (hex! "ab") 0xab#8 := by run
example : bad u8 (hex! "0001") := by run
example : enc u16 0#16 (hex! "0000") := by run
example : enc u16 0xabcd#16 (hex! "cdab") := by run
example : dec u16 (hex! "0000") 0#16 := by run
example : dec u16 (hex! "cdab") 0xabcd#16 := by run
example : bad u16 (hex! "01") := by run
example : bad u16 (hex! "000001") := by run
example : enc u32 0#32 (hex! "00000000") := by run
example : enc u32 0x01234567#32 (hex! "67452301") := by run
example : dec u32 (hex! "00000000") 0#32 := by run
example : dec u32 (hex! "67452301") 0x01234567#32 := by run
example : bad u32 (hex! "01") := by run
example : bad u32 (hex! "0000000001") := by run
example : enc u64 0#64 (hex! "0000000000000000") := by run
example : enc u64 0x0123456789abcdef#64 (hex! "efcdab8967452301") := by run
example : dec u64 (hex! "0000000000000000") 0#64 := by run
example : dec u64 (hex! "efcdab8967452301") 0x0123456789abcdef#64 := by run
example : bad u64 (hex! "01") := by run
example : bad u64 (hex! "000000000000000001") := by run
example : enc u128 0#128 (hex! "00000000000000000000000000000000") := by run
example : enc u128 0x11223344556677880123456789abcdef#128 (hex! "efcdab89674523018877665544332211") := by run
example : dec u128 (hex! "00000000000000000000000000000000") 0#128 := by run
example : dec u128 (hex! "efcdab89674523018877665544332211") 0x11223344556677880123456789abcdef#128 := by run
example : bad u128 (hex! "01") := by run
example : bad u128 (hex! "0000000000000000000000000000000001") := by run

/-! ## `list_types.rs:76-211` -/

private def upTo (n : Nat) : List (BitVec 8) := (List.range n).map (BitVec.ofNat 8)
private abbrev row : List (BitVec 8) := [0#8, 1#8, 2#8, 3#8, 4#8, 5#8, 6#8]
private abbrev rowArray : (Ty.vec 7 u8).Val := ⟨row, rfl⟩

example : enc (.list u8) (upTo 48) (hex! "000102030405060708090a0b0c0d0e0f101112131415161718191a1b1c1d1e1f202122232425262728292a2b2c2d2e2f") := by run
example : enc (.list u8) ([] : List (BitVec 8)) (hex! "") := by run
example : enc (.list u8) row (hex! "00010203040506") := by run
example : dec (.list u8) (hex! "00010203040506") row := by run
example : dec (.list u8) (hex! "000102030405060708090a0b0c0d0e0f101112131415161718191a1b1c1d1e1f202122232425262728292a2b2c2d2e2f") (upTo 48) := by run
example : dec (.list u8) (hex! "") ([] : List (BitVec 8)) := by run
example : enc (.list u16) [0x4567#16, 0x0123#16] (hex! "67452301") := by run
example : dec (.list u16) (hex! "67452301") [0x4567#16, 0x0123#16] := by run
example : enc (.list (.vec 7 u8)) [rowArray, rowArray, rowArray] (hex! "000102030405060001020304050600010203040506") := by run
example : dec (.list (.vec 7 u8)) (hex! "000102030405060001020304050600010203040506") [rowArray, rowArray, rowArray] := by run
example : enc (.list (.list u8)) [row, row, row] (hex! "0c000000130000001a000000000102030405060001020304050600010203040506") := by run
example : dec (.list (.list u8)) (hex! "0c000000130000001a000000000102030405060001020304050600010203040506") [row, row, row] := by run

/-! ## `array_types.rs:134-248` -/

example : enc (.vec 7 u8) rowArray (hex! "00010203040506") := by run
example : dec (.vec 7 u8) (hex! "00010203040506") rowArray := by run
example : bad (.vec 7 u8) (hex! "0000010203040506") := by run
example : bad (.vec 7 u8) (hex! "00") := by run
example : enc (.vec 3 (.vec 7 u8)) ⟨[rowArray, rowArray, rowArray], rfl⟩ (hex! "000102030405060001020304050600010203040506") := by run
example : dec (.vec 3 (.vec 7 u8)) (hex! "000102030405060001020304050600010203040506") ⟨[rowArray, rowArray, rowArray], rfl⟩ := by run
example : bad (.vec 3 (.vec 7 u8)) (hex! "0001020304050600") := by run
example : enc (.vec 3 (.list u8)) ⟨[row, row, row], rfl⟩ (hex! "0c000000130000001a000000000102030405060001020304050600010203040506") := by run
example : dec (.vec 3 (.list u8)) (hex! "0c000000130000001a000000000102030405060001020304050600010203040506") ⟨[row, row, row], rfl⟩ := by run
example : bad (.vec 3 (.list u8)) (hex! "0c0000") := by run

/-! ## `container_types.rs:115-770` -/

abbrev smallTestStruct : Ty := .container [u16, u16]
abbrev singleFieldTestStruct : Ty := .container [u8]
abbrev fixedTestStruct : Ty := .container [u8, u64, u32]
abbrev varTestStruct : Ty := .container [u16, .list u16, u8]
abbrev complexTestStruct : Ty := .container [u16, .list u16, u8, .list u8, varTestStruct, .vec 4 fixedTestStruct, .vec 2 varTestStruct]
abbrev varTestStruct2 : Ty := .container [u16, .list u16, .list u16, u8]

example : enc smallTestStruct (0x4567#16, (0x0123#16, ())) (hex! "67452301") := by run
example : dec smallTestStruct (hex! "67452301") (0x4567#16, (0x0123#16, ())) := by run
example : enc singleFieldTestStruct (0xab#8, ()) (hex! "ab") := by run
example : dec singleFieldTestStruct (hex! "ab") (0xab#8, ()) := by run
example : enc fixedTestStruct (0xab#8, (0xaabbccdd00112233#64, (0x12345678#32, ()))) (hex! "ab33221100ddccbbaa78563412") := by run
example : dec fixedTestStruct (hex! "ab33221100ddccbbaa78563412") (0xab#8, (0xaabbccdd00112233#64, (0x12345678#32, ()))) := by run
example : enc varTestStruct (0xabcd#16, (([] : List (BitVec 16)), (0xff#8, ()))) (hex! "cdab07000000ff") := by run
example : enc varTestStruct (0xabcd#16, ([1#16, 2#16, 3#16], (0xff#8, ()))) (hex! "cdab07000000ff010002000300") := by run
example : dec varTestStruct (hex! "cdab07000000ff010002000300") (0xabcd#16, ([1#16, 2#16, 3#16], (0xff#8, ()))) := by run

private def complexValue : complexTestStruct.Val :=
  (0xaabb#16, ([0x1122#16, 0x3344#16], (0xff#8, ([102#8, 111#8, 111#8, 98#8, 97#8, 114#8],
    ((0xabcd#16, ([1#16, 2#16, 3#16], (0xff#8, ()))),
    (⟨[(0xcc#8, (0x4242424242424242#64, (0x13371337#32, ()))), (0xdd#8, (0x3333333333333333#64, (0xabcdabcd#32, ()))),
      (0xee#8, (0x4444444444444444#64, (0x00112233#32, ()))), (0xff#8, (0x5555555555555555#64, (0x44556677#32, ())))], rfl⟩,
    (⟨[(0xdead#16, ([1#16, 2#16, 3#16], (0x11#8, ()))), (0xbeef#16, ([4#16, 5#16, 6#16], (0x22#8, ())))], rfl⟩, ())))))))

private def complexText : List UInt8 :=
  hex! "bbaa47000000ff4b00000051000000cc424242424242424237133713dd3333333333333333cdabcdabee444444444444444433221100ff5555555555555555776655445e000000"
    "22114433666f6f626172cdab07000000ff0100020003000800000015000000adde0700000011010002000300efbe0700000022040005000600"

example : enc complexTestStruct complexValue complexText := by run
example : dec complexTestStruct complexText complexValue := by run

private abbrev value2 : varTestStruct2.Val := (0xabcd#16, (([] : List (BitVec 16)), ([0xef#16], (0xff#8, ()))))

example : enc (.vec 2 varTestStruct2) ⟨[value2, value2], rfl⟩ (hex! "0800000015000000cdab0b0000000b000000ffef00cdab0b0000000b000000ffef00") := by run
example : dec varTestStruct2 (hex! "cdab0b0000000b000000ffef00") value2 := by run
example : bad varTestStruct2 (hex! "cdab0b0000000b000000") := by run
example : bad varTestStruct2 (hex! "cdab0c0000000b000000ffef00") := by run
example : bad varTestStruct2 (hex! "cdabff0000000b000000ffef00") := by run
example : dec (.vec 2 varTestStruct2) (hex! "0800000015000000cdab0b0000000b000000ffef00cdab0b0000000b000000ffef00") ⟨[value2, value2], rfl⟩ := by run
example : bad (.vec 2 varTestStruct2) (hex! "08000000150000") := by run
example : bad (.vec 2 varTestStruct2) (hex! "0800000006000000cdab0b0000000b000000ffef00cdab0b0000000b000000ffef00") := by run
example : bad (.vec 2 varTestStruct2) (hex! "ff00000006000000cdab0b0000000b000000ffef00cdab0b0000000b000000ffef00") := by run

/-! ## `encoder.rs:88-103` -/

example : bothBuilds fun m => runOps m Item.new [.value u8 12#8, .take, .value u8 19#8, .take] == .ok (Item.new, [hex! "0c", hex! "13"]) := by run

/-! ## `/repo/tests/blockchain/ethereum/ssz_worked_example.rs:10-67` -/

abbrev hash256 : Ty := .vec 32 u8
abbrev checkpoint : Ty := .container [u64, hash256]
abbrev attestationData : Ty := .container [u64, u64, hash256, checkpoint, checkpoint]
abbrev indexedAttestation : Ty := .container [.list u64, attestationData, .vec 96 u8]

private def fixedBytes (n : Nat) (bs : List UInt8) (h : (bs.map (BitVec.ofNat 8 ·.toNat)).length = n) : (Ty.vec n u8).Val :=
  ⟨bs.map (BitVec.ofNat 8 ·.toNat), h⟩

private def attestation : indexedAttestation.Val :=
  ([33652#64, 59750#64, 92360#64],
    ((3080829#64, (9#64, (fixedBytes 32 (hex! "4f4250c05956f5c2b87129cf7372f14dd576fc152543bf7042e963196b843fe6") (by decide +kernel),
      ((96274#64, (fixedBytes 32 (hex! "d24639f2e661bc1adcbe7157280776cf76670fff0fee0691f146ab827f4f1ade") (by decide +kernel), ())),
      ((96275#64, (fixedBytes 32 (hex! "9bcd31881817ddeab686f878c8619d664e8bfa4f8948707cba5bc25c8d74915d") (by decide +kernel), ())), ()))))),
    (fixedBytes 96 (hex! "aaf504503ff15ae86723c906b4b6bac91ad728e4431aea3be2e8e3acc888d8af"
    "5dffbbcf53b234ea8e3fde67fbb09120027335ec63cf23f0213cc439e8d1b856"
    "c2ddfc1a78ed3326fb9b4fe333af4ad3702159dbf9caeb1a4633b752991ac437") (by decide +kernel), ())))

private def attestationText : List UInt8 :=
  hex! "e40000007d022f000000000009000000000000004f4250c05956f5c2b87129cf7372f14dd576fc15"
    "2543bf7042e963196b843fe61278010000000000d24639f2e661bc1adcbe7157280776cf76670fff"
    "0fee0691f146ab827f4f1ade13780100000000009bcd31881817ddeab686f878c8619d664e8bfa4f"
    "8948707cba5bc25c8d74915daaf504503ff15ae86723c906b4b6bac91ad728e4431aea3be2e8e3ac"
    "c888d8af5dffbbcf53b234ea8e3fde67fbb09120027335ec63cf23f0213cc439e8d1b856c2ddfc1a"
    "78ed3326fb9b4fe333af4ad3702159dbf9caeb1a4633b752991ac437748300000000000066e90000"
    "00000000c868010000000000"

example : enc indexedAttestation attestation attestationText := by run
example : dec indexedAttestation attestationText attestation := by run

/-- The same with the structs and implementations of the test itself. -/
private def attestation' : SszExample.IndexedAttestation where
  attestingIndices := attestation.1
  data :=
    { slot := attestation.2.1.1, index := attestation.2.1.2.1, beaconBlockRoot := attestation.2.1.2.2.1
      source := { epoch := attestation.2.1.2.2.2.1.1, root := attestation.2.1.2.2.2.1.2.1 }
      target := { epoch := attestation.2.1.2.2.2.2.1.1, root := attestation.2.1.2.2.2.2.1.2.1 } }
  signature := attestation.2.2.1

example : bothBuilds fun m => (SszExample.workedExample m attestation' (Codecs.bytesToLowerHex attestationText)) == .ok () := by run

end LCT.Replay
