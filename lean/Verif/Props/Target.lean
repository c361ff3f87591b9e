import Verif.Lemmas.Hash.Target
import Verif.Props.Sha3
import Verif.Lemmas.Codecs
import Verif.Lemmas.Ethereum.Address

/-!
# Byte order of the target: C81; contracts of the unsafe code: C82

`Verif.Model.Hash.Sha3Target` models SHA-3 for targets of both byte orders.  UTF-8 is the definition in Lean's library, `ByteArray.IsValidUTF8`: the
bytes are the UTF-8 encoding of some list of Unicode characters.
-/

namespace LCT.Props
open LCT.Spec LCT.Spec.Sha3 LCT.Spec.Eth LCT.Out LCT.Hash LCT.Hash.Sha3 LCT.Ethereum
variable {ε : Type}

/-! ## C81 -/

/-- C81: Keccak-256 on a target of either byte order. -/
theorem C81_keccak256 (e : Endian) (m : Build) (st : (Keccak256On e).State) (msg : List UInt8) :
    ∃ st', ((Keccak256On e).digest m st msg : Out ε _) = .ok (keccak256 msg, st') :=
  (computesOn e (computesKeccak256 (msg.length + 1))).digest ε m st msg (Nat.lt_succ_self _)

/-- C81: SHA3-224 on a target of either byte order. -/
theorem C81_sha3_224 (e : Endian) (m : Build) (st : (Sha3_224On e).State) (msg : List UInt8) :
    ∃ st', ((Sha3_224On e).digest m st msg : Out ε _) = .ok (sha3 28 msg, st') :=
  (computesOn e (computesSha3_224 (msg.length + 1))).digest ε m st msg (Nat.lt_succ_self _)

/-- C81: SHA3-256 on a target of either byte order. -/
theorem C81_sha3_256 (e : Endian) (m : Build) (st : (Sha3_256On e).State) (msg : List UInt8) :
    ∃ st', ((Sha3_256On e).digest m st msg : Out ε _) = .ok (sha3 32 msg, st') :=
  (computesOn e (computesSha3_256 (msg.length + 1))).digest ε m st msg (Nat.lt_succ_self _)

/-- C81: SHA3-384 on a target of either byte order. -/
theorem C81_sha3_384 (e : Endian) (m : Build) (st : (Sha3_384On e).State) (msg : List UInt8) :
    ∃ st', ((Sha3_384On e).digest m st msg : Out ε _) = .ok (sha3 48 msg, st') :=
  (computesOn e (computesSha3_384 (msg.length + 1))).digest ε m st msg (Nat.lt_succ_self _)

/-- C81: SHA3-512 on a target of either byte order. -/
theorem C81_sha3_512 (e : Endian) (m : Build) (st : (Sha3_512On e).State) (msg : List UInt8) :
    ∃ st', ((Sha3_512On e).digest m st msg : Out ε _) = .ok (sha3 64 msg, st') :=
  (computesOn e (computesSha3_512 (msg.length + 1))).digest ε m st msg (Nat.lt_succ_self _)

/-- The digest without the state of the object. -/
def digestOnly (o : Out ε (List UInt8 × KState)) : Out ε (List UInt8) := do return (← o).1

/-- C81: for any length of output and any suffix, whatever the object held before, the two targets give the same bytes or both panic. -/
theorem C81_same (m : Build) (msg : List UInt8) (s s' : KState) (out : Nat) (suffix : UInt8) :
    digestOnly (sha3DigestOn .big m msg s out suffix : Out ε _) = digestOnly (sha3DigestOn .little m msg s' out suffix) := by
  have h : ∀ e t, digestOnly (sha3DigestOn e m msg t out suffix : Out ε _) = digestOnly (sha3Digest m msg t out suffix) := by
    intro e t
    rw [sha3DigestOn_eq]
    unfold digestOnly
    cases (sha3Digest m msg t out suffix : Out ε _) <;> rfl
  rw [h, h]
  rfl

/-- C81: the model that the other theorems use is the one for a little-endian target. -/
theorem C81_little (m : Build) (msg : List UInt8) (s : KState) (out : Nat) (suffix : UInt8) :
    (sha3DigestOn .little m msg s out suffix : Out ε _) = sha3Digest m msg s out suffix := by
  rw [sha3DigestOn_eq]
  cases (sha3Digest m msg s out suffix : Out ε _) <;> rfl

/-- C81: HMAC with Keccak-256 on a target of either byte order. -/
theorem C81_hmac (e : Endian) (m : Build) (st : (Keccak256On e).State) (key msg : List UInt8) :
    ∃ st', (Hash.hmac m (Keccak256On e) st key msg : Out ε _) = .ok (Spec.hmac keccak256 136 key msg, st') := by
  obtain ⟨⟨d, st'⟩, e', hd⟩ := Hash.hmac_y (ε := ε) m (computesOn e (computesKeccak256 (137 + key.length + msg.length + 32))) (by show 32 ≤ 136; decide) st
    (key := key) (msg := msg) (by omega) (by show 136 + _ < _; omega) (by show 136 + 32 < _; omega)
  exact ⟨st', by
    show (Hash.hmac m (hasherOn e 136 32 suffixKeccak) st key msg : Out ε _) = _
    rw [e']; exact congrArg (fun d => Out.ok (d, st')) hd⟩

/-- The two targets see the same memory as different words: the theorems are not about two equal programs. -/
example : fromNe .little [1, 2, 3, 4, 5, 6, 7, 8] = 0x0807060504030201 ∧ fromNe .big [1, 2, 3, 4, 5, 6, 7, 8] = 0x0102030405060708 ∧
    swapBytes 0x0102030405060708 = 0x0807060504030201 := by decide

set_option maxRecDepth 100000 in
/-- Without the swaps at the ends of the permutation, a big-endian target would compute something else. -/
example : toBytesOn .big (keccakf (fromBytesOn .big (1 :: List.replicate 199 0))) ≠
    toBytesOn .big (keccakfOn .big (fromBytesOn .big (1 :: List.replicate 199 0))) := by decide +kernel

set_option maxRecDepth 100000 in
/-- A big-endian target hashes the empty message to the digest known from Ethereum: the model, run. -/
example : digestOnly (sha3DigestOn .big .debug [] (Vector.replicate 25 7) 32 suffixKeccak : Out Unit _) =
    .ok [0xc5, 0xd2, 0x46, 0x01, 0x86, 0xf7, 0x23, 0x3c, 0x92, 0x7e, 0x7d, 0xb2, 0xdc, 0xc7, 0x03, 0xc0,
      0xe5, 0x00, 0xb6, 0x53, 0xca, 0x82, 0x27, 0x3b, 0x7b, 0xfa, 0xd8, 0x04, 0x5d, 0x85, 0xa4, 0x70] := by decide +kernel

/-! ## C82 -/

/-- The bytes are the UTF-8 encoding of some text. -/
def IsUtf8 (bs : List UInt8) : Prop := (ByteArray.mk bs.toArray).IsValidUTF8

/-- Bytes below 128 are UTF-8. -/
theorem isUtf8_of_ascii (bs : List UInt8) (h : ∀ b ∈ bs, b < 128) : IsUtf8 bs := by
  have key : ∀ b : UInt8, b < 128 → String.utf8EncodeChar (Char.ofNat b.toNat) = [b] := by
    intro b
    have : ∀ n : Fin 256, UInt8.ofNat n.val < 128 → String.utf8EncodeChar (Char.ofNat (UInt8.ofNat n.val).toNat) = [UInt8.ofNat n.val] := by
      decide +kernel
    have hb := this ⟨b.toNat, b.toNat_lt⟩
    rwa [UInt8.ofNat_toNat] at hb
  refine ⟨bs.map fun b => Char.ofNat b.toNat, ?_⟩
  have e : (bs.map fun b => Char.ofNat b.toNat).flatMap String.utf8EncodeChar = bs := by
    induction bs with
    | nil => rfl
    | cons b bs ih =>
      rw [List.map_cons, List.flatMap_cons, key b (h b List.mem_cons_self), ih fun c hc => h c (List.mem_cons_of_mem _ hc)]
      rfl
  unfold List.utf8Encode
  rw [e]
  apply ByteArray.ext
  simp

/-- C82: the hex encoder makes a `String` of its bytes without checking them (`String::from_utf8_unchecked`); they are UTF-8, whatever the input. -/
theorem C82_hex_text (bs : List UInt8) : IsUtf8 (Codecs.bytesToLowerHex bs) := by
  apply isUtf8_of_ascii
  intro c hc
  rw [Codecs.bytesToLowerHex_eq] at hc
  obtain ⟨n, hn, rfl⟩ := hexOf_char hc
  clear hc
  revert n
  decide

/-- C82: the text of an address, which is checked (`String::from_utf8(…).unwrap()`), passes the check. -/
theorem C82_address_text (m : Build) (a : Address) : ∃ s, (eip55ChecksumEncode m a.toLowerHex : Out ε _) = .ok s ∧ IsUtf8 s := by
  refine ⟨eip55 Spec.Sha3.keccak256 a.data, ?_, isUtf8_of_ascii _ fun c hc => ((eip55_lower _ _).2 c hc).2⟩
  rw [Address.toLowerHex, Codecs.bytesToLowerHex_eq, checksum_eq m _ a.len]

/-- C82: the arrays of words and of bytes that the hash functions reinterpret as each other have the same length in bytes, on either target,
and reinterpreting there and back changes nothing. -/
theorem C82_reinterpret (e : Endian) : (∀ s : KState, (toBytesOn e s).length = 25 * 8 ∧ fromBytesOn e (toBytesOn e s) = s) ∧
    ∀ bs : List UInt8, bs.length = 200 → toBytesOn e (fromBytesOn e bs) = bs := by
  have hb : ∀ bs : List UInt8, bs.length = 200 → toBytesOn e (fromBytesOn e bs) = bs := by
    intro bs h
    rw [fromBytesOn_swap e bs h, toBytesOn_swap, fromBytes_bytes bs h]
  have hl : ∀ s : KState, (toBytesOn e s).length = 25 * 8 := by
    intro s
    rw [← swapOnBig_swapOnBig e s, toBytesOn_swap, toBytes_length]
  refine ⟨fun s => ⟨hl s, ?_⟩, hb⟩
  rw [fromBytesOn_swap e _ (hl s), ← swapOnBig_swapOnBig e s, toBytesOn_swap, fromBytes_toBytes]

/-- Not all bytes are UTF-8. -/
example : ¬ IsUtf8 [0x66, 0xff] := by unfold IsUtf8; decide +kernel
example : IsUtf8 (Codecs.bytesToLowerHex [0xff, 0x00]) := C82_hex_text _

end LCT.Props
