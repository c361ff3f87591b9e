import Verif.Lemmas.Hash.Sponge
import Verif.Lemmas.Hash.Hmac

/-!
# Properties of SHA-3 and Keccak-256: C31; reuse of hashers: C32

The functions of FIPS 202, on bit strings, are in `Verif.Spec.Sha3`.
-/

namespace LCT.Props
open LCT.Spec LCT.Spec.Sha3 LCT.Out LCT.Hash
open LCT.Hash.Sha2 (Sha256 Sha384 Sha512)
open LCT.Hash.Sha3 (Keccak256 Sha3_224 Sha3_256 Sha3_384 Sha3_512)
variable {ε : Type}

/-! ## C31 -/

/-- C31: Keccak-256. -/
theorem C31_keccak256 (m : Build) (st : Keccak256.State) (msg : List UInt8) :
    ∃ st', (Keccak256.digest m st msg : Out ε _) = .ok (keccak256 msg, st') :=
  (Hash.Sha3.computesKeccak256 (msg.length + 1)).digest ε m st msg (Nat.lt_succ_self _)

/-- C31: SHA3-224. -/
theorem C31_sha3_224 (m : Build) (st : Sha3_224.State) (msg : List UInt8) :
    ∃ st', (Sha3_224.digest m st msg : Out ε _) = .ok (sha3 28 msg, st') :=
  (Hash.Sha3.computesSha3_224 (msg.length + 1)).digest ε m st msg (Nat.lt_succ_self _)

/-- C31: SHA3-256. -/
theorem C31_sha3_256 (m : Build) (st : Sha3_256.State) (msg : List UInt8) :
    ∃ st', (Sha3_256.digest m st msg : Out ε _) = .ok (sha3 32 msg, st') :=
  (Hash.Sha3.computesSha3_256 (msg.length + 1)).digest ε m st msg (Nat.lt_succ_self _)

/-- C31: SHA3-384. -/
theorem C31_sha3_384 (m : Build) (st : Sha3_384.State) (msg : List UInt8) :
    ∃ st', (Sha3_384.digest m st msg : Out ε _) = .ok (sha3 48 msg, st') :=
  (Hash.Sha3.computesSha3_384 (msg.length + 1)).digest ε m st msg (Nat.lt_succ_self _)

/-- C31: SHA3-512. -/
theorem C31_sha3_512 (m : Build) (st : Sha3_512.State) (msg : List UInt8) :
    ∃ st', (Sha3_512.digest m st msg : Out ε _) = .ok (sha3 64 msg, st') :=
  (Hash.Sha3.computesSha3_512 (msg.length + 1)).digest ε m st msg (Nat.lt_succ_self _)

/-- C31: digests have 28, 32, 48, 64 and 32 bytes. -/
theorem C31_lengths (msg : List UInt8) : (sha3 28 msg).length = 28 ∧ (sha3 32 msg).length = 32 ∧ (sha3 48 msg).length = 48 ∧
    (sha3 64 msg).length = 64 ∧ (keccak256 msg).length = 32 :=
  ⟨(Hash.Sha3.computesSha3_224 0).length msg, (Hash.Sha3.computesSha3_256 0).length msg, (Hash.Sha3.computesSha3_384 0).length msg,
    (Hash.Sha3.computesSha3_512 0).length msg, (Hash.Sha3.computesKeccak256 0).length msg⟩

/-- C31: the blocks that the hashers announce (to HMAC) are as long as the rate of the sponge. -/
theorem C31_blocks : 8 * Sha3_224.blockLen = 1600 - 2 * 224 ∧ 8 * Sha3_256.blockLen = 1600 - 2 * 256 ∧ 8 * Sha3_384.blockLen = 1600 - 2 * 384 ∧
    8 * Sha3_512.blockLen = 1600 - 2 * 512 ∧ 8 * Keccak256.blockLen = 1600 - 512 := by decide

/-- C31: HMAC with SHA3-256, as an instance of the theorem on HMAC with any hash function. -/
theorem C31_hmac (m : Build) (st : Sha3_256.State) (key msg : List UInt8) :
    ∃ st', (Hash.hmac m Sha3_256 st key msg : Out ε _) = .ok (Spec.hmac (sha3 32) 136 key msg, st') := by
  obtain ⟨⟨d, st'⟩, e, hd⟩ := Hash.hmac_y (ε := ε) m (Hash.Sha3.computesSha3_256 (137 + key.length + msg.length + 32)) (by decide) st
    (key := key) (msg := msg) (by omega) (by show 136 + _ < _; omega) (by show 136 + 32 < _; omega)
  exact ⟨st', by rw [e]; exact congrArg (fun d => Out.ok (d, st')) hd⟩

set_option maxRecDepth 100000 in
/-- The digest of the empty message, known from Ethereum. -/
theorem keccak256_empty : keccak256 [] = [0xc5, 0xd2, 0x46, 0x01, 0x86, 0xf7, 0x23, 0x3c, 0x92, 0x7e, 0x7d, 0xb2, 0xdc, 0xc7, 0x03, 0xc0,
    0xe5, 0x00, 0xb6, 0x53, 0xca, 0x82, 0x27, 0x3b, 0x7b, 0xfa, 0xd8, 0x04, 0x5d, 0x85, 0xa4, 0x70] := by
  have h : (match (Keccak256.digest .debug Keccak256.fresh [] : Out Unit _) with
    | .ok (d, _) => some d
    | _ => none) = some [0xc5, 0xd2, 0x46, 0x01, 0x86, 0xf7, 0x23, 0x3c, 0x92, 0x7e, 0x7d, 0xb2, 0xdc, 0xc7, 0x03, 0xc0,
    0xe5, 0x00, 0xb6, 0x53, 0xca, 0x82, 0x27, 0x3b, 0x7b, 0xfa, 0xd8, 0x04, 0x5d, 0x85, 0xa4, 0x70] := by decide +kernel
  obtain ⟨st', e⟩ := C31_keccak256 (ε := Unit) .debug Keccak256.fresh []
  rw [e] at h
  exact Option.some.inj h

set_option maxRecDepth 100000 in
/-- The digest of `abc` printed in the examples to FIPS 202. -/
example : sha3 32 [97, 98, 99] = [0x3a, 0x98, 0x5d, 0xa7, 0x4f, 0xe2, 0x25, 0xb2, 0x04, 0x5c, 0x17, 0x2d, 0x6b, 0xd3, 0x90, 0xbd,
    0x85, 0x5f, 0x08, 0x6e, 0x3e, 0x9d, 0x52, 0x5b, 0x46, 0xbf, 0xe2, 0x45, 0x11, 0x43, 0x15, 0x32] := by
  have h : (match (Sha3_256.digest .debug Sha3_256.fresh [97, 98, 99] : Out Unit _) with
    | .ok (d, _) => some d
    | _ => none) = some [0x3a, 0x98, 0x5d, 0xa7, 0x4f, 0xe2, 0x25, 0xb2, 0x04, 0x5c, 0x17, 0x2d, 0x6b, 0xd3, 0x90, 0xbd,
    0x85, 0x5f, 0x08, 0x6e, 0x3e, 0x9d, 0x52, 0x5b, 0x46, 0xbf, 0xe2, 0x45, 0x11, 0x43, 0x15, 0x32] := by decide +kernel
  obtain ⟨st', e⟩ := C31_sha3_256 (ε := Unit) .debug Sha3_256.fresh [97, 98, 99]
  rw [e] at h
  exact Option.some.inj h

/-! ## C32 -/

/-- The hash functions of the crate. -/
def hashers : List Hasher := [Sha256, Sha384, Sha512, Sha3_224, Sha3_256, Sha3_384, Sha3_512, Keccak256]

/-- The digests of several messages, one after the other, by one hasher object. -/
def digestAll (H : Hasher) (m : Build) : H.State → List (List UInt8) → Out ε (List (List UInt8))
  | _, [] => .ok []
  | st, msg :: msgs => do
    let (d, st) ← H.digest m st msg
    let ds ← digestAll H m st msgs
    return d :: ds

/-- C32: what an object does with a message, a panic included, does not depend on its state. -/
theorem C32_state (H : Hasher) (hH : H ∈ hashers) (m : Build) (st : H.State) (msg : List UInt8) :
    (H.digest m st msg : Out ε _) = H.digest m H.fresh msg := by
  unfold hashers at hH
  simp only [List.mem_cons, List.not_mem_nil, or_false] at hH
  rcases hH with rfl | rfl | rfl | rfl | rfl | rfl | rfl | rfl <;> rfl

/-- C32: an object that hashes any sequence of messages gives the digests that a new object would give for each of them. -/
theorem C32_history (H : Hasher) (hH : H ∈ hashers) (m : Build) (st : H.State) (msgs ds : List (List UInt8)) :
    (digestAll H m st msgs : Out ε _) = .ok ds ↔ List.Forall₂ (fun msg d => ∃ st', (H.digest m H.fresh msg : Out ε _) = .ok (d, st')) msgs ds := by
  induction msgs generalizing st ds with
  | nil =>
    constructor
    · intro h; cases h; exact .nil
    · intro h; cases h; rfl
  | cons msg msgs ih =>
    unfold digestAll
    rw [C32_state H hH m st msg]
    constructor
    · intro h
      cases e : (H.digest m H.fresh msg : Out ε _) with
      | ok p =>
        obtain ⟨d, st'⟩ := p
        rw [e, bind_ok] at h
        cases e2 : (digestAll H m st' msgs : Out ε _) with
        | ok ds' =>
          simp only [e2, bind_ok] at h
          cases h
          exact .cons ⟨st', e⟩ ((ih st' ds').mp e2)
        | err _ => simp only [e2] at h; cases h
        | panic => simp only [e2] at h; cases h
        | hang => simp only [e2] at h; cases h
      | err _ => rw [e] at h; cases h
      | panic => rw [e] at h; cases h
      | hang => rw [e] at h; cases h
    · intro h
      cases h with
      | cons h1 h2 =>
        obtain ⟨st', e⟩ := h1
        rw [e, bind_ok]
        simp only [(ih st' _).mpr h2, bind_ok]
        rfl

/-- C32: the sequence of digests of a reused Keccak-256 object. -/
theorem C32_keccak256 (m : Build) (st : Keccak256.State) (msgs : List (List UInt8)) :
    (digestAll Keccak256 m st msgs : Out ε _) = .ok (msgs.map keccak256) := by
  rw [C32_history _ (by unfold hashers; simp)]
  induction msgs with
  | nil => exact .nil
  | cons msg msgs ih => exact .cons (C31_keccak256 m _ msg) ih

example : (digestAll Keccak256 .debug Keccak256.fresh [[1, 2, 3], []] : Out Unit _) = .ok [keccak256 [1, 2, 3], keccak256 []] :=
  C32_keccak256 _ _ _

end LCT.Props
