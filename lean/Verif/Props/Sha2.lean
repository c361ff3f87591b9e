import Verif.Lemmas.Hash.Sha2
import Verif.Lemmas.Hash.Bits
import Mathlib.Data.Nat.Prime.Basic
import Mathlib.Tactic.NormNum

/-!
# Properties of SHA-2: C29, C30, C33, and C32 for these hash functions

The functions `sha256`, `sha384`, `sha512` of FIPS 180-4 are in `Verif.Spec.Sha2`.
-/

namespace LCT.Props
open LCT.Spec LCT.Spec.Sha2 LCT.Out LCT.Hash
open LCT.Hash.Sha2 (Sha256 Sha384 Sha512)
variable {ε : Type}

/-! ## C29, C30 -/

/-- C29: the digest of every message shorter than `2 ^ 61` bytes is that of FIPS 180-4. -/
theorem C29_sha256 (m : Build) (st : Sha256.State) (msg : List UInt8) (h : msg.length < 2 ^ 61) :
    ∃ st', (Sha256.digest m st msg : Out ε _) = .ok (sha256 msg, st') := Hash.Sha2.computes256.digest ε m st msg h

/-- C30: the same for SHA-384. -/
theorem C30_sha384 (m : Build) (st : Sha384.State) (msg : List UInt8) (h : msg.length < 2 ^ 61) :
    ∃ st', (Sha384.digest m st msg : Out ε _) = .ok (sha384 msg, st') := Hash.Sha2.computes384.digest ε m st msg h

/-- C30: the same for SHA-512. -/
theorem C30_sha512 (m : Build) (st : Sha512.State) (msg : List UInt8) (h : msg.length < 2 ^ 61) :
    ∃ st', (Sha512.digest m st msg : Out ε _) = .ok (sha512 msg, st') := Hash.Sha2.computes512.digest ε m st msg h

/-- C29, C30: digests have 32, 48 and 64 bytes. -/
theorem C29_lengths (msg : List UInt8) : (sha256 msg).length = 32 ∧ (sha384 msg).length = 48 ∧ (sha512 msg).length = 64 :=
  ⟨Hash.Sha2.computes256.length msg, Hash.Sha2.computes384.length msg, Hash.Sha2.computes512.length msg⟩

/-- The bound is the right one: with overflow checks a message of `2 ^ 61` bytes or more makes the code panic (if the machine could hold it), as
its length in bits is computed in 64 bits. -/
theorem C29_too_long (st : Sha256.State) (msg : List UInt8) (h : 2 ^ 61 ≤ msg.length) : (Sha256.digest .debug st msg : Out ε _) = .panic := by
  show (Bind.bind (Hash.Sha2.digestCore .debug Hash.Sha2.code256 Hash.Sha2.s256 st msg) _ : Out ε _) = _
  rw [Hash.Sha2.digestCore_too_long Hash.Sha2.matches256 rfl _ st msg h]
  rfl

theorem C30_too_long (st : Sha512.State) (msg : List UInt8) (h : 2 ^ 61 ≤ msg.length) : (Sha512.digest .debug st msg : Out ε _) = .panic := by
  show (Bind.bind (Hash.Sha2.digestCore .debug Hash.Sha2.code512 Hash.Sha2.s512 st msg) _ : Out ε _) = _
  rw [Hash.Sha2.digestCore_too_long Hash.Sha2.matches512 rfl _ st msg h]
  rfl

/-- The digest of `abc` printed in FIPS 180-4's examples. -/
theorem sha256_abc : sha256 [97, 98, 99] = [0xba, 0x78, 0x16, 0xbf, 0x8f, 0x01, 0xcf, 0xea, 0x41, 0x41, 0x40, 0xde, 0x5d, 0xae, 0x22, 0x23,
    0xb0, 0x03, 0x61, 0xa3, 0x96, 0x17, 0x7a, 0x9c, 0xb4, 0x10, 0xff, 0x61, 0xf2, 0x00, 0x15, 0xad] := by
  have h : (match (Sha256.digest .debug Sha256.fresh [97, 98, 99] : Out Unit _) with
    | .ok (d, _) => some d
    | _ => none) = some [0xba, 0x78, 0x16, 0xbf, 0x8f, 0x01, 0xcf, 0xea, 0x41, 0x41, 0x40, 0xde, 0x5d, 0xae, 0x22, 0x23,
    0xb0, 0x03, 0x61, 0xa3, 0x96, 0x17, 0x7a, 0x9c, 0xb4, 0x10, 0xff, 0x61, 0xf2, 0x00, 0x15, 0xad] := by decide +kernel
  obtain ⟨st', e⟩ := C29_sha256 (ε := Unit) .debug Sha256.fresh [97, 98, 99] (by decide)
  rw [e] at h
  exact Option.some.inj h

/-! ## Where the constants come from -/

/-- The first 80 primes. -/
def first80 : List Nat := [2, 3, 5, 7, 11, 13, 17, 19, 23, 29, 31, 37, 41, 43, 47, 53, 59, 61, 67, 71, 73, 79, 83, 89, 97, 101, 103, 107, 109,
  113, 127, 131, 137, 139, 149, 151, 157, 163, 167, 173, 179, 181, 191, 193, 197, 199, 211, 223, 227, 229, 233, 239, 241, 251, 257, 263, 269,
  271, 277, 281, 283, 293, 307, 311, 313, 317, 331, 337, 347, 349, 353, 359, 367, 373, 379, 383, 389, 397, 401, 409]

/-- The list is that of the primes below 410, in ascending order. -/
theorem first80_primes : first80.Pairwise (· < ·) ∧ ∀ p, p ∈ first80 ↔ p < 410 ∧ p.Prime := by
  refine ⟨by decide +kernel, fun p => ?_⟩
  have h : ∀ p < 410, (p ∈ first80 ↔ 2 ≤ p ∧ ∀ m < p, m ∣ p → m = 1) := by decide +kernel
  have hlt : ∀ p ∈ first80, p < 410 := by decide +kernel
  constructor
  · intro hp
    have := (h p (hlt p hp)).mp hp
    exact ⟨hlt p hp, Nat.prime_def_lt.mpr ⟨this.1, fun m hm hd => this.2 m hm hd⟩⟩
  · rintro ⟨h1, h2⟩
    exact (h p h1).mpr ⟨h2.two_le, fun m hm hd => (Nat.prime_def_lt.mp h2).2 m hm hd⟩

/-- `List.Forall₂` from a check of witnesses: the root is `k` plus a small multiple of `2 ^ v`. -/
private theorem forall₂_of_check {P : Nat → Nat → Prop} {c : Nat → Nat → Bool} (hc : ∀ p k, c p k = true → P p k) :
    (ps ks : List Nat) → ((ps.length == ks.length) && (ps.zip ks).all fun x => c x.1 x.2) = true → List.Forall₂ P ps ks
  | [], [], _ => .nil
  | [], _ :: _, h => by simp at h
  | _ :: _, [], h => by simp at h
  | p :: ps, k :: ks, h => by
    simp only [List.length_cons, List.zip_cons_cons, List.all_cons, Bool.and_eq_true, beq_iff_eq, Nat.add_right_cancel_iff] at h
    exact .cons (hc p k h.2.1) (forall₂_of_check hc ps ks (by simp only [Bool.and_eq_true, beq_iff_eq]; exact ⟨h.1, h.2.2⟩))

private def cubeCheck (v p k : Nat) : Bool :=
  decide (k < 2 ^ v) && (List.range 8).any fun q => decide ((q * 2 ^ v + k) ^ 3 ≤ p * 2 ^ (3 * v)) && decide (p * 2 ^ (3 * v) < (q * 2 ^ v + k + 1) ^ 3)

private theorem cubeCheck_sound {v p k : Nat} (h : cubeCheck v p k = true) : CubeRootBits v p k := by
  simp only [cubeCheck, Bool.and_eq_true, decide_eq_true_eq, List.any_eq_true] at h
  obtain ⟨hk, q, -, h1, h2⟩ := h
  exact ⟨_, h1, h2, by rw [Nat.mul_comm, Nat.mul_add_mod, Nat.mod_eq_of_lt hk]⟩

private def squareCheck (v p k : Nat) : Bool :=
  decide (k < 2 ^ v) && (List.range 8).any fun q => decide ((q * 2 ^ v + k) ^ 2 ≤ p * 2 ^ (2 * v)) && decide (p * 2 ^ (2 * v) < (q * 2 ^ v + k + 1) ^ 2)

private theorem squareCheck_sound {v p k : Nat} (h : squareCheck v p k = true) : SquareRootBits v p k := by
  simp only [squareCheck, Bool.and_eq_true, decide_eq_true_eq, List.any_eq_true] at h
  obtain ⟨hk, q, -, h1, h2⟩ := h
  exact ⟨_, h1, h2, by rw [Nat.mul_comm, Nat.mul_add_mod, Nat.mod_eq_of_lt hk]⟩

/-- C29: the constants in the specification of SHA-256 are made of the first 32 bits of the fractional parts of the cube roots of the first 64
primes, and of the square roots of the first 8. -/
theorem C29_constants : List.Forall₂ (CubeRootBits 32) (first80.take 64) A256.K ∧
    List.Forall₂ (SquareRootBits 32) (first80.take 8) (H256.words.map BitVec.toNat) :=
  ⟨forall₂_of_check (fun _ _ h => cubeCheck_sound h) _ _ (by decide +kernel), forall₂_of_check (fun _ _ h => squareCheck_sound h) _ _ (by decide +kernel)⟩

/-- C30: the constants in the specification of SHA-384 and SHA-512 are made of the first 64 bits of the fractional parts of the cube roots of the
first 80 primes, and of the square roots of the first 8 (SHA-512) and of the ninth to the sixteenth (SHA-384). -/
theorem C30_constants : List.Forall₂ (CubeRootBits 64) first80 A512.K ∧
    List.Forall₂ (SquareRootBits 64) (first80.take 8) (H512.words.map BitVec.toNat) ∧
    List.Forall₂ (SquareRootBits 64) ((first80.drop 8).take 8) (H384.words.map BitVec.toNat) :=
  ⟨forall₂_of_check (fun _ _ h => cubeCheck_sound h) _ _ (by decide +kernel), forall₂_of_check (fun _ _ h => squareCheck_sound h) _ _ (by decide +kernel),
    forall₂_of_check (fun _ _ h => squareCheck_sound h) _ _ (by decide +kernel)⟩

/-! ## C33: padding

For SHA-256 words have 32 bits, blocks 512 and the length field 64; for SHA-384 and SHA-512 they have 64, 1024 and 128. -/

/-- C33: the helper `calculate_k` returns, for every message length, the least number of zero bits that satisfies the equation of FIPS 180-4. -/
theorem C33_calculate_k (m : Build) (l b lb : Nat) (hb : (b, lb) = (512, 64) ∨ (b, lb) = (1024, 128)) :
    ∃ k, (Hash.Sha2.calculateK m l b lb : Out ε _) = .ok k ∧ (l + 1 + k) % b = b - lb ∧ ∀ j, (l + 1 + j) % b = b - lb → k ≤ j := by
  rcases hb with h | h <;> cases h <;> unfold Hash.Sha2.calculateK Hash.Sha2.subU64
  · rw [if_pos (by omega)]
    simp only [bind_ok, pure_def]
    by_cases hk : 2 * 512 - (l % 512 + 1 + 64) ≥ 512
    · rw [if_pos hk, if_pos (by omega)]
      exact ⟨_, rfl, by omega, fun j hj => by omega⟩
    · rw [if_neg hk]
      exact ⟨_, rfl, by omega, fun j hj => by omega⟩
  · rw [if_pos (by omega)]
    simp only [bind_ok, pure_def]
    by_cases hk : 2 * 1024 - (l % 1024 + 1 + 128) ≥ 1024
    · rw [if_pos hk, if_pos (by omega)]
      exact ⟨_, rfl, by omega, fun j hj => by omega⟩
    · rw [if_neg hk]
      exact ⟨_, rfl, by omega, fun j hj => by omega⟩

/-- C33: the padded message that is hashed (C29, C30) is, as a bit string, the message, a bit 1, the least number `k` of zero bits for which the
length with the length field is a multiple of the block, and the length field. -/
theorem C33_padding (v : Nat) (hv : v = 32 ∨ v = 64) (msg : List UInt8) :
    ∃ k, bitsMSB (padded v msg) = bitsMSB msg ++ [true] ++ List.replicate k false ++ natBits (2 * v) (8 * msg.length) ∧
      (8 * msg.length + 1 + k) % (16 * v) = 16 * v - 2 * v ∧ (∀ j, (8 * msg.length + 1 + j) % (16 * v) = 16 * v - 2 * v → k ≤ j) ∧
      (bitsMSB (padded v msg)).length % (16 * v) = 0 := by
  refine ⟨7 + 8 * zeroBytes v msg.length, ?_, ?_, ?_, ?_⟩
  · rw [Hash.Sha2.padded_bits]
    rcases hv with rfl | rfl <;> rfl
  · rcases hv with rfl | rfl <;> simp only [zeroBytes, blockBytes, lengthBytes] <;> omega
  · intro j hj
    rcases hv with rfl | rfl <;> simp only [zeroBytes, blockBytes, lengthBytes] <;> omega
  · rw [Hash.bitsMSB_length, Hash.Sha2.padded_length]
    rcases hv with rfl | rfl <;> simp only [zeroBytes, blockBytes, lengthBytes] <;> omega

/-- C33: different messages (shorter than `2 ^ 61` bytes) have different padded forms. -/
theorem C33_injective (v : Nat) (hv : v = 32 ∨ v = 64) (a b : List UInt8) (ha : a.length < 2 ^ 61) (hb : b.length < 2 ^ 61)
    (h : padded v a = padded v b) : a = b := by
  refine Hash.Sha2.padded_inj ?_ ?_ h <;> rcases hv with rfl | rfl <;> simp only [lengthBytes] <;> norm_num <;> omega

/-- 55 bytes fit into one block with the padding, 56 do not. -/
example : (padded 32 (List.replicate 55 1)).length = 64 ∧ (padded 32 (List.replicate 56 1)).length = 128 := by
  rw [Hash.Sha2.padded_length, Hash.Sha2.padded_length]
  decide

end LCT.Props
