import Verif.Spec.Bits
import Verif.Lemmas.Hash.Sha2

/-!
# Lemmas on bit strings and on the padding of SHA-2
-/

namespace LCT.Hash
open LCT.Spec LCT.Spec.Sha2

theorem natBits_length (k n : Nat) : (natBits k n).length = k := by
  unfold natBits; rw [List.length_map, List.length_range]

theorem natBits_add (j k n : Nat) : natBits (j + k) n = natBits j (n / 2 ^ k) ++ natBits k n := by
  unfold natBits
  rw [List.range_add, List.map_append, List.map_map]
  congr 1
  · apply List.map_congr_left
    intro i hi
    rw [List.mem_range] at hi
    rw [← Nat.shiftRight_eq_div_pow, Nat.testBit_shiftRight]
    congr 1
    omega
  · apply List.map_congr_left
    intro i hi
    rw [List.mem_range] at hi
    rw [Function.comp_apply]
    congr 1
    omega

theorem natBits_mod (k n : Nat) : natBits k (n % 2 ^ k) = natBits k n := by
  unfold natBits
  apply List.map_congr_left
  intro i hi
  rw [List.mem_range] at hi
  rw [Nat.testBit_mod_two_pow, decide_eq_true (by omega : k - 1 - i < k), Bool.true_and]

theorem bitsMSB_append (as bs : List UInt8) : bitsMSB (as ++ bs) = bitsMSB as ++ bitsMSB bs := List.flatMap_append

theorem bitsMSB_length (bs : List UInt8) : (bitsMSB bs).length = 8 * bs.length := by
  unfold bitsMSB
  induction bs with
  | nil => rfl
  | cons b bs ih => rw [List.flatMap_cons, List.length_append, ih, natBits_length, List.length_cons]; omega

theorem bitsMSB_octets (k n : Nat) : bitsMSB (octets k n) = natBits (8 * k) n := by
  induction k generalizing n with
  | zero => rfl
  | succ k ih =>
    rw [octets, bitsMSB_append, ih, Nat.mul_succ, natBits_add]
    congr 1
    unfold bitsMSB
    rw [List.flatMap_cons, List.flatMap_nil, List.append_nil, toNat_ofNat_mod]
    exact natBits_mod 8 n

theorem bitsMSB_zeros (z : Nat) : bitsMSB (List.replicate z 0) = List.replicate (8 * z) false := by
  induction z with
  | zero => rfl
  | succ z ih =>
    rw [List.replicate_succ', bitsMSB_append, ih, Nat.mul_succ, ← List.replicate_append_replicate]
    rfl

namespace Sha2

theorem padded_length (v : Nat) (msg : List UInt8) : (padded v msg).length = msg.length + 1 + zeroBytes v msg.length + lengthBytes v := by
  unfold padded
  simp only [List.length_append, List.length_cons, List.length_nil, List.length_replicate, octets_toBEk, toBEk_length]

theorem padded_bits (v : Nat) (msg : List UInt8) :
    bitsMSB (padded v msg) = bitsMSB msg ++ [true] ++ List.replicate (7 + 8 * zeroBytes v msg.length) false ++
      natBits (8 * lengthBytes v) (8 * msg.length) := by
  unfold padded
  rw [bitsMSB_append, bitsMSB_append, bitsMSB_append, bitsMSB_octets, bitsMSB_zeros, ← List.replicate_append_replicate]
  have : bitsMSB [0x80] = [true] ++ List.replicate 7 false := by decide
  rw [this]
  simp only [List.append_assoc]

theorem padded_inj {v : Nat} {a b : List UInt8} (ha : 8 * a.length < 256 ^ lengthBytes v) (hb : 8 * b.length < 256 ^ lengthBytes v)
    (h : padded v a = padded v b) : a = b := by
  unfold padded at h
  have h1 := List.append_inj' h (by rw [octets_toBEk, octets_toBEk, toBEk_length, toBEk_length])
  have h2 := congrArg ofBE h1.2
  rw [octets_toBEk, octets_toBEk, ofBE_toBEk, ofBE_toBEk, Nat.mod_eq_of_lt ha, Nat.mod_eq_of_lt hb] at h2
  have hl : a.length = b.length := by omega
  have h3 := h1.1
  rw [List.append_assoc, List.append_assoc] at h3
  exact (List.append_inj h3 hl).1

open LCT.Out in
theorem digestCore_too_long {ε : Type} {v : Nat} {C : Code v} {A : Variant v} (hM : Matches C A) (hr : C.rounds % 8 = 0) (init : Vector (BitVec v) 8)
    (st : State C) (msg : List UInt8) (hlen : 2 ^ 61 ≤ msg.length) : (digestCore .debug C init st msg : Out ε _) = .panic := by
  unfold digestCore
  rw [chunksExact_eq]
  obtain ⟨st', e, -⟩ := compressAll_y (ε := ε) hM hr (pieces C.block msg) (fun b hb => pieces_each hb) ⟨init, Vector.replicate C.rounds 0⟩
  simp only [e, bind_ok]
  by_cases h : msg.length < 2 ^ 64
  · have hmul : (mulU64 .debug msg.length 8 : Out ε _) = .panic := by unfold mulU64; rw [if_neg (by omega)]
    rw [decide_eq_true h, rassert_true, bind_ok, hmul]
    rfl
  · rw [decide_eq_false h]
    rfl

end Sha2

end LCT.Hash
