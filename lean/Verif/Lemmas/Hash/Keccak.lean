import Verif.Lemmas.Hash.KeccakLanes
import Verif.Lemmas.Hash.Sha2
import Verif.Lemmas.Hash.Bits

/-!
# The permutation and the sponge, on bits
-/

namespace LCT.Hash.Sha3
open LCT LCT.Spec LCT.Spec.Sha3
open LCT.Spec.Sha2 (pieces)
open LCT.Hash.Sha2 (chunksExact remainder chunksExact_eq pieces_append pieces_length pieces_each)

/-- The state as an array of bits. -/
def arrOf (s : KState) : Arr := fun x y z => (lane s x y).getLsbD z.val

theorem rotl_bit (x : BitVec 64) (r : Nat) (z : Fin 64) : (x.rotateLeft r).getLsbD z.val = x.getLsbD (z - Fin.ofNat 64 r).val := by
  rw [BitVec.getLsbD_rotateLeft, Fin.sub_def]
  have hz := z.isLt
  simp only [Fin.ofNat, hz, decide_true, Bool.true_and]
  by_cases h : z.val < r % 64
  · rw [decide_eq_true h, cond_true]
    congr 1
    omega
  · rw [decide_eq_false h, cond_false]
    congr 1
    omega

theorem theta_bits (v : Vars) : arrOf (thetaStep v).s = theta (arrOf v.s) := by
  funext x y z
  unfold arrOf theta
  rw [theta_lane]
  simp only [C, BitVec.getLsbD_xor]
  rw [rotl_bit]
  simp only [BitVec.getLsbD_xor]
  rfl

theorem rhoPi_bits (v : Vars) : arrOf (rhoPiStep v).s = pi (rho (arrOf v.s)) := by
  funext x y z
  unfold arrOf pi rho
  rw [rhoPi_lane, rotl_bit]

theorem chi_bits (v : Vars) : arrOf (chiStep v).s = Spec.Sha3.chi (arrOf v.s) := by
  funext x y z
  unfold arrOf Spec.Sha3.chi
  rw [chi_lane, BitVec.getLsbD_xor, BitVec.getLsbD_and, BitVec.getLsbD_not]
  simp

theorem iota_bits (v : Vars) (c : BitVec 64) (i : Nat) (h : ∀ z : Fin 64, c.getLsbD z.val = RC i z) :
    arrOf (iotaStep c v).s = iota i (arrOf v.s) := by
  funext x y z
  unfold arrOf iota iotaStep xorAt lane
  by_cases hxy : x = 0 ∧ y = 0
  · obtain ⟨rfl, rfl⟩ := hxy
    have := h z
    simp at this ⊢
    rw [this]
  · rw [if_neg hxy]
    have : (0 : Nat) ≠ 5 * y.val + x.val := by
      intro h0
      apply hxy
      constructor <;> apply Fin.ext <;> simp <;> omega
    simp [this]

theorem round_bits (v : Vars) (c : BitVec 64) (i : Nat) (h : ∀ z : Fin 64, c.getLsbD z.val = RC i z) :
    arrOf (roundStep c v).s = Rnd (arrOf v.s) i := by
  unfold roundStep Rnd
  rw [iota_bits _ _ _ h, chi_bits, rhoPi_bits, theta_bits]

theorem rndc_length : RNDC.length = 24 := rfl

theorem rndc_bits : ∀ i : Fin 24, ∀ z : Fin 64, (RNDC[i.val]'(by rw [rndc_length]; exact i.isLt)).getLsbD z.val = RC i.val z := by
  decide +kernel

theorem rounds_bits (l : List Nat) (g : Nat → BitVec 64) (h : ∀ i ∈ l, ∀ z : Fin 64, (g i).getLsbD z.val = RC i z) (v : Vars) :
    arrOf ((l.map g).foldl (fun x c => roundStep c x) v).s = l.foldl Rnd (arrOf v.s) := by
  induction l generalizing v with
  | nil => rfl
  | cons i l ih =>
    rw [List.map_cons, List.foldl_cons, List.foldl_cons, ih (fun j hj => h j (List.mem_cons_of_mem _ hj)),
      round_bits _ _ _ (h i List.mem_cons_self)]

/-- The bits of a lane. -/
def laneBits (w : BitVec 64) : List Bool := (List.finRange 64).map fun z => w.getLsbD z.val

/-- The bits of the state. -/
def stateBits (s : KState) : List Bool := s.toList.flatMap laneBits

theorem laneBits_length (w : BitVec 64) : (laneBits w).length = 64 := by
  unfold laneBits; rw [List.length_map, List.length_finRange]

theorem ofArr_arrOf (s : KState) : ofArr (arrOf s) = stateBits s := by
  obtain ⟨a0, a1, a2, a3, a4, a5, a6, a7, a8, a9, a10, a11, a12, a13, a14, a15, a16, a17, a18, a19, a20, a21, a22, a23, a24, rfl⟩ :=
    exists_lanes s
  have h5 : List.finRange 5 = [0, 1, 2, 3, 4] := rfl
  unfold ofArr stateBits
  rw [h5]
  simp only [List.flatMap_cons, List.flatMap_nil, List.append_nil, List.append_assoc]
  rfl

theorem flatMap_bit (l : List (BitVec 64)) (k : Nat) (hk : k < l.length) (z : Fin 64) :
    (l.flatMap laneBits).getD (64 * k + z.val) false = (l[k]).getLsbD z.val := by
  induction l generalizing k with
  | nil => simp at hk
  | cons w l ih =>
    rw [List.flatMap_cons]
    cases k with
    | zero =>
      rw [List.getD_eq_getElem?_getD, List.getElem?_append_left (by rw [laneBits_length]; have := z.isLt; omega)]
      simp [laneBits]
    | succ k =>
      rw [List.getD_eq_getElem?_getD, List.getElem?_append_right (by rw [laneBits_length]; omega), laneBits_length,
        show 64 * (k + 1) + z.val - 64 = 64 * k + z.val by omega, ← List.getD_eq_getElem?_getD, ih k (by simpa using hk)]
      rfl

theorem toArr_stateBits (s : KState) : toArr (stateBits s) = arrOf s := by
  funext x y z
  unfold toArr arrOf stateBits lane
  rw [flatMap_bit _ _ (by rw [Vector.length_toList]; omega)]
  simp

theorem f_bits (s : KState) : f (stateBits s) = stateBits (keccakf s) := by
  unfold f keccakf
  rw [toArr_stateBits, ← ofArr_arrOf]
  have hR : RNDC = (List.range 24).map fun i => RNDC.getD i 0 := by decide +kernel
  have := rounds_bits (List.range 24) (fun i => RNDC.getD i 0) (by
    intro i hi z
    rw [List.mem_range] at hi
    have := rndc_bits ⟨i, hi⟩ z
    rw [← this, List.getD_eq_getElem?_getD, List.getElem?_eq_getElem (by rw [rndc_length]; exact hi)]
    rfl) ⟨Vector.replicate 5 0, s⟩
  rw [← hR] at this
  rw [this]

end LCT.Hash.Sha3
