import Verif.Lemmas.Hash.Collision
import Verif.Props.Sha2
import Verif.Props.Sha3
import Mathlib.Data.Fintype.Pigeonhole
import Mathlib.Data.Fintype.BigOperators

/-!
# Equal digests show a collision in the core of the hash function: C74

The English claim: if two different messages have the same digest, then hashing them has run into a collision of the primitive the hash function is
built on.  So padding, splitting into blocks and the way blocks are chained add no collisions of their own.

* SHA-2: the compression function got different arguments (hash value and block) and gave the same result (`CompressionCollides`).  SHA-384 leaves out
  two words, so that the final hash values may differ in those only (`TruncationCollides`).
* SHA-3 and Keccak-256: the states at the end differ, but not in the bits that are output (`OutputCollides`); or the states before the last block agree
  in the capacity, after different blocks (`InnerCollides`).  This rests on Keccak-f being a permutation (`C74_permutation`).

The definitions are in `Verif.Spec.Collision`; they speak of the very blocks and states that occur in hashing the two messages (that there are
collisions somewhere is clear by counting).
-/

namespace LCT.Props
open LCT.Spec LCT.Out LCT.Hash
open LCT.Hash.Sha2 (Sha256 Sha384 Sha512)
open LCT.Hash.Sha3 (Keccak256 Sha3_224 Sha3_256 Sha3_384 Sha3_512)
variable {ε : Type}

/-- Two calls of a hasher, in any builds and states, that give the same digest for different messages. -/
def Collide (ε : Type) (H : Hasher) (a b : List UInt8) : Prop :=
  a ≠ b ∧ ∃ m m' st st' d s s', (H.digest m st a : Out ε _) = .ok (d, s) ∧ (H.digest m' st' b : Out ε _) = .ok (d, s')

/-- C74: SHA-256. -/
theorem C74_sha256 (a b : List UInt8) (ha : a.length < 2 ^ 61) (hb : b.length < 2 ^ 61) (h : Collide ε Sha256 a b) :
    Sha2.CompressionCollides Sha2.A256 Sha2.H256 a b := by
  obtain ⟨hne, m, m', st, st', d, s, s', h1, h2⟩ := h
  obtain ⟨t, e1⟩ := C29_sha256 (ε := ε) m st a ha
  obtain ⟨t', e2⟩ := C29_sha256 (ε := ε) m' st' b hb
  have d1 := congrArg Prod.fst (Out.ok.inj (e1.symm.trans h1))
  have d2 := congrArg Prod.fst (Out.ok.inj (e2.symm.trans h2))
  exact Hash.Sha2.collides (.inl rfl) _ _ ha hb hne (Hash.Sha2.words_inj (Hash.Sha2.bytesOf_inj (.inl rfl) _ _ (d1.trans d2.symm)))

/-- C74: SHA-512. -/
theorem C74_sha512 (a b : List UInt8) (ha : a.length < 2 ^ 61) (hb : b.length < 2 ^ 61) (h : Collide ε Sha512 a b) :
    Sha2.CompressionCollides Sha2.A512 Sha2.H512 a b := by
  obtain ⟨hne, m, m', st, st', d, s, s', h1, h2⟩ := h
  obtain ⟨t, e1⟩ := C30_sha512 (ε := ε) m st a ha
  obtain ⟨t', e2⟩ := C30_sha512 (ε := ε) m' st' b hb
  have d1 := congrArg Prod.fst (Out.ok.inj (e1.symm.trans h1))
  have d2 := congrArg Prod.fst (Out.ok.inj (e2.symm.trans h2))
  exact Hash.Sha2.collides (.inr rfl) _ _ ha hb hne (Hash.Sha2.words_inj (Hash.Sha2.bytesOf_inj (.inr rfl) _ _ (d1.trans d2.symm)))

/-- C74: SHA-384. -/
theorem C74_sha384 (a b : List UInt8) (ha : a.length < 2 ^ 61) (hb : b.length < 2 ^ 61) (h : Collide ε Sha384 a b) :
    Sha2.CompressionCollides Sha2.A512 Sha2.H384 a b ∨ Sha2.TruncationCollides Sha2.A512 Sha2.H384 6 a b := by
  obtain ⟨hne, m, m', st, st', d, s, s', h1, h2⟩ := h
  obtain ⟨t, e1⟩ := C30_sha384 (ε := ε) m st a ha
  obtain ⟨t', e2⟩ := C30_sha384 (ε := ε) m' st' b hb
  have d1 := congrArg Prod.fst (Out.ok.inj (e1.symm.trans h1))
  have d2 := congrArg Prod.fst (Out.ok.inj (e2.symm.trans h2))
  by_cases e : Sha2.hashValue Sha2.A512 Sha2.H384 a = Sha2.hashValue Sha2.A512 Sha2.H384 b
  · exact .inl (Hash.Sha2.collides (.inr rfl) _ _ ha hb hne e)
  · exact .inr ⟨e, Hash.Sha2.bytesOf_inj (.inr rfl) _ _ (d1.trans d2.symm)⟩

/-- C74: Keccak-f[1600], on strings of 1600 bits, is a permutation: different strings are taken to different strings.  (That the code computes it is part
of C31.) -/
theorem C74_permutation (S T : List Bool) (hS : S.length = 1600) (hT : T.length = 1600) (h : Sha3.f S = Sha3.f T) : S = T :=
  Hash.Sha3.f_inj hS hT h

/-- C74: the permutation as the code computes it, on 25 words. -/
theorem C74_permutation_code (s t : Hash.Sha3.KState) (h : Hash.Sha3.keccakf s = Hash.Sha3.keccakf t) : s = t := by
  have e := congrArg Hash.Sha3.stateBits h
  rw [← Hash.Sha3.f_bits, ← Hash.Sha3.f_bits] at e
  exact Hash.Sha3.stateBits_inj (C74_permutation _ _ (Hash.Sha3.stateBits_length s) (Hash.Sha3.stateBits_length t) e)

/-- C74: the SHA-3 functions; `out` is the number of bytes of the digest. -/
theorem C74_sha3 (H : Hasher) (out : Nat) (hH : (H, out) ∈ [(Sha3_224, 28), (Sha3_256, 32), (Sha3_384, 48), (Sha3_512, 64)]) (a b : List UInt8)
    (h : Collide ε H a b) :
    Sha3.OutputCollides (1600 - 16 * out) [false, true] (8 * out) a b ∨ Sha3.InnerCollides (1600 - 16 * out) [false, true] a b := by
  obtain ⟨hne, m, m', st, st', d, s, s', h1, h2⟩ := h
  simp only [List.mem_cons, List.not_mem_nil, or_false, Prod.mk.injEq] at hH
  have go : ∀ {t t'}, (H.digest m st a : Out ε _) = .ok (Sha3.sha3 out a, t) → (H.digest m' st' b : Out ε _) = .ok (Sha3.sha3 out b, t') →
      Sha3.sha3 out a = Sha3.sha3 out b := by
    intro t t' e1 e2
    exact (congrArg Prod.fst (Out.ok.inj (e1.symm.trans h1))).trans (congrArg Prod.fst (Out.ok.inj (e2.symm.trans h2))).symm
  rcases hH with ⟨rfl, rfl⟩ | ⟨rfl, rfl⟩ | ⟨rfl, rfl⟩ | ⟨rfl, rfl⟩
  · obtain ⟨t, e1⟩ := C31_sha3_224 (ε := ε) m st a
    obtain ⟨t', e2⟩ := C31_sha3_224 (ε := ε) m' st' b
    exact Hash.Sha3.keccak_collides (by omega) _ hne (go e1 e2)
  · obtain ⟨t, e1⟩ := C31_sha3_256 (ε := ε) m st a
    obtain ⟨t', e2⟩ := C31_sha3_256 (ε := ε) m' st' b
    exact Hash.Sha3.keccak_collides (by omega) _ hne (go e1 e2)
  · obtain ⟨t, e1⟩ := C31_sha3_384 (ε := ε) m st a
    obtain ⟨t', e2⟩ := C31_sha3_384 (ε := ε) m' st' b
    exact Hash.Sha3.keccak_collides (by omega) _ hne (go e1 e2)
  · obtain ⟨t, e1⟩ := C31_sha3_512 (ε := ε) m st a
    obtain ⟨t', e2⟩ := C31_sha3_512 (ε := ε) m' st' b
    exact Hash.Sha3.keccak_collides (by omega) _ hne (go e1 e2)

/-- C74: Keccak-256, with which addresses and signing hashes are made. -/
theorem C74_keccak256 (a b : List UInt8) (h : Collide ε Keccak256 a b) :
    Sha3.OutputCollides 1088 [] 256 a b ∨ Sha3.InnerCollides 1088 [] a b := by
  obtain ⟨hne, m, m', st, st', d, s, s', h1, h2⟩ := h
  obtain ⟨t, e1⟩ := C31_keccak256 (ε := ε) m st a
  obtain ⟨t', e2⟩ := C31_keccak256 (ε := ε) m' st' b
  have d1 := congrArg Prod.fst (Out.ok.inj (e1.symm.trans h1))
  have d2 := congrArg Prod.fst (Out.ok.inj (e2.symm.trans h2))
  have e := d1.trans d2.symm
  refine Hash.Sha3.keccak_collides (out := 32) (by omega) [] hne ?_
  rw [List.append_nil, List.append_nil]
  exact e

/-- C74: for messages of at most 135 bytes, public keys for instance, there is one block only: different messages end in different states. -/
theorem C74_keccak256_short (a b : List UInt8) (ha : a.length ≤ 135) (hb : b.length ≤ 135) (hne : a ≠ b) :
    Sha3.after 1088 (Sha3.blocksOf 1088 [] a) ≠ Sha3.after 1088 (Sha3.blocksOf 1088 [] b) := by
  intro e
  have h := Hash.Sha3.sponge_collides (by omega) (by omega) [] hne e
  apply h.1
  rw [Hash.Sha3.short_blocks (by omega) [] a (by simp; omega), Hash.Sha3.short_blocks (by omega) [] b (by simp; omega)]

/-! ## The hypotheses can be met

No collision is known, but there are some: digests are shorter than messages. -/

theorem collision_exists (H : List UInt8 → List UInt8) (n : Nat) (hH : ∀ m, (H m).length = n) :
    ∃ a b, a ≠ b ∧ a.length = n + 1 ∧ b.length = n + 1 ∧ H a = H b := by
  let F : (Fin (n + 1) → Fin 256) → (Fin n → Fin 256) := fun v i =>
    ⟨((H (List.ofFn fun j => UInt8.ofNat (v j).val)).getD i.val 0).toNat, UInt8.toNat_lt _⟩
  obtain ⟨x, y, hxy, h⟩ := Fintype.exists_ne_map_eq_of_card_lt F (by
    rw [Fintype.card_fun, Fintype.card_fun, Fintype.card_fin, Fintype.card_fin, Fintype.card_fin]
    exact Nat.pow_lt_pow_right (by omega) (by omega))
  refine ⟨List.ofFn fun j => UInt8.ofNat (x j).val, List.ofFn fun j => UInt8.ofNat (y j).val, ?_, by simp, by simp, ?_⟩
  · intro e
    apply hxy
    funext j
    have := congrFun (List.ofFn_inj.mp e) j
    have := congrArg UInt8.toNat this
    rw [UInt8.toNat_ofNat', UInt8.toNat_ofNat', Nat.mod_eq_of_lt (x j).isLt, Nat.mod_eq_of_lt (y j).isLt] at this
    exact Fin.ext this
  · apply List.ext_getElem (by rw [hH, hH])
    intro i h1 h2
    rw [hH] at h1
    have := congrArg Fin.val (congrFun h ⟨i, h1⟩)
    simp only [F] at this
    have := UInt8.toNat_inj.mp this
    rw [List.getD_eq_getElem?_getD, List.getD_eq_getElem?_getD, List.getElem?_eq_getElem (by rw [hH]; exact h1),
      List.getElem?_eq_getElem (by rw [hH]; exact h1)] at this
    exact this

example : ∃ a b, a.length < 2 ^ 61 ∧ b.length < 2 ^ 61 ∧ Collide Unit Sha256 a b := by
  obtain ⟨a, b, hne, ha, hb, h⟩ := collision_exists _ 32 fun m => (C29_lengths m).1
  obtain ⟨t, e1⟩ := C29_sha256 (ε := Unit) .debug Sha256.fresh a (by omega)
  obtain ⟨t', e2⟩ := C29_sha256 (ε := Unit) .debug Sha256.fresh b (by omega)
  exact ⟨a, b, by omega, by omega, hne, _, _, _, _, _, _, _, e1, by rw [h]; exact e2⟩
example : ∃ a b, Collide Unit Keccak256 a b := by
  obtain ⟨a, b, hne, ha, hb, h⟩ := collision_exists _ 32 fun m => (C31_lengths m).2.2.2.2
  obtain ⟨t, e1⟩ := C31_keccak256 (ε := Unit) .debug Keccak256.fresh a
  obtain ⟨t', e2⟩ := C31_keccak256 (ε := Unit) .debug Keccak256.fresh b
  exact ⟨a, b, hne, _, _, _, _, _, _, _, e1, by rw [h]; exact e2⟩

end LCT.Props
