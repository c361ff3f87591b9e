import Verif.Spec.Hmac
import Verif.Lemmas.Yields

/-!
# HMAC refines RFC 2104
-/

namespace LCT.Hash
open LCT.Spec LCT.Out
variable {ε : Type} {H : Hasher} {h : List UInt8 → List UInt8} {limit : Nat} (m : Build)

theorem xorInto_replicate (c : UInt8) (n : Nat) (k : List UInt8) (hk : k.length ≤ n) :
    xorInto (List.replicate n c) k = (k ++ List.replicate (n - k.length) 0).map (· ^^^ c) := by
  induction n generalizing k with
  | zero =>
    have : k = [] := List.length_eq_zero_iff.mp (by omega)
    subst this; rfl
  | succ n ih =>
    cases k with
    | nil =>
      rw [List.replicate_succ]
      unfold xorInto
      rw [List.nil_append, List.length_nil, List.map_replicate, Nat.sub_zero, List.replicate_succ, UInt8.zero_xor]
    | cons b k =>
      rw [List.replicate_succ]
      unfold xorInto
      rw [List.length_cons] at hk
      rw [ih k (by omega), List.length_cons, Nat.add_sub_add_right, List.cons_append, List.map_cons, UInt8.xor_comm]

theorem digest_y (hc : Computes H h limit) (st : H.State) {msg : List UInt8} (hl : msg.length < limit) :
    (H.digest m st msg : Out ε _).Yields (fun o => o.1 = h msg) := by
  obtain ⟨st', e⟩ := hc.digest ε m st msg hl
  exact ⟨_, e, rfl⟩

/-- The key block that is used, and that zeros may be appended to it. -/
theorem blockKey_y (hc : Computes H h limit) (ho : H.outLen ≤ H.blockLen) (st : H.State) {key : List UInt8} (hk : key.length < limit) :
    (blockKey m H st key : Out ε _).Yields (fun o => o.1.length ≤ H.blockLen ∧
      o.1 ++ List.replicate (H.blockLen - o.1.length) 0 = hmacKey h H.blockLen key) := by
  unfold blockKey hmacKey
  by_cases h1 : key.length < H.blockLen
  · rw [if_pos h1, if_pos (by omega)]
    refine .ok ?_
    have hl : (key ++ List.replicate (H.blockLen - key.length) (0 : UInt8)).length = H.blockLen := by
      rw [List.length_append, List.length_replicate]; omega
    refine ⟨Nat.le_of_eq hl, ?_⟩
    simp only
    rw [hl, Nat.sub_self, List.replicate_zero, List.append_nil]
  · rw [if_neg h1]
    by_cases h2 : key.length = H.blockLen
    · rw [if_pos h2, if_pos (by omega)]
      exact .ok ⟨by simp only; omega, rfl⟩
    · rw [if_neg h2, if_neg (by omega)]
      refine (digest_y m hc st hk).mono fun o e => ?_
      rw [e]
      exact ⟨by rw [hc.length]; exact ho, rfl⟩

theorem hmac_y (hc : Computes H h limit) (ho : H.outLen ≤ H.blockLen) (st : H.State) {key msg : List UInt8} (hk : key.length < limit)
    (hm : H.blockLen + msg.length < limit) (hm' : H.blockLen + H.outLen < limit) :
    (hmac m H st key msg : Out ε _).Yields (fun o => o.1 = Spec.hmac h H.blockLen key msg) := by
  unfold hmac
  run (blockKey_y m hc ho st hk) with ⟨k0, st1⟩ ⟨hl, e0⟩
  simp only at hl e0
  have hx : ∀ c, (xorInto (List.replicate H.blockLen c) k0) = (hmacKey h H.blockLen key).map (· ^^^ c) := by
    intro c
    rw [xorInto_replicate c _ _ hl, e0]
  have hkl : (hmacKey h H.blockLen key).length = H.blockLen := by
    rw [← e0, List.length_append, List.length_replicate]; omega
  simp only [hx]
  run (digest_y m hc st1 (by rw [List.length_append, List.length_map, hkl]; exact hm)) with ⟨inner, st2⟩ e
  simp only at e
  subst e
  exact digest_y m hc st2 (by rw [List.length_append, List.length_map, hkl, hc.length]; exact hm')

theorem hmac_length (hc : Computes H h limit) (key msg : List UInt8) : (Spec.hmac h H.blockLen key msg).length = H.outLen := hc.length _

end LCT.Hash
