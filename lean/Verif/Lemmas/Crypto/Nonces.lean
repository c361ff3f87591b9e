import Verif.Lemmas.Crypto.Binding
import Verif.Spec.Nonces

/-!
# Equal nonces and collisions
-/

namespace LCT.Crypto
open LCT.Spec LCT.BigInt LCT.Hash

/-! ## The generator -/

section
variable {mac : List UInt8 → List UInt8 → List UInt8} {hlen q : Nat} (hl : ∀ k x, (mac k x).length = hlen)

/-- Two lists of queries contain different queries with the same answer. -/
def QueriesCollide (mac : List UInt8 → List UInt8 → List UInt8) (l l' : List (List UInt8 × List UInt8)) : Prop :=
  ∃ x ∈ l, ∃ y ∈ l', x ≠ y ∧ mac x.1 x.2 = mac y.1 y.2

theorem QueriesCollide.mono {l l' m m' : List (List UInt8 × List UInt8)} (h : QueriesCollide mac l l') (h1 : l ⊆ m) (h2 : l' ⊆ m') :
    QueriesCollide mac m m' := by
  obtain ⟨x, hx, y, hy, h⟩ := h
  exact ⟨x, h1 hx, y, h2 hy, h⟩

open Rfc6979 in
theorem rfcState_length (seed : List UInt8) (i : Nat) (hl : ∀ k x, (mac k x).length = hlen) :
    (stateAt mac hlen q seed i).K.length = hlen ∧ (stateAt mac hlen q seed i).V.length = hlen := by
  cases i with
  | zero => exact ⟨hl _ _, hl _ _⟩
  | succ i => exact ⟨hl _ _, hl _ _⟩

open Rfc6979 in
/-- Equal states for different seeds come from a collision. -/
theorem states_collide (hl : ∀ k x, (mac k x).length = hlen) (hb : blocks hlen q = 1) {seed seed' : List UInt8} (hne : seed ≠ seed')
    (h0 : seed ≠ []) (h0' : seed' ≠ []) : ∀ i j : Nat, stateAt mac hlen q seed i = stateAt mac hlen q seed' j →
      QueriesCollide mac (queries mac hlen q seed i) (queries mac hlen q seed' j)
  | 0, 0, e => by
    have hK : mac _ (_ ++ [1] ++ seed) = mac _ (_ ++ [1] ++ seed') := congrArg State.K e
    refine ⟨(_, _ ++ [1] ++ seed), ?_, (_, _ ++ [1] ++ seed'), ?_, ?_, hK⟩
    · exact List.mem_append_left _ (by simp [startQueries])
    · exact List.mem_append_left _ (by simp [startQueries])
    · intro h
      have h2 := (Prod.mk.inj h).2
      exact hne (List.append_inj h2 (by simp [hl])).2
  | 0, j + 1, e => by
    have hK : mac _ (_ ++ [1] ++ seed) = mac _ (_ ++ [0]) := congrArg State.K e
    refine ⟨(_, _ ++ [1] ++ seed), ?_, (_, _ ++ [0]), ?_, ?_, hK⟩
    · exact List.mem_append_left _ (by simp [startQueries])
    · exact List.mem_append_left _ (List.mem_append_right _ (by simp [nextQueries]))
    · intro h
      have h2 := congrArg List.length (Prod.mk.inj h).2
      rw [hb] at h2
      simp [hl, chain] at h2
      exact h0 h2
  | i + 1, 0, e => by
    have hK : mac _ (_ ++ [0]) = mac _ (_ ++ [1] ++ seed') := congrArg State.K e
    refine ⟨(_, _ ++ [0]), ?_, (_, _ ++ [1] ++ seed'), ?_, ?_, hK⟩
    · exact List.mem_append_left _ (List.mem_append_right _ (by simp [nextQueries]))
    · exact List.mem_append_left _ (by simp [startQueries])
    · intro h
      have h2 := congrArg List.length (Prod.mk.inj h).2
      rw [hb] at h2
      simp [hl, chain] at h2
      exact h0' h2
  | i + 1, j + 1, e => by
    have hK : mac (stateAt mac hlen q seed i).K (chain mac (stateAt mac hlen q seed i).K (stateAt mac hlen q seed i).V (blocks hlen q) ++ [0]) =
        mac (stateAt mac hlen q seed' j).K (chain mac (stateAt mac hlen q seed' j).K (stateAt mac hlen q seed' j).V (blocks hlen q) ++ [0]) :=
      congrArg State.K e
    by_cases hq : ((stateAt mac hlen q seed i).K, chain mac (stateAt mac hlen q seed i).K (stateAt mac hlen q seed i).V (blocks hlen q) ++ [0]) =
        ((stateAt mac hlen q seed' j).K, chain mac (stateAt mac hlen q seed' j).K (stateAt mac hlen q seed' j).V (blocks hlen q) ++ [0])
    case neg =>
      refine ⟨_, ?_, _, ?_, hq, hK⟩
      · exact List.mem_append_left _ (List.mem_append_right _ (by simp [nextQueries]))
      · exact List.mem_append_left _ (List.mem_append_right _ (by simp [nextQueries]))
    obtain ⟨k1, k2⟩ := Prod.mk.inj hq
    have k3 := List.append_cancel_right k2
    rw [hb] at k3
    have sub : ∀ (s : List UInt8) (i : Nat), queries mac hlen q s i ⊆ queries mac hlen q s (i + 1) := fun s i x hx =>
      List.mem_append_left _ (List.mem_append_left _ hx)
    have mem : ∀ (s : List UInt8) (i : Nat), ((stateAt mac hlen q s i).K, (stateAt mac hlen q s i).V) ∈ queries mac hlen q s i := by
      intro s i
      cases i <;> exact List.mem_append_right _ (by simp [candidateQueries, hb, chain])
    refine QueriesCollide.mono ?_ (sub seed i) (sub seed' j)
    by_cases hv : ((stateAt mac hlen q seed i).K, (stateAt mac hlen q seed i).V) = ((stateAt mac hlen q seed' j).K, (stateAt mac hlen q seed' j).V)
    · refine states_collide hl hb hne h0 h0' i j ?_
      obtain ⟨e1, e2⟩ := Prod.mk.inj hv
      generalize stateAt mac hlen q seed i = s at e1 e2
      generalize stateAt mac hlen q seed' j = s' at e1 e2
      cases s; cases s'; simp only at e1 e2; rw [e1, e2]
    · exact ⟨_, mem seed i, _, mem seed' j, hv, k3⟩

open Rfc6979 in
/-- Equal candidates for different seeds come from a collision, when a candidate is one value of the keyed hash. -/
theorem candidates_collide (hl : ∀ k x, (mac k x).length = hlen) (hq : bitLength q = 8 * hlen) (h1 : 0 < hlen) {seed seed' : List UInt8}
    (hne : seed ≠ seed') (h0 : seed ≠ []) (h0' : seed' ≠ []) (i j : Nat) (e : candidate mac hlen q seed i = candidate mac hlen q seed' j) :
    QueriesCollide mac (queries mac hlen q seed i) (queries mac hlen q seed' j) := by
  have hb : blocks hlen q = 1 := by
    unfold blocks
    rw [hq]
    apply Nat.div_eq_of_lt_le <;> omega
  have hval : ∀ (s : List UInt8) (i : Nat), candidate mac hlen q s i = ofBE (mac (stateAt mac hlen q s i).K (stateAt mac hlen q s i).V) := by
    intro s i
    unfold candidate Spec.Rfc6979.bits2int leadingBits T
    simp [hb, chain, hl, hq, show hlen * 8 - 8 * hlen = 0 by omega]
  have mem : ∀ (s : List UInt8) (i : Nat), ((stateAt mac hlen q s i).K, (stateAt mac hlen q s i).V) ∈ queries mac hlen q s i := by
    intro s i
    cases i <;> exact List.mem_append_right _ (by simp [candidateQueries, hb, chain])
  rw [hval, hval] at e
  have e' := ofBE_inj_of_length (by rw [hl, hl]) e
  by_cases hv : ((stateAt mac hlen q seed i).K, (stateAt mac hlen q seed i).V) = ((stateAt mac hlen q seed' j).K, (stateAt mac hlen q seed' j).V)
  · refine states_collide hl hb hne h0 h0' i j ?_
    obtain ⟨e1, e2⟩ := Prod.mk.inj hv
    generalize stateAt mac hlen q seed i = s at e1 e2
    generalize stateAt mac hlen q seed' j = s' at e1 e2
    cases s; cases s'; simp only at e1 e2; rw [e1, e2]
  · exact ⟨_, mem seed i, _, mem seed' j, hv, e'⟩

open Rfc6979 in
/-- All keys have the length of the hash. -/
theorem queries_key (hl : ∀ k x, (mac k x).length = hlen) (seed : List UInt8) : ∀ i, ∀ x ∈ queries mac hlen q seed i, x.1.length = hlen
  | 0 => by
    intro x hx
    rcases List.mem_append.mp hx with hx | hx
    · simp only [startQueries, List.mem_cons, List.not_mem_nil, or_false] at hx
      rcases hx with rfl | rfl | rfl | rfl <;> simp [hl]
    · obtain ⟨j, -, rfl⟩ := List.mem_map.mp hx
      exact (rfcState_length (q := q) seed 0 hl).1
  | i + 1 => by
    intro x hx
    rcases List.mem_append.mp hx with hx | hx
    · rcases List.mem_append.mp hx with hx | hx
      · exact queries_key hl seed i x hx
      · simp only [nextQueries, List.mem_cons, List.not_mem_nil, or_false] at hx
        rcases hx with rfl | rfl
        · exact (rfcState_length seed i hl).1
        · exact hl _ _
    · obtain ⟨j, -, rfl⟩ := List.mem_map.mp hx
      exact (rfcState_length seed (i + 1) hl).1

end

/-! ## HMAC -/

theorem map_xor_inj (c : UInt8) : ∀ l l' : List UInt8, l.map (· ^^^ c) = l'.map (· ^^^ c) → l = l'
  | [], [], _ => rfl
  | [], _ :: _, e => by simp at e
  | _ :: _, [], e => by simp at e
  | a :: l, b :: l', e => by
    simp only [List.map_cons, List.cons.injEq] at e
    rw [map_xor_inj c l l' e.2]
    have : a = b := by
      have := congrArg (· ^^^ c) e.1
      simpa [UInt8.xor_assoc] using this
    rw [this]

/-- Equal values of HMAC for different queries come from a collision of the hash function. -/
theorem hmac_collide {h : List UInt8 → List UInt8} {block : Nat} {hlen : Nat} (hb : hlen ≤ block) {x y : List UInt8 × List UInt8}
    (hx : x.1.length = hlen) (hy : y.1.length = hlen) (hne : x ≠ y) (e : Spec.hmac h block x.1 x.2 = Spec.hmac h block y.1 y.2) :
    ∃ a ∈ hmacHashes h block x, ∃ b ∈ hmacHashes h block y, a ≠ b ∧ h a = h b := by
  have hkey : ∀ k : List UInt8, k.length = hlen → hmacKey h block k = k ++ List.replicate (block - hlen) 0 := by
    intro k hk
    unfold hmacKey
    simp [hk, hb]
  by_cases h1 : (hmacKey h block x.1).map (· ^^^ 0x5c) ++ h ((hmacKey h block x.1).map (· ^^^ 0x36) ++ x.2) =
      (hmacKey h block y.1).map (· ^^^ 0x5c) ++ h ((hmacKey h block y.1).map (· ^^^ 0x36) ++ y.2)
  case neg => exact ⟨_, by simp [hmacHashes], _, by simp [hmacHashes], h1, e⟩
  rw [hkey _ hx, hkey _ hy] at h1
  obtain ⟨h2, h3⟩ := List.append_inj h1 (by simp [hx, hy])
  have h4 := List.append_cancel_right (map_xor_inj _ _ _ h2)
  refine ⟨(hmacKey h block x.1).map (· ^^^ 0x36) ++ x.2, by simp [hmacHashes], (hmacKey h block y.1).map (· ^^^ 0x36) ++ y.2,
    by simp [hmacHashes], ?_, by rw [hkey _ hx, hkey _ hy]; exact h3⟩
  rw [h4]
  intro h5
  exact hne (Prod.ext h4 (List.append_cancel_left h5))

theorem octets_inj {k m n : Nat} (hm : m < 256 ^ k) (hn : n < 256 ^ k) (e : octets k m = octets k n) : m = n := by
  rw [octets_eq, octets_eq] at e
  have := congrArg ofBE e
  rwa [ofBE_toBEk, ofBE_toBEk, Nat.mod_eq_of_lt hm, Nat.mod_eq_of_lt hn] at this

/-- The seed determines the secret, the hash modulo the order, and the additional data. -/
theorem seed_inj {q d d' : Nat} {hash hash' ex ex' : List UInt8} (hd : d < q) (hd' : d' < q)
    (e : Rfc6979.seed q d hash ex = Rfc6979.seed q d' hash' ex') :
    d = d' ∧ leadingBits (bitLength q) hash % q = leadingBits (bitLength q) hash' % q ∧ ex = ex' := by
  have hle : q ≤ 256 ^ ((bitLength q + 7) / 8) := by
    have h1 : q < 2 ^ bitLength q := (bitLength_le_iff q _).mp (Nat.le_refl _)
    have h2 : (2 : Nat) ^ bitLength q ≤ 2 ^ (8 * ((bitLength q + 7) / 8)) := Nat.pow_le_pow_right (by decide) (by omega)
    rw [Nat.pow_mul, show (2 : Nat) ^ 8 = 256 from rfl] at h2
    omega
  unfold Spec.Rfc6979.seed Spec.Rfc6979.bits2octets Spec.Rfc6979.int2octets Spec.Rfc6979.bits2int at e
  obtain ⟨e1, e2⟩ := List.append_inj e (by simp [octets_length])
  obtain ⟨e3, e4⟩ := List.append_inj e1 (by simp [octets_length])
  have hq0 : 0 < q := by omega
  have m1 := Nat.mod_lt (leadingBits (bitLength q) hash) hq0
  have m2 := Nat.mod_lt (leadingBits (bitLength q) hash') hq0
  exact ⟨octets_inj (by omega) (by omega) e3, octets_inj (by omega) (by omega) e4, e2⟩

theorem nonce_collision {h : List UInt8 → List UInt8} {block hlen q k : Nat} (hl : ∀ x, (h x).length = hlen) (hb : hlen ≤ block)
    (hq : bitLength q = 8 * hlen) (h1 : 0 < hlen) {seed seed' : List UInt8} (hne : seed ≠ seed') (h0 : seed ≠ []) (h0' : seed' ≠ [])
    (hk : Spec.Rfc6979.IsNonce (Spec.hmac h block) hlen q seed k) (hk' : Spec.Rfc6979.IsNonce (Spec.hmac h block) hlen q seed' k) :
    NonceCollision h block hlen q seed seed' k := by
  obtain ⟨i, hi⟩ := hk
  obtain ⟨j, hj⟩ := hk'
  have hl' : ∀ k x, (Spec.hmac h block k x).length = hlen := fun k x => hl _
  obtain ⟨x, hx, y, hy, hxy, e⟩ := candidates_collide hl' hq h1 hne h0 h0' i j (hi.1.trans hj.1.symm)
  obtain ⟨u, hu, v, hv, huv⟩ := hmac_collide hb (queries_key hl' seed i x hx) (queries_key hl' seed' j y hy) hxy e
  exact ⟨i, j, hi, hj, u, List.mem_flatMap.mpr ⟨x, hx, hu⟩, v, List.mem_flatMap.mpr ⟨y, hy, hv⟩, huv⟩

theorem seed_ne_nil {q d : Nat} (hash ex : List UInt8) (hd : d < q) : Spec.Rfc6979.seed q d hash ex ≠ [] := by
  intro h
  have := congrArg List.length h
  unfold Spec.Rfc6979.seed Spec.Rfc6979.bits2octets Spec.Rfc6979.int2octets at this
  simp only [List.length_append, octets_length, List.length_nil] at this
  have : ¬ bitLength q ≤ 0 := fun h => by have := (bitLength_le_iff q 0).mp h; simp at this; omega
  omega

/-! ## Points and secrets -/

section
variable {p : Nat} [hpr : Fact p.Prime] {a b : Int}

/-- A point other than the point at infinity is determined by its coordinates. -/
theorem point_ext {P P' : (curve (a : ZMod p) (b : ZMod p)).Point} (h : P ≠ 0) (h' : P' ≠ 0) (hx : xCoord P = xCoord P')
    (hy : yCoord P = yCoord P') : P = P' := by
  cases P with
  | zero => exact absurd rfl h
  | some x y hn =>
  cases P' with
  | zero => exact absurd rfl h'
  | some x' y' hn' =>
    have e1 : x = x' := ZMod.val_injective p hx
    have e2 : y = y' := ZMod.val_injective p hy
    subst e1 e2
    rfl

/-- Points with the same abscissa are equal or opposite. -/
theorem point_abscissa {P P' : (curve (a : ZMod p) (b : ZMod p)).Point} (h : P ≠ 0) (h' : P' ≠ 0) (hx : xCoord P = xCoord P') :
    P' = P ∨ P' = -P := by
  have lt : ∀ {Q : (curve (a : ZMod p) (b : ZMod p)).Point}, Q ≠ 0 → xCoord Q < p := by
    intro Q hQ
    cases Q with
    | zero => exact absurd rfl hQ
    | some x y hn => exact ZMod.val_lt x
  have h1 := lt h
  have h2 := lt h'
  exact same_or_opposite (n := p) (by omega) h h' (by rw [hx]) ⟨fun h => by omega, fun h => by omega⟩

end

/-! ## Two signatures with the same first half -/

section
variable {w : Nat} [DigitWidth w] {cp : Params} {p n : Nat} [hpr : Fact p.Prime] {a b : Int}
  {G : (curve (a : ZMod p) (b : ZMod p)).Point}

omit [DigitWidth w] in
theorem same_r (hD : Domain w cp p n a b G) (hpn : p ≤ 2 * n) {d e e' r s s' : Nat} (hr0 : 0 < r) (hrn : r < n) (hs0 : 0 < s) (hsn : s < n)
    (hs0' : 0 < s') (hsn' : s' < n) (hbig : p ≤ r + n) (hee : e % n ≠ e' % n) (h1 : EcdsaVerifies n G (d • G) e r s)
    (h2 : EcdsaVerifies n G (d • G) e' r s') : (d : ZMod n) ∈ sameRSecrets n r s s' e e' := by
  have hnp : Fact n.Prime := ⟨hD.n_prime⟩
  have zr : (r : ZMod n) ≠ 0 := cast_ne_zero_of_lt hr0 hrn
  have zs : (s : ZMod n) ≠ 0 := cast_ne_zero_of_lt hs0 hsn
  have zs' : (s' : ZMod n) ≠ 0 := cast_ne_zero_of_lt hs0' hsn'
  have zee : (e : ZMod n) ≠ (e' : ZMod n) := fun h => hee ((ZMod.natCast_eq_natCast_iff' e e' n).mp h)
  have hQ : n • (d • G) = 0 := smul_smul_zero hD.G_order d
  have g1 := smul_verifierPoint (e := e) (r := r) hD.G_order hQ zs
  have g2 := smul_verifierPoint (e := e') (r := r) hD.G_order hQ zs'
  have hR : verifierPoint n G (d • G) e' r s' = verifierPoint n G (d • G) e r s ∨
      verifierPoint n G (d • G) e' r s' = -verifierPoint n G (d • G) e r s :=
    same_or_opposite hpn h1.1 h2.1 (h1.2.trans h2.2.symm)
      ⟨fun h => absurd h (low_of_large hbig h1.2 h1.1), fun h => absurd h (low_of_large hbig h2.2 h2.1)⟩
  generalize verifierPoint n G (d • G) e r s = R at g1 hR
  generalize verifierPoint n G (d • G) e' r s' = R' at g2 hR
  -- both sides multiplied by the other `s`
  have k1 : (s' * s) • R = (s' * (e + r * d)) • G := by
    rw [Nat.mul_comm s' s, mul_nsmul, g1, Nat.mul_comm s', mul_nsmul, add_nsmul, mul_nsmul' G r d]
  have k2 : (s * s') • R' = (s * (e' + r * d)) • G := by
    rw [Nat.mul_comm s s', mul_nsmul, g2, Nat.mul_comm s, mul_nsmul, add_nsmul, mul_nsmul' G r d]
  rcases hR with rfl | rfl
  · have := smul_inj hD.G_ne hD.G_order (k1.symm.trans ((by rw [Nat.mul_comm]) : (s' * s) • R' = (s * s') • R') |>.trans k2)
    push_cast at this
    refine List.mem_cons.mpr (.inl ?_)
    by_cases hss : (s' : ZMod n) - s = 0
    · exfalso
      apply zee
      have hs : (s' : ZMod n) = s := sub_eq_zero.mp hss
      rw [hs] at this
      exact add_right_cancel (mul_left_cancel₀ zs this)
    · rw [eq_mul_inv_iff_mul_eq₀ (mul_ne_zero hss zr)]
      linear_combination this
  · have k3 : (s' * (e + r * d) + s * (e' + r * d)) • G = 0 • G := by
      rw [add_nsmul, ← k1, ← k2, Nat.mul_comm s' s, neg_nsmul, add_neg_cancel, zero_nsmul]
    have := smul_inj hD.G_ne hD.G_order k3
    push_cast at this
    refine List.mem_cons.mpr (.inr (List.mem_singleton.mpr ?_))
    by_cases hss : (s' : ZMod n) + s = 0
    · exfalso
      apply zee
      have hs : (s' : ZMod n) = -s := eq_neg_of_add_eq_zero_left hss
      rw [hs] at this
      have h4 : (s : ZMod n) * ((e' : ZMod n) - e) = 0 := by linear_combination this
      exact (sub_eq_zero.mp ((mul_eq_zero.mp h4).resolve_left zs)).symm
    · rw [eq_mul_inv_iff_mul_eq₀ (mul_ne_zero hss zr)]
      linear_combination this

end

end LCT.Crypto
