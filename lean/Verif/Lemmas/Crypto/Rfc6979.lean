import Verif.Spec.Rfc6979
import Verif.Model.Crypto.Rfc6979
import Verif.Lemmas.Crypto.Ecdsa
import Verif.Lemmas.Hash.Hmac

/-!
# Nonce generation refines RFC 6979
-/

namespace LCT.Crypto
open LCT.Spec LCT.Out LCT.BigInt LCT.Modular LCT.Curve LCT.Hash LCT.Random

theorem octets_eq (k n : Nat) : octets k n = toBEk k n := by
  induction k generalizing n with
  | zero => rfl
  | succ k ih => simp only [octets, toBEk, ih]

theorem octets_length (k n : Nat) : (octets k n).length = k := by rw [octets_eq, toBEk_length]

theorem octets_minBE {k n : Nat} (h : n < 256 ^ k) : List.replicate (k - (minBE n).length) 0 ++ minBE n = octets k n := by
  have hl := minBE_length_le n k h
  rw [octets_eq]
  apply ofBE_inj_of_length
  · rw [List.length_append, List.length_replicate, toBEk_length]; omega
  · rw [ofBE_pad, ofBE_minBE, ofBE_toBEk, Nat.mod_eq_of_lt h]

theorem lt_octets_len {q x : Nat} (h : x < q) : x < 256 ^ ((bitLength q + 7) / 8) := by
  have h1 : q < 2 ^ bitLength q := (bitLength_le_iff q _).mp (Nat.le_refl _)
  have h2 : 2 ^ bitLength q ≤ 256 ^ ((bitLength q + 7) / 8) := by
    rw [show 256 = 2 ^ 8 from rfl, ← Nat.pow_mul]
    exact Nat.pow_le_pow_right (by decide) (by omega)
  omega

variable {ε : Type} {w : Nat} [hw : DigitWidth w] {q : Nat} {g : Rfc6979} (m : Build)

/-- What `Rfc6979.new` establishes. -/
structure IsGen (w n : Nat) (extra : Bool) (g : Rfc6979) : Prop where
  q : Denotes w g.q (n : Int)
  qlen : g.qlen = bitLength n
  rlen : g.rlen = (bitLength n + 7) / 8 * 8
  extra : g.extra = extra

theorem rfcNew_y {xq : BInt} (hq : Denotes w xq (q : Int)) (extra : Bool) : (Rfc6979.new m w xq extra : Out ε _).Yields (IsGen w q extra) := by
  unfold Rfc6979.new
  run (bitLen_y m hq) with _ rfl
  exact .pure ⟨hq, rfl, rfl, rfl⟩

variable {extra : Bool}

theorem bits2int_y (hg : IsGen w q extra g) {bytes : List UInt8} (h : bytes ≠ []) :
    (g.bits2int m w bytes : Out ε _).Yields (fun x => Denotes w x (Spec.Rfc6979.bits2int q bytes : Nat)) := by
  unfold Rfc6979.bits2int Spec.Rfc6979.bits2int leadingBits
  run (fromBeBytes_y w bytes h) with n hn
  rw [hg.qlen]
  simp only
  split
  · refine (shr_y m hn _).mono fun x hx => ?_
    rw [Int.tdiv_eq_ediv_of_nonneg (Int.natCast_nonneg _)] at hx
    have e : ((ofBE bytes : Nat) : Int) / 2 ^ (bytes.length * 8 - bitLength q) = ((ofBE bytes / 2 ^ (bytes.length * 8 - bitLength q) : Nat) : Int) := by
      push_cast; rfl
    rwa [e] at hx
  · refine .pure ?_
    rw [Nat.sub_eq_zero_of_le (by omega), Nat.pow_zero, Nat.div_one]
    exact hn

theorem int2octets_y (hg : IsGen w q extra g) {x : BInt} {n : Nat} (hx : Denotes w x n) (h : n < q) :
    (g.int2octets m w x : Out ε _).Yields (· = Spec.Rfc6979.int2octets q n) := by
  unfold Rfc6979.int2octets Spec.Rfc6979.int2octets
  run (lt_y m hx hg.q) with _ rfl
  run (Yields.rassert (decide_eq_true (by omega))) with - -
  run (toBeBytes_y m hx) with _ rfl
  have hlt := lt_octets_len h
  rw [hg.rlen, Nat.mul_div_cancel _ (by decide)]
  have hna : ((n : Nat) : Int).natAbs = n := Int.natAbs_natCast n
  rw [hna, ← octets_minBE hlt]
  split
  · exact .pure rfl
  · refine .pure ?_
    rw [Nat.sub_eq_zero_of_le (by omega)]; rfl

theorem bits2octets_y (hg : IsGen w q extra g) (hq : 0 < q) {bytes : List UInt8} (h : bytes ≠ []) :
    (g.bits2octets m w bytes : Out ε _).Yields (· = Spec.Rfc6979.bits2octets q bytes) := by
  unfold Rfc6979.bits2octets Spec.Rfc6979.bits2octets
  run (bits2int_y m hg h) with z hz
  run (rem_y m hz hg.q (by omega)) with z2 hz2
  rw [Int.tmod_eq_emod_of_nonneg (Int.natCast_nonneg _)] at hz2
  have e : ((Spec.Rfc6979.bits2int q bytes : Nat) : Int) % (q : Int) = ((Spec.Rfc6979.bits2int q bytes % q : Nat) : Int) := by push_cast; rfl
  rw [e] at hz2
  exact int2octets_y m hg hz2 (Nat.mod_lt _ hq)

section Loop
variable {H : Hasher} {h : List UInt8 → List UInt8} {limit : Nat} (hc : Computes H h limit) (ho : H.outLen ≤ H.blockLen)
  (ho0 : 0 < H.outLen)

/-- The keyed hash used. -/
abbrev mac (H : Hasher) (h : List UInt8 → List UInt8) := Spec.hmac h H.blockLen

omit hw in
theorem lt_blocks (j q : Nat) (ho0 : 0 < H.outLen) : j < Spec.Rfc6979.blocks H.outLen q ↔ j * H.outLen * 8 < bitLength q := by
  unfold Spec.Rfc6979.blocks
  rw [← Nat.succ_le_iff, Nat.le_div_iff_mul_le (by omega), Nat.succ_mul]
  have : j * (8 * H.outLen) = j * H.outLen * 8 := by ring
  omega

omit hw in
theorem blocks_le (q : Nat) (ho0 : 0 < H.outLen) : Spec.Rfc6979.blocks H.outLen q ≤ bitLength q := by
  by_contra hlt
  have h1 := (lt_blocks (bitLength q) q ho0).mp (by omega)
  have : bitLength q ≤ bitLength q * H.outLen := Nat.le_mul_of_pos_right _ ho0
  omega

include hc ho ho0
omit hw in
theorem nonceBytes_y {K V : List UInt8} (hK : K.length = H.outLen) (hV : V.length = H.outLen) (hl : H.blockLen + H.outLen < limit)
    (f j : Nat) (hj : j ≤ Spec.Rfc6979.blocks H.outLen q) (hf : Spec.Rfc6979.blocks H.outLen q ≤ j + f) (st : H.State) :
    (nonceBytes m H (bitLength q) K f st (Spec.Rfc6979.chain (mac H h) K V j)
        ((List.range j).flatMap fun i => Spec.Rfc6979.chain (mac H h) K V (i + 1)) : Out ε _).Yields
      (fun o => o.1 = Spec.Rfc6979.T (mac H h) H.outLen q ⟨K, V⟩ ∧
        o.2.1 = Spec.Rfc6979.chain (mac H h) K V (Spec.Rfc6979.blocks H.outLen q)) := by
  have hcl : ∀ i, (Spec.Rfc6979.chain (mac H h) K V i).length = H.outLen := by
    intro i
    cases i with
    | zero => exact hV
    | succ i => exact hc.length _
  have htl : ∀ j, ((List.range j).flatMap fun i => Spec.Rfc6979.chain (mac H h) K V (i + 1)).length = j * H.outLen := by
    intro j
    induction j with
    | zero => simp
    | succ j ih => rw [List.range_succ, List.flatMap_append, List.length_append, ih]; simp [hcl, Nat.succ_mul]
  induction f generalizing j st with
  | zero =>
    have : j = Spec.Rfc6979.blocks H.outLen q := by omega
    unfold nonceBytes
    rw [htl, if_neg (by rw [← lt_blocks j q ho0]; omega)]
    subst this
    exact .ok ⟨rfl, rfl⟩
  | succ f ih =>
    unfold nonceBytes
    rw [htl]
    by_cases hlt : j < Spec.Rfc6979.blocks H.outLen q
    · rw [if_pos ((lt_blocks j q ho0).mp hlt)]
      run (hmac_y m hc ho st (key := K) (msg := Spec.Rfc6979.chain (mac H h) K V j) (by omega) (by rw [hcl]; exact hl) hl) with ⟨v, st'⟩ e
      simp only at e
      subst e
      have := ih (j + 1) (by omega) (by omega) st'
      rw [List.range_succ, List.flatMap_append] at this
      simp only [List.flatMap_cons, List.flatMap_nil, List.append_nil] at this
      exact this
    · rw [if_neg (by rw [← lt_blocks j q ho0]; exact hlt)]
      have : j = Spec.Rfc6979.blocks H.outLen q := by omega
      subst this
      exact .ok ⟨rfl, rfl⟩

omit hw ho ho0 in
theorem stateAt_length (q : Nat) (seed : List UInt8) (i : Nat) :
    (Spec.Rfc6979.stateAt (mac H h) H.outLen q seed i).K.length = H.outLen ∧
    (Spec.Rfc6979.stateAt (mac H h) H.outLen q seed i).V.length = H.outLen := by
  cases i with
  | zero => exact ⟨hc.length _, hc.length _⟩
  | succ i => exact ⟨hc.length _, hc.length _⟩

/-- The candidate is suitable. -/
def Suitable (q c : Nat) : Prop := 0 < c ∧ c < q

instance (q c : Nat) : Decidable (Suitable q c) := by unfold Suitable; infer_instance

omit hw ho in
theorem T_ne (hq : 0 < q) (seed : List UInt8) (i : Nat) :
    Spec.Rfc6979.T (mac H h) H.outLen q (Spec.Rfc6979.stateAt (mac H h) H.outLen q seed i) ≠ [] := by
  intro h0
  have hb : 0 < Spec.Rfc6979.blocks H.outLen q := by
    rw [lt_blocks 0 q ho0]
    have := bitLength_pos hq
    omega
  unfold Spec.Rfc6979.T at h0
  rw [List.flatMap_eq_nil_iff] at h0
  have h1 := h0 0 (List.mem_range.mpr hb)
  have h2 : (Spec.Rfc6979.chain (mac H h) (Spec.Rfc6979.stateAt (mac H h) H.outLen q seed i).K
    (Spec.Rfc6979.stateAt (mac H h) H.outLen q seed i).V (0 + 1)).length = H.outLen := hc.length _
  rw [h1] at h2
  simp at h2
  omega

/-- One round of the candidate loop. -/
theorem nonceLoop_step (hg : IsGen w q extra g) (hq : 0 < q) (hl : H.blockLen + H.outLen + 1 < limit) (seed : List UInt8) (i f : Nat)
    (st : H.State) :
    (Suitable q (Spec.Rfc6979.candidate (mac H h) H.outLen q seed i) →
      (nonceLoop m w H g (f + 1) st (Spec.Rfc6979.stateAt (mac H h) H.outLen q seed i).K
        (Spec.Rfc6979.stateAt (mac H h) H.outLen q seed i).V : Out ε _).Yields
        (fun o => Denotes w o.1 (Spec.Rfc6979.candidate (mac H h) H.outLen q seed i : Nat))) ∧
    (¬ Suitable q (Spec.Rfc6979.candidate (mac H h) H.outLen q seed i) → ∃ st',
      (nonceLoop m w H g (f + 1) st (Spec.Rfc6979.stateAt (mac H h) H.outLen q seed i).K
        (Spec.Rfc6979.stateAt (mac H h) H.outLen q seed i).V : Out ε _) =
      nonceLoop m w H g f st' (Spec.Rfc6979.stateAt (mac H h) H.outLen q seed (i + 1)).K
        (Spec.Rfc6979.stateAt (mac H h) H.outLen q seed (i + 1)).V) := by
  obtain ⟨hK, hV⟩ := stateAt_length hc q seed i
  have hbl := blocks_le (H := H) q ho0
  obtain ⟨⟨t, v, st1⟩, e1, ht, hv⟩ := nonceBytes_y (ε := ε) (q := q) m hc ho ho0 hK hV (by omega) (bitLength q) 0 (Nat.zero_le _) (by omega) st
  simp only at ht hv
  have hT := T_ne hc ho0 hq seed i
  obtain ⟨x, e2, hx⟩ := bits2int_y (ε := ε) m hg hT
  obtain ⟨ok, e3, hok⟩ := inOrderRange_y (ε := ε) m hx hg.q
  have hc' : Spec.Rfc6979.bits2int q (Spec.Rfc6979.T (mac H h) H.outLen q (Spec.Rfc6979.stateAt (mac H h) H.outLen q seed i)) =
    Spec.Rfc6979.candidate (mac H h) H.outLen q seed i := rfl
  rw [hc'] at hx hok
  have hok' : ok = decide (Suitable q (Spec.Rfc6979.candidate (mac H h) H.outLen q seed i)) := by
    rw [hok]; unfold Suitable; apply decide_eq_decide.mpr; omega
  have e1' : (nonceBytes m H g.qlen (Spec.Rfc6979.stateAt (mac H h) H.outLen q seed i).K g.qlen st
    (Spec.Rfc6979.stateAt (mac H h) H.outLen q seed i).V [] : Out ε _) = .ok (t, v, st1) := by rw [hg.qlen]; exact e1
  subst ht
  simp only [nonceLoop, e1', e2, e3, bind_ok]
  constructor
  · intro hs
    rw [if_pos (by rw [hok']; exact decide_eq_true hs)]
    exact .ok hx
  · intro hs
    rw [if_neg (by rw [hok']; simpa using hs)]
    have hvl : v.length = H.outLen := by
      rw [hv]
      cases Spec.Rfc6979.blocks H.outLen q with
      | zero => exact hV
      | succ i => exact hc.length _
    obtain ⟨⟨k', st2⟩, e4, hk'⟩ := hmac_y (ε := ε) m hc ho st1 (key := (Spec.Rfc6979.stateAt (mac H h) H.outLen q seed i).K)
      (msg := v ++ [0]) (by omega) (by rw [List.length_append, List.length_singleton]; omega) (by omega)
    simp only at hk'
    have hkl : k'.length = H.outLen := by rw [hk']; exact hc.length _
    obtain ⟨⟨v', st3⟩, e5, hv'⟩ := hmac_y (ε := ε) m hc ho st2 (key := k') (msg := v) (by omega) (by omega) (by omega)
    simp only at hv'
    refine ⟨st3, ?_⟩
    simp only [e4, e5, bind_ok]
    rw [hv', hk', hv]
    rfl

theorem nonceLoop_y (hg : IsGen w q extra g) (hq : 0 < q) (hl : H.blockLen + H.outLen + 1 < limit) (seed : List UInt8) (n i f : Nat)
    (st : H.State) (hn : n < f) (hgood : Suitable q (Spec.Rfc6979.candidate (mac H h) H.outLen q seed (i + n)))
    (hbad : ∀ j < n, ¬ Suitable q (Spec.Rfc6979.candidate (mac H h) H.outLen q seed (i + j))) :
    (nonceLoop m w H g f st (Spec.Rfc6979.stateAt (mac H h) H.outLen q seed i).K
      (Spec.Rfc6979.stateAt (mac H h) H.outLen q seed i).V : Out ε _).Yields
      (fun o => Denotes w o.1 (Spec.Rfc6979.candidate (mac H h) H.outLen q seed (i + n) : Nat)) := by
  induction n generalizing i f st with
  | zero =>
    cases f with
    | zero => omega
    | succ f => exact (nonceLoop_step m hc ho ho0 hg hq hl seed i f st).1 hgood
  | succ n ih =>
    cases f with
    | zero => omega
    | succ f =>
      obtain ⟨st', e⟩ := (nonceLoop_step (ε := ε) m hc ho ho0 hg hq hl seed i f st).2 (hbad 0 (by omega))
      rw [e, show i + (n + 1) = i + 1 + n by omega]
      refine ih (i + 1) f st' (by omega) ?_ fun j hj => ?_
      · rw [show i + 1 + n = i + (n + 1) by omega]; exact hgood
      · rw [show i + 1 + j = i + (j + 1) by omega]; exact hbad (j + 1) (by omega)

theorem nonceLoop_hang (hg : IsGen w q extra g) (hq : 0 < q) (hl : H.blockLen + H.outLen + 1 < limit) (seed : List UInt8) (i f : Nat)
    (st : H.State) (hbad : ∀ j < f, ¬ Suitable q (Spec.Rfc6979.candidate (mac H h) H.outLen q seed (i + j))) :
    (nonceLoop m w H g f st (Spec.Rfc6979.stateAt (mac H h) H.outLen q seed i).K
      (Spec.Rfc6979.stateAt (mac H h) H.outLen q seed i).V : Out ε _) = .hang := by
  induction f generalizing i st with
  | zero => rfl
  | succ f ih =>
    obtain ⟨st', e⟩ := (nonceLoop_step (ε := ε) m hc ho ho0 hg hq hl seed i f st).2 (hbad 0 (by omega))
    rw [e]
    refine ih (i + 1) st' fun j hj => ?_
    rw [show i + 1 + j = i + (j + 1) by omega]; exact hbad (j + 1) (by omega)

omit hc ho ho0 in
theorem seed_length (q d : Nat) (hash extra : List UInt8) :
    (Spec.Rfc6979.seed q d hash extra).length = 2 * ((bitLength q + 7) / 8) + extra.length := by
  unfold Spec.Rfc6979.seed Spec.Rfc6979.bits2octets Spec.Rfc6979.int2octets
  rw [List.length_append, List.length_append, octets_length, octets_length]; omega

omit hc ho ho0 in
theorem keyAndMsg_eq (hg : IsGen w q extra g) {key : PrivateKey} {d : Nat} (hd : Denotes w key.data d) (hdq : d < q) {hash : List UInt8}
    (hh : hash ≠ []) (rand : Out RandomError (List UInt8)) :
    keyAndMsg m w g hash key rand = if extra then (do
        let bytes ← rand.mapErr .FailedToGenerateRandomBytes
        return Spec.Rfc6979.seed q d hash bytes)
      else .ok (Spec.Rfc6979.seed q d hash []) := by
  obtain ⟨_, e1, rfl⟩ := int2octets_y (ε := GenerateNonceError) m hg hd hdq
  obtain ⟨_, e2, rfl⟩ := bits2octets_y (ε := GenerateNonceError) m hg (by omega) hh
  unfold keyAndMsg Spec.Rfc6979.seed
  simp only [e1, e2, bind_ok, hg.extra, List.append_nil]
  cases extra <;> rfl

/-- Generating a nonce is: obtain the random bytes if wanted, then run the candidate loop from the state prescribed by the RFC. -/
theorem generateNonce_eq (hg : IsGen w q extra g) {key : PrivateKey} {d : Nat} (hd : Denotes w key.data d) (hdq : d < q)
    (hko : Denotes w key.params.order (q : Int)) {hash : List UInt8} (hh : hash ≠ []) (st : H.State) {rand : Out RandomError (List UInt8)}
    {bytes : List UInt8} (hb : if extra then rand = .ok bytes else bytes = []) (fuel : Nat)
    (hl : H.blockLen + H.outLen + 1 + 2 * ((bitLength q + 7) / 8) + bytes.length < limit) :
    ∃ st', g.generateNonce m w H fuel hash key st rand = nonceLoop m w H g fuel st'
      (Spec.Rfc6979.stateAt (mac H h) H.outLen q (Spec.Rfc6979.seed q d hash bytes) 0).K
      (Spec.Rfc6979.stateAt (mac H h) H.outLen q (Spec.Rfc6979.seed q d hash bytes) 0).V := by
  have hkm : keyAndMsg m w g hash key rand = .ok (Spec.Rfc6979.seed q d hash bytes) := by
    rw [keyAndMsg_eq m hg hd hdq hh rand]
    cases extra
    · simp only [Bool.false_eq_true, if_false] at hb ⊢; rw [hb]
    · simp only [if_true] at hb ⊢; rw [hb]; rfl
  have hsl := seed_length q d hash bytes
  obtain ⟨_, ea, -⟩ := dassertM_y (ε := GenerateNonceError) m (beq_y m hg.q hko |>.mono (by rintro _ rfl; exact decide_eq_true rfl))
  unfold Rfc6979.generateNonce
  simp only [hkm, ea, bind_ok]
  have r1 : (List.replicate H.outLen (1 : UInt8)).length = H.outLen := List.length_replicate
  have r0 : (List.replicate H.outLen (0 : UInt8)).length = H.outLen := List.length_replicate
  obtain ⟨⟨k1, st1⟩, e1, h1⟩ := hmac_y (ε := GenerateNonceError) m hc ho st (key := List.replicate H.outLen 0)
    (msg := List.replicate H.outLen 1 ++ [0] ++ Spec.Rfc6979.seed q d hash bytes) (by omega)
    (by rw [List.length_append, List.length_append, r1, List.length_singleton]; omega) (by omega)
  simp only at h1
  have l1 : k1.length = H.outLen := by rw [h1]; exact hc.length _
  obtain ⟨⟨v1, st2⟩, e2, h2⟩ := hmac_y (ε := GenerateNonceError) m hc ho st1 (key := k1)
    (msg := List.replicate H.outLen 1) (by omega) (by omega) (by omega)
  simp only at h2
  have l2 : v1.length = H.outLen := by rw [h2]; exact hc.length _
  obtain ⟨⟨k2, st3⟩, e3, h3⟩ := hmac_y (ε := GenerateNonceError) m hc ho st2 (key := k1)
    (msg := v1 ++ [1] ++ Spec.Rfc6979.seed q d hash bytes) (by omega)
    (by rw [List.length_append, List.length_append, l2, List.length_singleton]; omega) (by omega)
  simp only at h3
  have l3 : k2.length = H.outLen := by rw [h3]; exact hc.length _
  obtain ⟨⟨v2, st4⟩, e4, h4⟩ := hmac_y (ε := GenerateNonceError) m hc ho st3 (key := k2) (msg := v1) (by omega) (by omega) (by omega)
  simp only at h4
  simp only [e1, e2, e3, e4, bind_ok]
  refine ⟨st4, ?_⟩
  rw [h4, h3, h2, h1]
  rfl

end Loop

/-- Failing to obtain random bytes is reported. -/
theorem generateNonce_err {H : Hasher} (hg : IsGen w q true g) {key : PrivateKey} {d : Nat} (hd : Denotes w key.data d) (hdq : d < q)
    (hko : Denotes w key.params.order (q : Int)) {hash : List UInt8} (hh : hash ≠ []) (st : H.State) (er : RandomError) (fuel : Nat) :
    g.generateNonce m w H fuel hash key st (.err er) = .err (.FailedToGenerateRandomBytes er) := by
  obtain ⟨_, ea, -⟩ := dassertM_y (ε := GenerateNonceError) m (beq_y m hg.q hko |>.mono (by rintro _ rfl; exact decide_eq_true rfl))
  unfold Rfc6979.generateNonce
  simp only [keyAndMsg_eq m hg hd hdq hh (.err er), ea, bind_ok]
  rfl

end LCT.Crypto
