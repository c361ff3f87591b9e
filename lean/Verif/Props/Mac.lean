import Verif.Props.Signing
import Verif.Props.Sha3
import Verif.Lemmas.Crypto.Nonces
import Verif.Lemmas.Hash.Sponge
import Verif.Lemmas.Hash.Sha2

/-!
# An authentication code belongs to one key and one message, unless the hash function collides (C85)

`hmacHashes h block (key, msg)` are the two messages that HMAC hashes (`Verif.Spec.Nonces`).  A key that is longer than a block counts as its hash,
and a shorter one as if zeros followed it: keys that differ in this way only are one key for HMAC (RFC 2104, section 2).
-/

namespace LCT.Props
open LCT.Spec LCT.Out LCT.Crypto LCT.Hash
variable {ε : Type}

/-- What HMAC makes of a key before padding it: a long key is replaced by its hash. -/
def shortKey (h : List UInt8 → List UInt8) (block : Nat) (key : List UInt8) : List UInt8 := if key.length ≤ block then key else h key

/-- The two keys are one key for HMAC: after long ones were replaced by their hashes they differ in the number of zeros at the end at most. -/
def OneKey (h : List UInt8 → List UInt8) (block : Nat) (key key' : List UInt8) : Prop :=
  ∃ i j, shortKey h block key ++ List.replicate i 0 = shortKey h block key' ++ List.replicate j 0

theorem hmacKey_eq_length {H : Hasher} {h : List UInt8 → List UInt8} {limit : Nat} (hc : Computes H h limit) (ho : H.outLen ≤ H.blockLen)
    (key : List UInt8) : (hmacKey h H.blockLen key).length = H.blockLen ∧ (shortKey h H.blockLen key).length ≤ H.blockLen := by
  have hs : (shortKey h H.blockLen key).length ≤ H.blockLen := by
    unfold shortKey
    split
    · assumption
    · rw [hc.length]; exact ho
  refine ⟨?_, hs⟩
  show (shortKey h H.blockLen key ++ List.replicate (H.blockLen - (shortKey h H.blockLen key).length) 0).length = _
  rw [List.length_append, List.length_replicate]
  omega

theorem oneKey_iff {H : Hasher} {h : List UInt8 → List UInt8} {limit : Nat} (hc : Computes H h limit) (ho : H.outLen ≤ H.blockLen)
    (key key' : List UInt8) : OneKey h H.blockLen key key' ↔ hmacKey h H.blockLen key = hmacKey h H.blockLen key' := by
  have h1 := (hmacKey_eq_length hc ho key).2
  have h2 := (hmacKey_eq_length hc ho key').2
  show _ ↔ shortKey h H.blockLen key ++ List.replicate (H.blockLen - (shortKey h H.blockLen key).length) 0 =
    shortKey h H.blockLen key' ++ List.replicate (H.blockLen - (shortKey h H.blockLen key').length) 0
  unfold OneKey
  generalize shortKey h H.blockLen key = a at *
  generalize shortKey h H.blockLen key' = b at *
  constructor
  · rintro ⟨i, j, e⟩
    have e2 : a ++ List.replicate (i + H.blockLen) 0 = b ++ List.replicate (j + H.blockLen) 0 := by
      rw [List.replicate_add, List.replicate_add, ← List.append_assoc, ← List.append_assoc, e]
    have e3 := congrArg (List.take H.blockLen) e2
    rw [List.take_append, List.take_append, List.take_of_length_le h1, List.take_of_length_le h2, List.take_replicate, List.take_replicate,
      Nat.min_eq_left (by omega), Nat.min_eq_left (by omega)] at e3
    exact e3
  · intro e
    exact ⟨_, _, e⟩

section
variable (H : Hasher) (h : List UInt8 → List UInt8) (limit : Nat) (hc : Computes H h limit) (ho : H.outLen ≤ H.blockLen)
  (hl : H.blockLen + H.outLen < limit)
include hc ho hl

/-- C85: two calls of HMAC, in whatever states and builds, that return the same code were made with the same message and with one key, or else two
different messages among those that were hashed have the same hash. -/
theorem C85_binding (m m' : Build) (st st' : H.State) (key key' msg msg' t : List UInt8) (s s' : H.State) (hk : key.length < limit)
    (hk' : key'.length < limit) (hm : H.blockLen + msg.length < limit) (hm' : H.blockLen + msg'.length < limit)
    (e : (hmac m H st key msg : Out ε _) = .ok (t, s)) (e' : (hmac m' H st' key' msg' : Out ε _) = .ok (t, s')) :
    (msg = msg' ∧ OneKey h H.blockLen key key') ∨
      ∃ x ∈ hmacHashes h H.blockLen (key, msg), ∃ y ∈ hmacHashes h H.blockLen (key', msg'), x ≠ y ∧ h x = h y := by
  obtain ⟨u, eu⟩ := C28_hmac (ε := ε) m H h limit hc ho st key msg hk hm hl
  obtain ⟨u', eu'⟩ := C28_hmac (ε := ε) m' H h limit hc ho st' key' msg' hk' hm' hl
  have ht : Spec.hmac h H.blockLen key msg = Spec.hmac h H.blockLen key' msg' := by
    rw [e] at eu
    rw [e'] at eu'
    have h1 := congrArg Prod.fst (Out.ok.inj eu)
    have h2 := congrArg Prod.fst (Out.ok.inj eu')
    exact h1.symm.trans h2
  have l1 := (hmacKey_eq_length hc ho key).1
  have l2 := (hmacKey_eq_length hc ho key').1
  rw [oneKey_iff hc ho]
  unfold Spec.hmac at ht
  unfold hmacHashes
  dsimp only at ht ⊢
  generalize hmacKey h H.blockLen key = k at *
  generalize hmacKey h H.blockLen key' = k' at *
  by_cases hout : k.map (· ^^^ 0x5c) ++ h (k.map (· ^^^ 0x36) ++ msg) = k'.map (· ^^^ 0x5c) ++ h (k'.map (· ^^^ 0x36) ++ msg')
  swap
  · exact .inr ⟨_, List.mem_cons_of_mem _ (List.mem_singleton_self _), _, List.mem_cons_of_mem _ (List.mem_singleton_self _), hout, ht⟩
  obtain ⟨hk, hin⟩ := List.append_inj hout (by rw [List.length_map, List.length_map, l1, l2])
  have hk := map_xor_inj _ _ _ hk
  subst hk
  by_cases hmsg : msg = msg'
  · exact .inl ⟨hmsg, rfl⟩
  · exact .inr ⟨_, List.mem_cons_self, _, List.mem_cons_self, fun h => hmsg (List.append_cancel_left h), hin⟩

/-- C85, for keys of one length that is not longer than a block, which is how keys are used: the keys are the same. -/
theorem C85_binding_same_length (m m' : Build) (st st' : H.State) (key key' msg msg' t : List UInt8) (s s' : H.State)
    (hk : key.length ≤ H.blockLen) (hkk : key.length = key'.length) (hm : H.blockLen + msg.length < limit)
    (hm' : H.blockLen + msg'.length < limit) (e : (hmac m H st key msg : Out ε _) = .ok (t, s))
    (e' : (hmac m' H st' key' msg' : Out ε _) = .ok (t, s')) :
    (msg = msg' ∧ key = key') ∨
      ∃ x ∈ hmacHashes h H.blockLen (key, msg), ∃ y ∈ hmacHashes h H.blockLen (key', msg'), x ≠ y ∧ h x = h y := by
  refine (C85_binding (ε := ε) H h limit hc ho hl m m' st st' key key' msg msg' t s s' (by omega) (by omega) hm hm' e e').imp_left ?_
  rintro ⟨h1, i, j, h2⟩
  unfold shortKey at h2
  rw [if_pos hk, if_pos (hkk ▸ hk)] at h2
  exact ⟨h1, (List.append_inj h2 hkk).1⟩

/-- C85: keys that are one key for HMAC give the same code for every message.  (So a caller who does not fix the length of keys cannot rely on
different keys.) -/
theorem C85_one_key (m m' : Build) (st st' : H.State) (key key' msg : List UInt8) (hk : key.length < limit) (hk' : key'.length < limit)
    (hm : H.blockLen + msg.length < limit) (h1 : OneKey h H.blockLen key key') :
    ∃ t s s', (hmac m H st key msg : Out ε _) = .ok (t, s) ∧ (hmac m' H st' key' msg : Out ε _) = .ok (t, s') := by
  obtain ⟨u, eu⟩ := C28_hmac (ε := ε) m H h limit hc ho st key msg hk hm hl
  obtain ⟨u', eu'⟩ := C28_hmac (ε := ε) m' H h limit hc ho st' key' msg hk' hm hl
  refine ⟨_, u, u', eu, ?_⟩
  rw [eu']
  unfold Spec.hmac
  rw [(oneKey_iff hc ho key key').mp h1]

end

/-- C85, for all the hash functions of the library and messages shorter than `2^60` bytes: the same code for keys of one length, not longer than a
block, shows the same key and message, or two different hashed messages with the same digest, as the hasher of the library computes it. -/
theorem C85_library (H : Hasher) (hH : H ∈ [Sha2.Sha256, Sha2.Sha384, Sha2.Sha512, Sha3.Sha3_224, Sha3.Sha3_256, Sha3.Sha3_384, Sha3.Sha3_512,
      Sha3.Keccak256]) (m m' : Build)
    (st st' : H.State) (key key' msg msg' t : List UInt8) (s s' : H.State) (hk : key.length ≤ H.blockLen) (hkk : key.length = key'.length)
    (hm : msg.length < 2 ^ 60) (hm' : msg'.length < 2 ^ 60) (e : (hmac m H st key msg : Out ε _) = .ok (t, s))
    (e' : (hmac m' H st' key' msg' : Out ε _) = .ok (t, s')) :
    (msg = msg' ∧ key = key') ∨ ∃ x y d s1 s2, x ≠ y ∧ (∃ a b, x.length = H.blockLen + a ∧ y.length = H.blockLen + b ∧
      (a = msg.length ∨ a = H.outLen) ∧ (b = msg'.length ∨ b = H.outLen)) ∧
      (H.digest m st x : Out ε _) = .ok (d, s1) ∧ (H.digest m' st' y : Out ε _) = .ok (d, s2) := by
  have go : ∀ (H : Hasher) (h : List UInt8 → List UInt8) (hc : Computes H h (2 ^ 61)) (ho : H.outLen ≤ H.blockLen) (hb : H.blockLen < 2 ^ 20)
      (m m' : Build) (st st' : H.State) (key key' msg msg' t : List UInt8) (s s' : H.State) (hk : key.length ≤ H.blockLen)
      (hkk : key.length = key'.length) (hm : msg.length < 2 ^ 60) (hm' : msg'.length < 2 ^ 60)
      (e : (hmac m H st key msg : Out ε _) = .ok (t, s)) (e' : (hmac m' H st' key' msg' : Out ε _) = .ok (t, s')),
      (msg = msg' ∧ key = key') ∨ ∃ x y d s1 s2, x ≠ y ∧ (∃ a b, x.length = H.blockLen + a ∧ y.length = H.blockLen + b ∧
      (a = msg.length ∨ a = H.outLen) ∧ (b = msg'.length ∨ b = H.outLen)) ∧
      (H.digest m st x : Out ε _) = .ok (d, s1) ∧ (H.digest m' st' y : Out ε _) = .ok (d, s2) := by
    intro H h hc ho hb m m' st st' key key' msg msg' t s s' hk hkk hm hm' e e'
    refine (C85_binding_same_length (ε := ε) H h _ hc ho (by omega) m m' st st' key key' msg msg' t s s' hk hkk (by omega) (by omega) e e').imp_right ?_
    rintro ⟨x, hx, y, hy, hne, hxy⟩
    have hlen : ∀ key msg x, x ∈ hmacHashes h H.blockLen (key, msg) →
        ∃ a, x.length = H.blockLen + a ∧ (a = msg.length ∨ a = H.outLen) := by
      intro key msg x hx
      have hK := (hmacKey_eq_length hc ho key).1
      unfold hmacHashes at hx
      dsimp only at hx
      rcases List.mem_cons.mp hx with rfl | hx
      · exact ⟨_, by rw [List.length_append, List.length_map, hK], .inl rfl⟩
      · rw [List.mem_singleton.mp hx]
        exact ⟨_, by rw [List.length_append, List.length_map, hK, hc.length], .inr rfl⟩
    obtain ⟨a, ha, ha'⟩ := hlen _ _ _ hx
    obtain ⟨b, hb, hb'⟩ := hlen _ _ _ hy
    obtain ⟨s1, e1⟩ := hc.digest ε m st x (by omega)
    obtain ⟨s2, e2⟩ := hc.digest ε m' st' y (by omega)
    exact ⟨x, y, _, s1, s2, hne, ⟨a, b, ha, hb, ha', hb'⟩, e1, by rw [e2, hxy]⟩
  simp only [List.mem_cons, List.not_mem_nil, or_false] at hH
  rcases hH with rfl | rfl | rfl | rfl | rfl | rfl | rfl | rfl
  · exact go _ _ Hash.Sha2.computes256 (by decide) (by decide) m m' st st' key key' msg msg' t s s' hk hkk hm hm' e e'
  · exact go _ _ Hash.Sha2.computes384 (by decide) (by decide) m m' st st' key key' msg msg' t s s' hk hkk hm hm' e e'
  · exact go _ _ Hash.Sha2.computes512 (by decide) (by decide) m m' st st' key key' msg msg' t s s' hk hkk hm hm' e e'
  · exact go _ _ (Hash.Sha3.computesSha3_224 _) (by decide) (by decide) m m' st st' key key' msg msg' t s s' hk hkk hm hm' e e'
  · exact go _ _ (Hash.Sha3.computesSha3_256 _) (by decide) (by decide) m m' st st' key key' msg msg' t s s' hk hkk hm hm' e e'
  · exact go _ _ (Hash.Sha3.computesSha3_384 _) (by decide) (by decide) m m' st st' key key' msg msg' t s s' hk hkk hm hm' e e'
  · exact go _ _ (Hash.Sha3.computesSha3_512 _) (by decide) (by decide) m m' st st' key key' msg msg' t s s' hk hkk hm hm' e e'
  · exact go _ _ (Hash.Sha3.computesKeccak256 _) (by decide) (by decide) m m' st st' key key' msg msg' t s s' hk hkk hm hm' e e'

/-- The keys `1` and `1 0` are one key, and so are a long key and its hash; `1` and `0 1` are not. -/
example (h : List UInt8 → List UInt8) (key : List UInt8) (hk : 64 < key.length) (hh : (h key).length ≤ 64) :
    OneKey h 64 [1] [1, 0] ∧ OneKey h 64 key (h key) ∧ ¬ OneKey h 64 [1] [0, 1] := by
  refine ⟨⟨1, 0, rfl⟩, ⟨0, 0, ?_⟩, ?_⟩
  · unfold shortKey
    rw [if_neg (by omega), if_pos hh]
  · rintro ⟨i, j, e⟩
    have := congrArg List.head? e
    exact absurd this (by unfold shortKey; simp)

/-- The hypotheses can be met: a function with collisions, and two messages with the same code. -/
example : (hmac .debug sumHasher () [1] [2, 3] : Out Unit _) = .ok (Spec.hmac (fun msg => [msg.sum]) 2 [1] [3, 2], ()) ∧
    (hmac .debug sumHasher () [1] [3, 2] : Out Unit _) = .ok (Spec.hmac (fun msg => [msg.sum]) 2 [1] [3, 2], ()) := ⟨rfl, rfl⟩

end LCT.Props
