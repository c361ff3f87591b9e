import Verif.Lemmas.Crypto.Signing
import Verif.Lemmas.Crypto.Secp256k1Params
import Verif.Lemmas.Crypto.Toy

/-!
# Properties of signing and verification: C21, C22, C25, C26, C27, C28

`Domain` (in `Verif.Spec.Ecdsa`) says that the parameters describe a curve with a base point of prime order; the built-in curve meets it
(`C24_domain_secp256k1`).  `h` is the function that the hasher computes on messages shorter than `limit` (`Computes` in `Verif.Spec.Hmac`).
-/

namespace LCT.Props
open LCT.BigInt LCT.Spec LCT.Out LCT.Modular LCT.Curve LCT.Crypto LCT.Hash LCT.Random
variable {ε : Type}

/-- A hasher with one-byte blocks that always returns the byte `b`, for examples. -/
def constHasher (b : UInt8) : Hasher := ⟨Unit, (), 1, 1, fun _ _ _ => .ok ([b], ())⟩

theorem constHasher_computes (b : UInt8) (limit : Nat) : Computes (constHasher b) (fun _ => [b]) limit :=
  ⟨fun _ _ _ _ _ => ⟨(), rfl⟩, fun _ => rfl⟩

/-! ## C28: HMAC -/

/-- C28: for every hash function whose output is not longer than its block, `hmac` computes RFC 2104, for keys and messages of any length that
the hash function can process, and however the hasher was used before. -/
theorem C28_hmac (m : Build) (H : Hasher) (h : List UInt8 → List UInt8) (limit : Nat) (hc : Computes H h limit) (ho : H.outLen ≤ H.blockLen)
    (st : H.State) (key msg : List UInt8) (hk : key.length < limit) (hm : H.blockLen + msg.length < limit)
    (hl : H.blockLen + H.outLen < limit) :
    ∃ st', (hmac m H st key msg : Out ε _) = .ok (Spec.hmac h H.blockLen key msg, st') := by
  obtain ⟨⟨_, st'⟩, e, rfl⟩ := hmac_y (ε := ε) m hc ho st hk hm hl
  exact ⟨st', e⟩

/-- The result has the length of the hash. -/
theorem C28_length (H : Hasher) (h : List UInt8 → List UInt8) (limit : Nat) (hc : Computes H h limit) (key msg : List UInt8) :
    (Spec.hmac h H.blockLen key msg).length = H.outLen := hmac_length hc key msg

/-- A hash function that sums the bytes, with two-byte blocks, for the example. -/
def sumHasher : Hasher := ⟨Unit, (), 2, 1, fun _ _ msg => .ok ([msg.sum], ())⟩

example : Computes sumHasher (fun msg => [msg.sum]) 100 ∧ sumHasher.outLen ≤ sumHasher.blockLen ∧
    Spec.hmac (fun msg => [msg.sum]) 2 [1, 2, 3] [7] = [((6 : UInt8) ^^^ 0x5c) + 0x5c + ((6 ^^^ 0x36) + 0x36 + 7)] :=
  ⟨⟨fun _ _ _ _ _ => ⟨(), rfl⟩, fun _ => rfl⟩, by decide, by decide⟩

/-! ## C26: deterministic nonces -/

section C26
variable (m : Build) (w : Nat) [DigitWidth w] (H : Hasher) (h : List UInt8 → List UInt8) (limit : Nat) (hc : Computes H h limit)
  (ho : H.outLen ≤ H.blockLen) (ho0 : 0 < H.outLen) (q d : Nat) (hdq : d < q) (key : PrivateKey) (hd : Denotes w key.data d)
  (hq : Denotes w key.params.order q) (extra : Bool) (hash : List UInt8) (hh : hash ≠ [])
include hc ho ho0 hdq hd hq hh

/-- C26: every nonce returned is the one prescribed by RFC 6979 (3.2, or 3.6 when extra random data is used), and lies in `[1, q-1]`. -/
theorem C26_sound : ∃ g, (Rfc6979.new m w key.params.order extra : Out ε _) = .ok g ∧
    ∀ (fuel : Nat) (st : H.State) (rand : Out RandomError (List UInt8)),
      (∀ bytes, Drawn extra rand bytes → H.blockLen + H.outLen + 1 + 2 * ((bitLength q + 7) / 8) + bytes.length < limit) →
      ∀ x st', g.generateNonce m w H fuel hash key st rand = .ok (x, st') →
        ∃ k : Nat, Denotes w x k ∧ NonceOf H h q d hash extra rand k ∧ 0 < k ∧ k < q := by
  obtain ⟨g, e, hg⟩ := rfcNew_y (ε := ε) m hq extra
  refine ⟨g, e, fun fuel st rand hl x st' hok => ?_⟩
  obtain ⟨bytes, k, h1, h2, h3⟩ := generateNonce_sound m hc ho ho0 hg hd hdq hq hh st fuel hl hok
  exact ⟨k, h2, ⟨bytes, h1, h3⟩, h3.choose_spec.2.1, h3.choose_spec.2.2.1⟩

/-- C26: if the prescribed nonce exists (some candidate is in range) it is returned, whatever the hasher was used for before. -/
theorem C26_complete (rand : Out RandomError (List UInt8)) (k : Nat) (hk : NonceOf H h q d hash extra rand k)
    (hl : ∀ bytes, Drawn extra rand bytes → H.blockLen + H.outLen + 1 + 2 * ((bitLength q + 7) / 8) + bytes.length < limit) :
    ∃ g, (Rfc6979.new m w key.params.order extra : Out ε _) = .ok g ∧ ∃ f0, ∀ (fuel : Nat) (st : H.State), f0 ≤ fuel →
      ∃ x st', g.generateNonce m w H fuel hash key st rand = .ok (x, st') ∧ Denotes w x k := by
  obtain ⟨g, e, hg⟩ := rfcNew_y (ε := ε) m hq extra
  obtain ⟨bytes, hb, hn⟩ := hk
  obtain ⟨f0, hf⟩ := generateNonce_complete m hc ho ho0 hg hd hdq hq hh hb (hl bytes hb) hn
  refine ⟨g, e, f0, fun fuel st hle => ?_⟩
  obtain ⟨⟨x, st'⟩, e1, hx⟩ := hf fuel st hle
  exact ⟨x, st', e1, hx⟩

/-- C26: without extra random data the nonce is a function of the key and the hash: two runs, with hashers in any state, different random
sources and different private key objects for the same secret, give the same number. -/
theorem C26_deterministic (key' : PrivateKey) (hd' : Denotes w key'.data d) (hq' : Denotes w key'.params.order q)
    (hl : H.blockLen + H.outLen + 1 + 2 * ((bitLength q + 7) / 8) < limit) :
    ∃ g, (Rfc6979.new m w key.params.order false : Out ε _) = .ok g ∧ ∃ g', (Rfc6979.new m w key'.params.order false : Out ε _) = .ok g' ∧
    ∀ (fuel fuel' : Nat) (s s' : H.State) (rand rand' : Out RandomError (List UInt8)) x x' t t',
      g.generateNonce m w H fuel hash key s rand = .ok (x, t) → g'.generateNonce m w H fuel' hash key' s' rand' = .ok (x', t') →
      ∃ k : Nat, Denotes w x k ∧ Denotes w x' k := by
  obtain ⟨g, e, hg⟩ := rfcNew_y (ε := ε) m hq false
  obtain ⟨g', e', hg'⟩ := rfcNew_y (ε := ε) m hq' false
  have hl' : ∀ rand : Out RandomError (List UInt8), ∀ bytes, Drawn false rand bytes →
      H.blockLen + H.outLen + 1 + 2 * ((bitLength q + 7) / 8) + bytes.length < limit := by
    rintro _ bytes (rfl : bytes = [])
    exact hl
  refine ⟨g, e, g', e', fun fuel fuel' s s' rand rand' x x' t t' h1 h2 => ?_⟩
  obtain ⟨_, k, (rfl : _ = []), hx, hn⟩ := generateNonce_sound m hc ho ho0 hg hd hdq hq hh s fuel (hl' _) h1
  obtain ⟨_, k', (rfl : _ = []), hx', hn'⟩ := generateNonce_sound m hc ho ho0 hg' hd' hdq hq' hh s' fuel' (hl' _) h2
  rw [← isNonce_unique hn hn'] at hx'
  exact ⟨k, hx, hx'⟩

end C26

/-- C26: there is at most one prescribed nonce for given additional data. -/
theorem C26_unique (H : Hasher) (h : List UInt8 → List UInt8) (q d : Nat) (hash : List UInt8) (extra : Bool)
    (rand : Out RandomError (List UInt8)) (k k' : Nat) (hk : NonceOf H h q d hash extra rand k) (hk' : NonceOf H h q d hash extra rand k') :
    k = k' := by
  obtain ⟨b, hb, h1⟩ := hk
  obtain ⟨b', hb', h2⟩ := hk'
  have : b = b' := by
    unfold Drawn at hb hb'
    cases extra
    · simp only [Bool.false_eq_true, if_false] at hb hb'; rw [hb, hb']
    · simp only [if_true] at hb hb'
      rw [hb] at hb'
      cases hb'; rfl
  subst this
  exact isNonce_unique h1 h2

/-- C26: the octet conversions have the prescribed length `⌈qlen/8⌉` and represent the number, respectively its residue. -/
theorem C26_octets (m : Build) (w : Nat) [DigitWidth w] (q : Nat) (hq0 : 0 < q) (xq : BInt) (hq : Denotes w xq q) (extra : Bool) :
    ∃ g, (Rfc6979.new m w xq extra : Out ε _) = .ok g ∧
      (∀ (n : Nat) (x : BInt), Denotes w x n → n < q → ∃ bytes, (g.int2octets m w x : Out ε _) = .ok bytes ∧
        bytes.length = (bitLength q + 7) / 8 ∧ ofBE bytes = n) ∧
      (∀ hash : List UInt8, hash ≠ [] → ∃ bytes, (g.bits2octets m w hash : Out ε _) = .ok bytes ∧
        bytes.length = (bitLength q + 7) / 8 ∧ ofBE bytes = leadingBits (bitLength q) hash % q) := by
  obtain ⟨g, e, hg⟩ := rfcNew_y (ε := ε) m hq extra
  have hval : ∀ n < q, ofBE (Spec.Rfc6979.int2octets q n) = n := by
    intro n hn
    unfold Spec.Rfc6979.int2octets
    rw [octets_eq, ofBE_toBEk, Nat.mod_eq_of_lt (lt_octets_len hn)]
  refine ⟨g, e, fun n x hx hn => ?_, fun hash hh => ?_⟩
  · obtain ⟨_, e1, rfl⟩ := int2octets_y (ε := ε) m hg hx hn
    exact ⟨_, e1, octets_length _ _, hval n hn⟩
  · obtain ⟨_, e1, rfl⟩ := bits2octets_y (ε := ε) m hg hq0 hh
    exact ⟨_, e1, octets_length _ _, hval _ (Nat.mod_lt _ hq0)⟩

/-- With the hash function that is constantly 5, the nonce for the order 233 is 5. -/
theorem example_nonce (b : UInt8) (hb0 : 0 < b.toNat) (hb : b.toNat < 233) (d : Nat) (hash : List UInt8)
    (rand : Out RandomError (List UInt8)) : NonceOf (constHasher b) (fun _ => [b]) 233 d hash false rand b.toNat := by
  refine ⟨[], rfl, 0, ?_, hb0, hb, fun j hj => absurd hj (Nat.not_lt_zero j)⟩
  have : bitLength 233 = 8 := by decide
  simp [Spec.Rfc6979.candidate, Spec.Rfc6979.T, Spec.Rfc6979.blocks, Spec.Rfc6979.bits2int, leadingBits, this, constHasher,
    Spec.Rfc6979.chain, Spec.hmac, List.range_succ, ofBE]

/-! ## C21: signatures verify -/

section Domain
variable (m : Build) (w : Nat) [DigitWidth w] (cp : Params) (p n : Nat) [Fact p.Prime] (a b : Int)
  (G : (curve (a : ZMod p) (b : ZMod p)).Point) (hD : Domain w cp p n a b G)
include hD

/-- C21: for every private key, hash value of admissible length and nonce in range, `PrivateKey::sign` returns nothing exactly if one of the
textbook values `r`, `s` is zero, and otherwise the signature `(r, s)`; then `r` and `s` lie in `[1, n-1]` and the public key of the private
key verifies it. -/
theorem C21_sign (d e k : Nat) (hd0 : 0 < d) (hdn : d < n) (xd xe xk : BInt) (hd : Denotes w xd d) (he : Denotes w xe e)
    (hel : bitLength e ≤ bitLength n) (hk : Denotes w xk k) (hk0 : 0 < k) (hkn : k < n) :
    ∃ pk, (PrivateKey.publicKey m w ⟨xd, cp⟩ : Out ε _) = .ok pk ∧ ∃ res, (PrivateKey.sign m w ⟨xd, cp⟩ xe xk : Out ε _) = .ok res ∧
      (res = none ↔ ecdsaR n G k = 0 ∨ ecdsaS n G d e k = 0) ∧
      ∀ sig id, res = some (sig, id) → sig.params = cp ∧ Denotes w sig.r (ecdsaR n G k : Nat) ∧ Denotes w sig.s (ecdsaS n G d e k : Nat) ∧
        0 < ecdsaR n G k ∧ ecdsaR n G k < n ∧ 0 < ecdsaS n G d e k ∧ ecdsaS n G d e k < n ∧
        (pk.verify m w xe sig : Out ε _) = .ok true := by
  have hnp : Fact n.Prime := ⟨hD.n_prime⟩
  obtain ⟨pk, epk, hpk1, hpk2⟩ := publicKey_y (ε := ε) m hD (key := ⟨xd, cp⟩) rfl hd (cast_ne_zero_of_lt hd0 hdn)
  obtain ⟨res, er, hr⟩ := sign_y (ε := ε) m hD (key := ⟨xd, cp⟩) rfl hd he hel hk hk0 hkn
  refine ⟨pk, epk, res, er, ?_, ?_⟩
  · rcases hr with ⟨h1, rfl⟩ | ⟨h1, h2, sig, id, rfl, -⟩
    · simp [h1]
    · simp [h1, h2]
  · rintro sig id rfl
    rcases hr with ⟨h1, h⟩ | ⟨h1, h2, sig', id', e', h3, h4, h5, -⟩
    · cases h
    cases e'
    have hslt : ecdsaS n G d e k < n := ZMod.val_lt _
    have hrlt : ecdsaR n G k < n := Nat.mod_lt _ hD.n_prime.pos
    have hs0 : ((ecdsaS n G d e k : Nat) : ZMod n) ≠ 0 := cast_ne_zero_of_lt (by omega) hslt
    obtain ⟨v, ev, hv⟩ := verify_y (ε := ε) m hD hpk1 hpk2 (smul_smul_zero hD.G_order d) he hel h4 h5 (by omega) hs0
    rw [hv.mpr (sign_verifies hD.G_ne hD.G_order (cast_ne_zero_of_lt hk0 hkn) h2)] at ev
    exact ⟨h3, h4, h5, by omega, hrlt, by omega, hslt, ev⟩

variable (H : Hasher) (h : List UInt8 → List UInt8) (limit : Nat) (hc : Computes H h limit) (ho : H.outLen ≤ H.blockLen)
  (ho0 : 0 < H.outLen) (d : Nat) (hd0 : 0 < d) (hdn : d < n) (key : PrivateKey) (hkey : key.params = cp) (hd : Denotes w key.data d)
  (hash : List UInt8) (o : SigningOptions) (h8 : o.strictHashByteLength = true → bitLength n % 8 = 0)
  (rand : Nat → Out RandomError (List UInt8))
  (hl : ∀ i bytes, Drawn o.employExtraRandomData (rand i) bytes →
    H.blockLen + H.outLen + 1 + 2 * ((bitLength n + 7) / 8) + bytes.length < limit)
include hc ho ho0 hd0 hdn hkey hd hl h8

/-- A signature that was produced: what it is, in terms of the specification. -/
theorem sign_ok (f nf : Nat) (st : H.State) (sig : Signature) (id : RecoveryId)
    (hok : signWithOptions m w H f nf st rand hash key o = .ok (sig, id)) :
    hash ≠ [] ∧ (o.strictHashByteLength = true → hash.length * 8 = bitLength n) ∧
    (o.isZeroHashAllowed = false → leadingBits (bitLength n) hash ≠ 0) ∧
    ∃ j k, NonceOf H h n d hash o.employExtraRandomData (rand j) k ∧ 0 < k ∧ k < n ∧
      ¬ Unusable n G d (leadingBits (bitLength n) hash) k ∧
      Normalised w n cp o.enforceLowS G d (leadingBits (bitLength n) hash) k (sig, id) ∧
      ∀ i < j, ∃ k', NonceOf H h n d hash o.employExtraRandomData (rand i) k' ∧ Unusable n G d (leadingBits (bitLength n) hash) k' := by
  obtain ⟨c1, c2, c3, c4⟩ := signWithOptions_eq m H hD hkey hash o h8
  by_cases h1 : hash = []
  · rw [c1 h1 f nf st rand] at hok; cases hok
  by_cases h2 : o.strictHashByteLength = true → hash.length * 8 = bitLength n
  · by_cases h3 : o.isZeroHashAllowed = false → leadingBits (bitLength n) hash ≠ 0
    · obtain ⟨g, xe, hg, hxe, e⟩ := c4 h1 h2 h3
      rw [e f nf st rand] at hok
      subst hkey
      have ctx : LoopCtx w p n a b G H h limit o.employExtraRandomData g key d hash xe rand := ⟨hD, hg, hd, hdn, h1, hxe, hl⟩
      obtain ⟨j, k, -, a1, a2, a3, a4⟩ := signLoop_sound m hc ho ho0 o ctx nf f 0 st hok
      obtain ⟨bytes, hb, hn⟩ := _root_.id a1
      exact ⟨h1, h2, h3, j, k, a1, hn.choose_spec.2.1, hn.choose_spec.2.2.1, a2, a3, fun i hi => a4 i (Nat.zero_le _) hi⟩
    · rw [Classical.not_imp] at h3
      rw [c3 h1 h2 h3.1 (by simpa using h3.2) f nf st rand] at hok
      cases hok
  · rw [Classical.not_imp] at h2
    rw [c2 h1 h2.1 h2.2 f nf st rand] at hok
    cases hok

/-- C21: every signature produced by signing, with any options, any random source and any hash function in the nonce generator, has `r` and
`s` in `[1, n-1]`, and is accepted by verification with the public key of the signer and the same hash.  Verification must not ask for more
than signing granted (its low-s and length checks), and it always rejects zero hashes. -/
theorem C21_sign_then_verify (f nf : Nat) (st : H.State) (sig : Signature) (id : RecoveryId)
    (hok : signWithOptions m w H f nf st rand hash key o = .ok (sig, id)) (vo : VerifyingOptions)
    (hv1 : vo.enforceLowS = true → o.enforceLowS = true)
    (hv2 : vo.strictHashByteLength = true → bitLength n % 8 = 0 ∧ hash.length * 8 = bitLength n) (hz : leadingBits (bitLength n) hash ≠ 0) :
    ∃ pk, (PrivateKey.publicKey m w key : Out VerifyingError _) = .ok pk ∧
      (∃ r s : Nat, Denotes w sig.r r ∧ Denotes w sig.s s ∧ 0 < r ∧ r < n ∧ 0 < s ∧ s < n) ∧
      verifyWithOptions m w hash sig pk vo = .ok true := by
  have hnp : Fact n.Prime := ⟨hD.n_prime⟩
  obtain ⟨hne, -, -, j, k, -, hk0, hkn, hus, ⟨hp, hr, hs, -⟩, -⟩ :=
    sign_ok m w cp p n a b G hD H h limit hc ho ho0 d hd0 hdn key hkey hd hash o h8 rand hl f nf st sig id hok
  obtain ⟨pk, epk, hpk1, hpk2⟩ := publicKey_y (ε := VerifyingError) m hD hkey hd (cast_ne_zero_of_lt hd0 hdn)
  simp only at hp hr hs
  unfold Unusable at hus
  rw [not_or] at hus
  have hslt : ecdsaS n G d (leadingBits (bitLength n) hash) k < n := ZMod.val_lt _
  have hrlt : ecdsaR n G k < n := Nat.mod_lt _ hD.n_prime.pos
  have hver := sign_verifies hD.G_ne hD.G_order (d := d) (e := leadingBits (bitLength n) hash) (cast_ne_zero_of_lt hk0 hkn) hus.2
  have hodd := hD.n_odd
  have hprop : 0 < lowered o.enforceLowS n (ecdsaS n G d (leadingBits (bitLength n) hash) k) ∧
      lowered o.enforceLowS n (ecdsaS n G d (leadingBits (bitLength n) hash) k) < n ∧
      (o.enforceLowS = true → lowered o.enforceLowS n (ecdsaS n G d (leadingBits (bitLength n) hash) k) ≤ n / 2) ∧
      EcdsaVerifies n G (d • G) (leadingBits (bitLength n) hash) (ecdsaR n G k)
        (lowered o.enforceLowS n (ecdsaS n G d (leadingBits (bitLength n) hash) k)) := by
    unfold lowered
    split
    · rename_i hlow
      exact ⟨by omega, by omega, fun _ => by omega, (verifies_neg hD.G_order (smul_smul_zero hD.G_order d) (by omega)).mpr hver⟩
    · rename_i hlow
      refine ⟨by omega, hslt, fun hl => ?_, hver⟩
      by_contra hcon
      exact hlow ⟨hl, hcon⟩
  obtain ⟨p1, p2, p3, p4⟩ := hprop
  refine ⟨pk, epk, ⟨_, _, hr, hs, by omega, hrlt, p1, p2⟩, ?_⟩
  obtain ⟨v, ev, hv⟩ := (verifyWithOptions_eq m hD hpk1 hpk2 (smul_smul_zero hD.G_order d) hp hr hs (by omega) p1 p2 hash vo (fun h => (hv2 h).1)).2.2.2.2 hne
    (fun h => p3 (hv1 h)) (fun h => (hv2 h).2) hz
  rw [hv.mpr p4] at ev
  exact ev

/-! ## C22: low-s signatures -/

/-- C22: with `enforce_low_s`, every signature produced has `s ≤ n/2`, satisfies the verification equation for the public key `d • G` of the
signer, and the recovery id that comes with it describes the point that the verifier computes from it. -/
theorem C22_low_s (f nf : Nat) (st : H.State) (sig : Signature) (id : RecoveryId) (hlow : o.enforceLowS = true)
    (hok : signWithOptions m w H f nf st rand hash key o = .ok (sig, id)) :
    ∃ r s : Nat, Denotes w sig.r r ∧ Denotes w sig.s s ∧ 0 < r ∧ r < n ∧ 0 < s ∧ s ≤ n / 2 ∧
      EcdsaVerifies n G (d • G) (leadingBits (bitLength n) hash) r s ∧ IdDescribes n G (d • G) (leadingBits (bitLength n) hash) r s id := by
  have hnp : Fact n.Prime := ⟨hD.n_prime⟩
  obtain ⟨hne, -, -, j, k, -, hk0, hkn, hus, ⟨hp, hr, hs, hi⟩, -⟩ :=
    sign_ok m w cp p n a b G hD H h limit hc ho ho0 d hd0 hdn key hkey hd hash o h8 rand hl f nf st sig id hok
  simp only at hp hr hs hi
  unfold Unusable at hus
  rw [not_or] at hus
  have hslt : ecdsaS n G d (leadingBits (bitLength n) hash) k < n := ZMod.val_lt _
  have hrlt : ecdsaR n G k < n := Nat.mod_lt _ hD.n_prime.pos
  have hver := sign_verifies hD.G_ne hD.G_order (d := d) (e := leadingBits (bitLength n) hash) (cast_ne_zero_of_lt hk0 hkn) hus.2
  have hodd := hD.n_odd
  refine ⟨_, _, hr, hs, by omega, hrlt, ?_, ?_, ?_, hi⟩
  · unfold lowered; split <;> omega
  · unfold lowered
    split
    · omega
    · rename_i h; by_contra hcon; exact h ⟨hlow, hcon⟩
  · unfold lowered
    split
    · exact (verifies_neg hD.G_order (smul_smul_zero hD.G_order d) (by omega)).mpr hver
    · exact hver

/-- C22: without `enforce_low_s` the recovery id describes the verifier's point as well. -/
theorem C22_id (f nf : Nat) (st : H.State) (sig : Signature) (id : RecoveryId)
    (hok : signWithOptions m w H f nf st rand hash key o = .ok (sig, id)) :
    ∃ r s : Nat, Denotes w sig.r r ∧ Denotes w sig.s s ∧ IdDescribes n G (d • G) (leadingBits (bitLength n) hash) r s id := by
  obtain ⟨hne, -, -, j, k, -, hk0, hkn, hus, ⟨hp, hr, hs, hi⟩, -⟩ :=
    sign_ok m w cp p n a b G hD H h limit hc ho ho0 d hd0 hdn key hkey hd hash o h8 rand hl f nf st sig id hok
  exact ⟨_, _, hr, hs, hi⟩

/-! ## C27: progress of the signing loop -/

/-- C27: signing returns as soon as some round has a nonce with non-zero `r` and `s` (all rounds before it having nonces), for all
sufficiently large bounds on the number of rounds and candidates.  What is returned is the signature for the nonce of that round:
`r`, and `s` or `n - s`. -/
theorem C27_progress (hne : hash ≠ []) (hlen : o.strictHashByteLength = true → hash.length * 8 = bitLength n)
    (hz : o.isZeroHashAllowed = false → leadingBits (bitLength n) hash ≠ 0) (j k : Nat)
    (hbad : ∀ i < j, ∃ k', NonceOf H h n d hash o.employExtraRandomData (rand i) k' ∧ Unusable n G d (leadingBits (bitLength n) hash) k')
    (hk : NonceOf H h n d hash o.employExtraRandomData (rand j) k) (hus : ¬ Unusable n G d (leadingBits (bitLength n) hash) k) :
    ∃ f0, ∀ f nf (st : H.State), f0 ≤ f → f0 ≤ nf → ∃ sig id, signWithOptions m w H f nf st rand hash key o = .ok (sig, id) ∧
      Denotes w sig.r (ecdsaR n G k : Nat) ∧
      let s := ecdsaS n G d (leadingBits (bitLength n) hash) k
      Denotes w sig.s (if o.enforceLowS = true ∧ n / 2 < s then n - s else s : Nat) := by
  subst hkey
  obtain ⟨g, xe, hg, hxe, e⟩ := (signWithOptions_eq m H hD rfl hash o h8).2.2.2 hne hlen hz
  obtain ⟨nf0, hnf⟩ := signLoop_complete m hc ho ho0 o ⟨hD, hg, hd, hdn, hne, hxe, hl⟩ j hbad hk hus
  refine ⟨max nf0 (j + 1), fun f nf st h1 h2 => ?_⟩
  obtain ⟨⟨sig, id⟩, e1, -, hr, hs, -⟩ := hnf nf f st (by omega) (by omega)
  refine ⟨sig, id, by rw [e]; exact e1, hr, ?_⟩
  have : lowered o.enforceLowS n (ecdsaS n G d (leadingBits (bitLength n) hash) k) =
      if o.enforceLowS = true ∧ n / 2 < ecdsaS n G d (leadingBits (bitLength n) hash) k then
        n - ecdsaS n G d (leadingBits (bitLength n) hash) k else ecdsaS n G d (leadingBits (bitLength n) hash) k := by
    unfold lowered
    simp only [Nat.not_le]
  simp only at hs ⊢
  rw [← this]
  exact hs

/-- C27: conversely, a signature that is returned comes from the first round whose nonce is usable, and is in range. -/
theorem C27_first_usable (f nf : Nat) (st : H.State) (sig : Signature) (id : RecoveryId)
    (hok : signWithOptions m w H f nf st rand hash key o = .ok (sig, id)) :
    ∃ j k, NonceOf H h n d hash o.employExtraRandomData (rand j) k ∧ ¬ Unusable n G d (leadingBits (bitLength n) hash) k ∧
      (∀ i < j, ∃ k', NonceOf H h n d hash o.employExtraRandomData (rand i) k' ∧ Unusable n G d (leadingBits (bitLength n) hash) k') ∧
      Denotes w sig.r (ecdsaR n G k : Nat) ∧ 0 < ecdsaR n G k ∧ ecdsaR n G k < n ∧ ∃ s : Nat, Denotes w sig.s s ∧ 0 < s ∧ s < n := by
  have hnp : Fact n.Prime := ⟨hD.n_prime⟩
  obtain ⟨hne, -, -, j, k, hnon, hk0, hkn, hus, ⟨hp, hr, hs, hi⟩, hbad⟩ :=
    sign_ok m w cp p n a b G hD H h limit hc ho ho0 d hd0 hdn key hkey hd hash o h8 rand hl f nf st sig id hok
  have hus' := hus
  unfold Unusable at hus'
  rw [not_or] at hus'
  have hslt : ecdsaS n G d (leadingBits (bitLength n) hash) k < n := ZMod.val_lt _
  refine ⟨j, k, hnon, hus, hbad, hr, by omega, Nat.mod_lt _ hD.n_prime.pos, _, hs, ?_⟩
  unfold lowered
  split <;> omega

/-- C27: if the operating system fails to deliver random bytes in a round that is reached, signing returns that error. -/
theorem C27_random_error (hne : hash ≠ []) (hlen : o.strictHashByteLength = true → hash.length * 8 = bitLength n)
    (hz : o.isZeroHashAllowed = false → leadingBits (bitLength n) hash ≠ 0) (hex : o.employExtraRandomData = true) (j : Nat)
    (er : RandomError)
    (hbad : ∀ i < j, ∃ k', NonceOf H h n d hash true (rand i) k' ∧ Unusable n G d (leadingBits (bitLength n) hash) k')
    (hr : rand j = .err er) :
    ∃ f0, ∀ f nf (st : H.State), f0 ≤ f → f0 ≤ nf →
      signWithOptions m w H f nf st rand hash key o = .err (.FailedToGenerateNonce (.FailedToGenerateRandomBytes er)) := by
  subst hkey
  obtain ⟨g, xe, hg, hxe, e⟩ := (signWithOptions_eq m H hD rfl hash o h8).2.2.2 hne hlen hz
  rw [hex] at hg hl
  obtain ⟨nf0, hnf⟩ := signLoop_err m hc ho ho0 o ⟨hD, hg, hd, hdn, hne, hxe, hl⟩ j hbad hr
  exact ⟨max nf0 (j + 1), fun f nf st h1 h2 => by rw [e]; exact hnf nf f st (by omega) (by omega)⟩

/-- C27: signing never panics, provided that asking for random bytes does not. -/
theorem C27_no_panic (hrand : ∀ i, rand i ≠ .panic) (f nf : Nat) (st : H.State) :
    signWithOptions m w H f nf st rand hash key o ≠ .panic := by
  subst hkey
  obtain ⟨c1, c2, c3, c4⟩ := signWithOptions_eq m H hD rfl hash o h8
  by_cases h1 : hash = []
  · rw [c1 h1]; intro h; cases h
  by_cases h2 : o.strictHashByteLength = true → hash.length * 8 = bitLength n
  · by_cases h3 : o.isZeroHashAllowed = false → leadingBits (bitLength n) hash ≠ 0
    · obtain ⟨g, xe, hg, hxe, e⟩ := c4 h1 h2 h3
      rw [e]
      exact signLoop_no_panic m hc ho ho0 o ⟨hD, hg, hd, hdn, h1, hxe, hl⟩ nf f 0 st hrand
    · rw [Classical.not_imp] at h3
      rw [c3 h1 h2 h3.1 (by simpa using h3.2)]; intro h; cases h
  · rw [Classical.not_imp] at h2
    rw [c2 h1 h2.1 h2.2]; intro h; cases h

/-- C27: if the hash passes the checks, the only error that signing can return is one reported by the random source, in the first round for
which there is no unusable nonce; without extra random data there is no error. -/
theorem C27_error_source (hne : hash ≠ []) (hlen : o.strictHashByteLength = true → hash.length * 8 = bitLength n)
    (hz : o.isZeroHashAllowed = false → leadingBits (bitLength n) hash ≠ 0) (f nf : Nat) (st : H.State) (er : SigningError)
    (he : signWithOptions m w H f nf st rand hash key o = .err er) :
    o.employExtraRandomData = true ∧ ∃ i e, rand i = .err e ∧ er = .FailedToGenerateNonce (.FailedToGenerateRandomBytes e) ∧
      ∀ i' < i, ∃ k', NonceOf H h n d hash true (rand i') k' ∧ Unusable n G d (leadingBits (bitLength n) hash) k' := by
  subst hkey
  obtain ⟨g, xe, hg, hxe, e⟩ := (signWithOptions_eq m H hD rfl hash o h8).2.2.2 hne hlen hz
  rw [e] at he
  obtain ⟨h1, i, e', -, h2, h3, h4⟩ := signLoop_error_source m hc ho ho0 o ⟨hD, hg, hd, hdn, hne, hxe, hl⟩ nf f 0 st he
  exact ⟨h1, i, e', h2, h3, fun i' hi => by have := h4 i' (Nat.zero_le _) hi; rwa [h1] at this⟩

/-- C27: without a usable nonce in any round the loop does not end. -/
theorem C27_stall (hne : hash ≠ []) (hlen : o.strictHashByteLength = true → hash.length * 8 = bitLength n)
    (hz : o.isZeroHashAllowed = false → leadingBits (bitLength n) hash ≠ 0)
    (hbad : ∀ i, ∃ k', NonceOf H h n d hash o.employExtraRandomData (rand i) k' ∧ Unusable n G d (leadingBits (bitLength n) hash) k')
    (f nf : Nat) (st : H.State) : signWithOptions m w H f nf st rand hash key o = .hang := by
  subst hkey
  obtain ⟨g, xe, hg, hxe, e⟩ := (signWithOptions_eq m H hD rfl hash o h8).2.2.2 hne hlen hz
  rw [e]
  exact signLoop_stall m hc ho ho0 o ⟨hD, hg, hd, hdn, hne, hxe, hl⟩ nf f 0 st hbad

end Domain

section More
variable (m : Build) (w : Nat) [DigitWidth w] (cp : Params) (p n : Nat) [Fact p.Prime] (a b : Int)
  (G : (curve (a : ZMod p) (b : ZMod p)).Point) (hD : Domain w cp p n a b G)
include hD

/-- C22: a signature with its recovery id identifies the signer: at most one valid public key satisfies the verification equation and has the
verifier's point described by the id (for curves with `p ≤ 2·n`, like the built-in one). -/
theorem C22_id_identifies (hpn : p ≤ 2 * n) (Q Q' : (curve (a : ZMod p) (b : ZMod p)).Point) (hQ : n • Q = 0) (hQ' : n • Q' = 0)
    (e r s : Nat) (hr0 : 0 < r) (hrn : r < n) (hs0 : 0 < s) (hsn : s < n) (id : RecoveryId) (h1 : EcdsaVerifies n G Q e r s)
    (h2 : EcdsaVerifies n G Q' e r s) (d1 : IdDescribes n G Q e r s id) (d2 : IdDescribes n G Q' e r s id) : Q = Q' := by
  have hnp : Fact n.Prime := ⟨hD.n_prime⟩
  exact signer_unique hD hpn hQ hQ' (cast_ne_zero_of_lt hr0 hrn) (cast_ne_zero_of_lt hs0 hsn) h1 h2 d1 d2

/-- C22: `is_low_s_signature` says whether `s ≤ n/2`, and of the signatures `(r, s)` and `(r, n-s)` exactly one is low-s. -/
theorem C22_exactly_one (sig sig' : Signature) (hp : sig.params = cp) (hp' : sig'.params = cp) (s : Nat) (hs0 : 0 < s) (hsn : s < n)
    (hs : Denotes w sig.s s) (hs' : Denotes w sig'.s (n - s : Nat)) :
    ∃ low : Bool, (sig.isLowS m w : Out ε _) = .ok low ∧ (sig'.isLowS m w : Out ε _) = .ok (!low) ∧ (low = true ↔ s ≤ n / 2) := by
  obtain ⟨_, e1, rfl⟩ := isLowS_y (ε := ε) m hs (hp ▸ hD.order) hD.n_odd
  obtain ⟨_, e2, rfl⟩ := isLowS_y (ε := ε) m hs' (hp' ▸ hD.order) hD.n_odd
  refine ⟨_, e1, ?_, by simp⟩
  rw [e2, ← decide_not]
  congr 1
  apply decide_eq_decide.mpr
  have := hD.n_odd
  omega

/-- C22: when low-s is not asked for, verification gives the same result on `(r, s)` and `(r, n-s)`. -/
theorem C22_malleable (sig sig' : Signature) (hp : sig.params = cp) (hp' : sig'.params = cp) (r s : Nat) (hr0 : 0 < r) (hs0 : 0 < s)
    (hsn : s < n) (hr : Denotes w sig.r r) (hr' : Denotes w sig'.r r) (hs : Denotes w sig.s s) (hs' : Denotes w sig'.s (n - s : Nat))
    (pk : PublicKey) (hpk : pk.params = cp) (hv : ValidPoint w n (W := curve (a : ZMod p) (b : ZMod p)) pk.data) (hash : List UInt8)
    (strict : Bool) (h8 : strict = true → bitLength n % 8 = 0) :
    verifyWithOptions m w hash sig pk ⟨false, strict⟩ = verifyWithOptions m w hash sig' pk ⟨false, strict⟩ := by
  have hnp : Fact n.Prime := ⟨hD.n_prime⟩
  obtain ⟨Q, hQ, -, hnQ⟩ := hv
  obtain ⟨a1, -, a3, a4, a5⟩ := verifyWithOptions_eq m hD hpk hQ hnQ hp hr hs hr0 hs0 hsn hash ⟨false, strict⟩ h8
  obtain ⟨b1, -, b3, b4, b5⟩ := verifyWithOptions_eq m hD hpk hQ hnQ hp' hr' hs' hr0 (by omega) (by omega) hash ⟨false, strict⟩ h8
  by_cases h1 : hash = []
  · rw [a1 h1, b1 h1]
  have hlow : ∀ s : Nat, false = true → s ≤ n / 2 := fun _ h => by cases h
  by_cases h2 : strict = true → hash.length * 8 = bitLength n
  · by_cases h3 : leadingBits (bitLength n) hash = 0
    · rw [a4 h1 (hlow _) h2 h3, b4 h1 (hlow _) h2 h3]
    · obtain ⟨v, e1, hv⟩ := a5 h1 (hlow _) h2 h3
      obtain ⟨v', e2, hv'⟩ := b5 h1 (hlow _) h2 h3
      rw [verifies_neg hD.G_order hnQ (by omega)] at hv'
      rw [e1, e2, Bool.eq_iff_iff.mpr (hv.trans hv'.symm)]
  · rw [Classical.not_imp] at h2
    rw [a3 h1 (hlow _) h2.1 h2.2, b3 h1 (hlow _) h2.1 h2.2]

/-! ## C25: options -/

/-- C25: verification of a signature with `r`, `s` in range returns the error of the first check that fails, in the order: empty hash,
`s > n/2` when low-s is enforced, hash of a length other than the order's when the length is enforced, hash that is zero as a number
(of the leading bits, as many as the order has). If none fails the answer is the verification equation. -/
theorem C25_verify (sig : Signature) (hp : sig.params = cp) (r s : Nat) (hr0 : 0 < r) (hs0 : 0 < s) (hsn : s < n) (hr : Denotes w sig.r r)
    (hs : Denotes w sig.s s) (pk : PublicKey) (hpk : pk.params = cp) (Q : (curve (a : ZMod p) (b : ZMod p)).Point)
    (hQ : PointDenotes w pk.data Q) (hnQ : n • Q = 0) (hash : List UInt8) (o : VerifyingOptions) (h8 : o.strictHashByteLength = true → bitLength n % 8 = 0)
    (res : Out VerifyingError Bool) (hres : verifyWithOptions m w hash sig pk o = res) :
    if hash = [] then res = .err .EmptyHashNotAllowed
    else if o.enforceLowS = true ∧ n / 2 < s then res = .err .StrictHighSFound
    else if o.strictHashByteLength = true ∧ hash.length * 8 ≠ bitLength n then res = .err .HashBitLengthDoesNotMatchBasePointOrder
    else if leadingBits (bitLength n) hash = 0 then res = .err .ZeroHashNotAllowed
    else (EcdsaVerifies n G Q (leadingBits (bitLength n) hash) r s → res = .ok true) ∧
      (¬ EcdsaVerifies n G Q (leadingBits (bitLength n) hash) r s → res = .ok false) := by
  obtain ⟨a1, a2, a3, a4, a5⟩ := verifyWithOptions_eq m hD hpk hQ hnQ hp hr hs hr0 hs0 hsn hash o h8
  subst hres
  split
  · rename_i h; exact a1 h
  rename_i h1
  split
  · rename_i h; exact a2 h1 h.1 (by omega)
  rename_i h2
  have h2' : o.enforceLowS = true → s ≤ n / 2 := fun h => by by_contra hc; exact h2 ⟨h, by omega⟩
  split
  · rename_i h; exact a3 h1 h2' h.1 h.2
  rename_i h3
  have h3' : o.strictHashByteLength = true → hash.length * 8 = bitLength n := fun h => by by_contra hc; exact h3 ⟨h, hc⟩
  split
  · rename_i h; exact a4 h1 h2' h3' h
  rename_i h4
  obtain ⟨v, e, hv⟩ := a5 h1 h2' h3' h4
  rw [e]
  refine ⟨fun h => by rw [hv.mpr h], fun h => ?_⟩
  cases v
  · rfl
  · exact absurd (hv.mp rfl) h

/-- C25: signing rejects empty hashes always, hashes of the wrong length when the length is enforced, and hashes that are zero as a number
unless they are allowed, in this order; otherwise none of these three errors is returned. -/
theorem C25_sign (H : Hasher) (h : List UInt8 → List UInt8) (limit : Nat) (hc : Computes H h limit) (ho : H.outLen ≤ H.blockLen)
    (ho0 : 0 < H.outLen) (d : Nat) (hdn : d < n) (key : PrivateKey) (hkey : key.params = cp) (hd : Denotes w key.data d)
    (hash : List UInt8) (o : SigningOptions) (h8 : o.strictHashByteLength = true → bitLength n % 8 = 0)
    (rand : Nat → Out RandomError (List UInt8))
    (hl : ∀ i bytes, Drawn o.employExtraRandomData (rand i) bytes →
      H.blockLen + H.outLen + 1 + 2 * ((bitLength n + 7) / 8) + bytes.length < limit) (f nf : Nat) (st : H.State)
    (res : Out SigningError (Signature × RecoveryId)) (hres : signWithOptions m w H f nf st rand hash key o = res) :
    if hash = [] then res = .err .EmptyHashNotAllowed
    else if o.strictHashByteLength = true ∧ hash.length * 8 ≠ bitLength n then res = .err .HashBitLengthDoesNotMatchBasePointOrder
    else if o.isZeroHashAllowed = false ∧ leadingBits (bitLength n) hash = 0 then res = .err .ZeroHashNotAllowed
    else ∀ e, res = .err e → ∃ e', e = .FailedToGenerateNonce e' := by
  obtain ⟨c1, c2, c3, c4⟩ := signWithOptions_eq m H hD hkey hash o h8
  subst hres
  subst hkey
  split
  · rename_i h; exact c1 h _ _ _ _
  rename_i h1
  split
  · rename_i h; exact c2 h1 h.1 h.2 _ _ _ _
  rename_i h2
  have h2' : o.strictHashByteLength = true → hash.length * 8 = bitLength n := fun h => by by_contra hc; exact h2 ⟨h, hc⟩
  split
  · rename_i h; exact c3 h1 h2' h.1 h.2 _ _ _ _
  rename_i h3
  obtain ⟨g, xe, hg, hxe, e⟩ := c4 h1 h2' fun h h' => h3 ⟨h, h'⟩
  rw [e]
  exact fun er he => signLoop_errors m hc ho ho0 o ⟨hD, hg, hd, hdn, h1, hxe, hl⟩ nf f 0 st he

/-- C25, the part that holds of its last sentence: a hash that is zero as a number (of as many leading bits as the order has) is never
accepted by verification.  Missing: hashes that are non-zero multiples of the order, see `C25_zero_modulo_order_accepted`. -/
theorem C25_zero_hash_partial (sig : Signature) (hp : sig.params = cp) (r s : Nat) (hr0 : 0 < r) (hs0 : 0 < s) (hsn : s < n)
    (hr : Denotes w sig.r r) (hs : Denotes w sig.s s) (pk : PublicKey) (hpk : pk.params = cp)
    (Q : (curve (a : ZMod p) (b : ZMod p)).Point) (hQ : PointDenotes w pk.data Q) (hnQ : n • Q = 0) (hash : List UInt8) (o : VerifyingOptions)
    (h8 : o.strictHashByteLength = true → bitLength n % 8 = 0) (hz : leadingBits (bitLength n) hash = 0) :
    ∃ e, verifyWithOptions m w hash sig pk o = .err e := by
  have h := C25_verify m w cp p n a b G hD sig hp r s hr0 hs0 hsn hr hs pk hpk Q hQ hnQ hash o h8 _ rfl
  split at h
  · exact ⟨_, h⟩
  split at h
  · exact ⟨_, h⟩
  split at h
  · exact ⟨_, h⟩
  exact ⟨_, h⟩

/-- C25 is violated in one respect: a hash that is a non-zero multiple of the order is zero modulo the order, and it is accepted although
zero hashes are disallowed.  Here the hash is the order itself, the public key is the base point, and `r = s` is the abscissa of the base point
(such a signature can be made up without knowing the private key). -/
theorem C25_zero_modulo_order_accepted (hx : xCoord G % n ≠ 0) (h8 : bitLength n % 8 = 0) (sig : Signature) (hp : sig.params = cp)
    (hr : Denotes w sig.r (xCoord G % n : Nat)) (hs : Denotes w sig.s (xCoord G % n : Nat)) (pk : PublicKey) (hpk : pk.params = cp)
    (hQ : PointDenotes w pk.data G) (hash : List UInt8) (hlen : hash.length * 8 = bitLength n) (hash_eq : ofBE hash = n) :
    (ofBE hash % n = 0) ∧ verify m w hash sig pk = .ok true := by
  have hnp : Fact n.Prime := ⟨hD.n_prime⟩
  have hn0 := hD.n_prime.pos
  refine ⟨by rw [hash_eq, Nat.mod_self], ?_⟩
  have hlt : xCoord G % n < n := Nat.mod_lt _ hn0
  have hlb : leadingBits (bitLength n) hash = n := by unfold leadingBits; rw [hlen, Nat.sub_self, Nat.pow_zero, Nat.div_one, hash_eq]
  have hne : hash ≠ [] := by
    rintro rfl
    have : (0 : Nat) = n := hash_eq
    omega
  obtain ⟨v, e, hv⟩ := (verifyWithOptions_eq m hD hpk hQ hD.G_order hp hr hs (by omega) (by omega) hlt hash .default (fun _ => h8)).2.2.2.2 hne
    (fun h => by cases h) (fun _ => hlen) (by rw [hlb]; omega)
  have hc : ((xCoord G % n : Nat) : ZMod n) ≠ 0 := cast_ne_zero_of_lt (by omega) hlt
  have hver : EcdsaVerifies n G G (leadingBits (bitLength n) hash) (xCoord G % n) (xCoord G % n) := by
    unfold EcdsaVerifies
    have h1 : ((n : Nat) : ZMod n) * ((xCoord G % n : Nat) : ZMod n)⁻¹ = 0 := by rw [ZMod.natCast_self, zero_mul]
    have h2 : (((xCoord G % n : Nat) : ZMod n) * ((xCoord G % n : Nat) : ZMod n)⁻¹).val • G = G := by
      conv_rhs => rw [← one_nsmul G]
      exact smul_val hD.G_order (by rw [mul_inv_cancel₀ hc, Nat.cast_one])
    rw [hlb, h1, h2, ZMod.val_zero, zero_nsmul, zero_add]
    exact ⟨hD.G_ne, rfl⟩
  unfold verify
  rw [e, hv.mpr hver]

end More

/-- C25: the violation occurs on the built-in curve: there is a hash of 32 bytes that is zero modulo the order, a valid public key, and a
signature with `r`, `s` in range, that `verify` accepts. -/
theorem C25_zero_modulo_order_accepted_secp256k1 (m : Build) (w : Nat) [DigitWidth w] : ∃ cp, (secp256k1 w : Out ε _) = .ok cp ∧
    ∃ hash : List UInt8, hash.length = 32 ∧ ofBE hash % Secp256k1.n = 0 ∧ ∃ sig pk,
      (Signature.new m w sig.r sig.s cp : Out ε _) = .ok (some sig) ∧ (PublicKey.new m w pk.data cp : Out ε _) = .ok (some pk) ∧
      verify m w hash sig pk = .ok true := by
  haveI : Fact (Nat.Prime Secp256k1.p) := ⟨LCT.Secp256k1.prime_p⟩
  haveI : Fact (Nat.Prime Secp256k1.n) := ⟨LCT.Secp256k1.prime_n⟩
  obtain ⟨cp, e, hD, hcof1⟩ := secp256k1_y (ε := ε) w
  have hcof : cp.cofactor % 2 = 1 := by rw [hcof1]
  have hb : Denotes w cp.basePoint.x (((Secp256k1.gx : Nat) : ZMod Secp256k1.p).val : Nat) ∧
    Denotes w cp.basePoint.y (((Secp256k1.gy : Nat) : ZMod Secp256k1.p).val : Nat) := hD.base
  have hxc : xCoord LCT.Secp256k1.G = Secp256k1.gx := gx_val
  have hlt : Secp256k1.gx < Secp256k1.n := by decide
  have hmod : xCoord LCT.Secp256k1.G % Secp256k1.n = Secp256k1.gx := by rw [hxc, Nat.mod_eq_of_lt hlt]
  have hbl : bitLength Secp256k1.n = 256 := by decide +kernel
  rw [gx_val] at hb
  obtain ⟨hx, hy⟩ := point_x hD.base
  obtain ⟨_, e1, rfl⟩ := signatureNew_y (ε := ε) m hb.1 hb.1 hD.order
  obtain ⟨o, e2, ho⟩ := publicKeyNew_y (ε := ε) m hD hcof hx hy
  have hval : ofBE (octets 32 Secp256k1.n) = Secp256k1.n := by
    rw [octets_eq, ofBE_toBEk, Nat.mod_eq_of_lt (by decide)]
  have hlen : (octets 32 Secp256k1.n).length = 32 := octets_length _ _
  rcases ho with ⟨-, rfl⟩ | ⟨hno, -⟩
  · have key := C25_zero_modulo_order_accepted m w cp Secp256k1.p Secp256k1.n 0 7 LCT.Secp256k1.G hD (by rw [hmod]; decide)
      (by rw [hbl]) ⟨cp.basePoint.x, cp.basePoint.x, cp⟩ rfl (by rw [hmod]; exact hb.1) (by rw [hmod]; exact hb.1) ⟨cp.basePoint, cp⟩ rfl
      hD.base (octets 32 Secp256k1.n) (by rw [hlen, hbl]) hval
    refine ⟨cp, e, octets 32 Secp256k1.n, hlen, key.1, ⟨cp.basePoint.x, cp.basePoint.x, cp⟩, ⟨cp.basePoint, cp⟩, ?_, e2, key.2⟩
    rw [e1, if_pos]
    have : 0 < Secp256k1.gx := by decide
    omega
  · exact absurd ⟨_, hD.base, hD.G_ne, hD.G_order⟩ hno

/-! ## Examples -/

/-- A key, hash and nonce on the example curve, with 8-bit digits: the nonce generator returns 5, and signing the hash `[100]` with the
secret 7 gives `(53, 1)` with a recovery id, which verifies. -/
def exampleOptions (low : Bool) : SigningOptions := ⟨low, true, false, false⟩

example : (signWithOptions .debug 8 (constHasher 5) 1 1 () (fun _ => .panic) [100] ⟨Toy.byte 7, Toy.params⟩ (exampleOptions true)).bind
    (fun o => .ok (toInt 8 o.1.r, toInt 8 o.1.s)) = .ok (53, 1) := by decide +kernel

/-- With the nonce 20, `s = 132` is high and is replaced by `233 - 132 = 101`. -/
example : (signWithOptions .debug 8 (constHasher 20) 1 1 () (fun _ => .panic) [100] ⟨Toy.byte 7, Toy.params⟩ (exampleOptions true)).bind
    (fun o => .ok (toInt 8 o.1.r, toInt 8 o.1.s)) = .ok (30, 101) := by decide +kernel

example : (signWithOptions .debug 8 (constHasher 20) 1 1 () (fun _ => .panic) [100] ⟨Toy.byte 7, Toy.params⟩ (exampleOptions false)).bind
    (fun o => .ok (toInt 8 o.1.r, toInt 8 o.1.s)) = .ok (30, 132) := by decide +kernel

/-- The hypotheses of the theorems about signing are met by this example. -/
example : Domain 8 Toy.params 251 233 4 3 Toy.G ∧ Computes (constHasher 5) (fun _ => [5]) 100 ∧
    (constHasher 5).outLen ≤ (constHasher 5).blockLen ∧ 0 < (constHasher 5).outLen ∧ Denotes 8 (Toy.byte 7) 7 ∧ bitLength 233 % 8 = 0 ∧
    (∀ (rand : Nat → Out RandomError (List UInt8)) i bytes, Drawn (exampleOptions true).employExtraRandomData (rand i) bytes →
      (constHasher 5).blockLen + (constHasher 5).outLen + 1 + 2 * ((bitLength 233 + 7) / 8) + bytes.length < 100) ∧
    (∀ rand, NonceOf (constHasher 5) (fun _ => [5]) 233 7 [100] false rand 5) ∧ leadingBits (bitLength 233) [100] ≠ 0 ∧ 251 ≤ 2 * 233 := by
  refine ⟨Toy.domain, constHasher_computes 5 100, by decide, by decide, Toy.byte_denotes (by decide), by decide, ?_,
    fun rand => example_nonce 5 (by decide) (by decide) 7 [100] rand, by decide, by decide⟩
  rintro rand i bytes (rfl : bytes = [])
  decide

/-- C27: without extra random data all rounds have the same nonce, so that signing runs for ever if that nonce is unusable.  On the example
curve the nonce 2 gives `r = 0`, since the abscissa of `2•G` is the order 233. -/
theorem C27_stall_example (f nf : Nat) (rand : Nat → Out RandomError (List UInt8)) :
    signWithOptions .debug 8 (constHasher 2) f nf () rand [100] ⟨Toy.byte 7, Toy.params⟩ (exampleOptions true) = .hang := by
  refine C27_stall .debug 8 Toy.params 251 233 4 3 Toy.G Toy.domain (constHasher 2) (fun _ => [2]) 100 (constHasher_computes 2 100)
    (by decide) (by decide) 7 (by decide) (by decide) _ rfl (Toy.byte_denotes (by decide)) [100] (exampleOptions true) (fun _ => by decide)
    rand ?_ (by decide) (fun _ => by decide) (fun _ => by decide)
    (fun i => ⟨2, example_nonce 2 (by decide) (by decide) 7 [100] (rand i), Or.inl ?_⟩) f nf ()
  · rintro i bytes (rfl : bytes = [])
    decide
  · obtain ⟨pk, e, h1, h2⟩ := publicKey_y (ε := Unit) .debug Toy.domain (key := ⟨Toy.byte 2, Toy.params⟩) rfl
      (Toy.byte_denotes (by decide)) (d := 2) (by decide)
    have hx := (point_x h2).1
    have hc : (PrivateKey.publicKey .debug 8 ⟨Toy.byte 2, Toy.params⟩ : Out Unit _).bind (fun pk => .ok (toInt 8 pk.data.x)) = .ok 233 := by
      decide +kernel
    rw [e] at hc
    have h233 : toInt 8 pk.data.x = 233 := by
      injection hc
    have : ((xCoord (2 • Toy.G) : Nat) : Int) = 233 := hx.2.symm.trans h233
    unfold ecdsaR
    omega

end LCT.Props
