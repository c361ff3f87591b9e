import Verif.Lemmas.Crypto.Nonces
import Verif.Props.Binding
import Verif.Props.Encoding
import Verif.Props.Accounts
import Verif.Props.Collision

/-!
# Different keys, and nonces: C75, C76, C77
-/

namespace LCT.Props
open LCT.BigInt LCT.Spec LCT.Out LCT.Modular LCT.Curve LCT.Crypto LCT.Hash LCT.Random LCT.Ethereum
variable {ε : Type}

section
variable (m : Build) (w : Nat) [DigitWidth w] (cp : Params) (p n : Nat) [Fact p.Prime] (a b : Int)
  (G : (curve (a : ZMod p) (b : ZMod p)).Point) (hD : Domain w cp p n a b G)
include hD

/-! ## C75 -/

/-- C75: two private keys have the same public key only if they are the same number, and the same abscissa only if they are the same number
or add up to the order. -/
theorem C75_public_key (key key' : PrivateKey) (hp : key.params = cp) (hp' : key'.params = cp) (d d' : Nat) (hd : Denotes w key.data d)
    (hd' : Denotes w key'.data d') (hd0 : 0 < d) (hdn : d < n) (hd0' : 0 < d') (hdn' : d' < n) :
    ∃ pk pk', (key.publicKey m w : Out ε _) = .ok pk ∧ (key'.publicKey m w : Out ε _) = .ok pk' ∧
      (toInt w pk.data.x = toInt w pk'.data.x ∧ toInt w pk.data.y = toInt w pk'.data.y ↔ d = d') ∧
      (toInt w pk.data.x = toInt w pk'.data.x ↔ d = d' ∨ d + d' = n) := by
  have hnp : Fact n.Prime := ⟨hD.n_prime⟩
  have z := cast_ne_zero_of_lt hd0 hdn
  have z' := cast_ne_zero_of_lt hd0' hdn'
  obtain ⟨pk, e, -, h⟩ := publicKey_y (ε := ε) m hD hp hd z
  obtain ⟨pk', e', -, h'⟩ := publicKey_y (ε := ε) m hD hp' hd' z'
  refine ⟨pk, pk', e, e', ?_⟩
  obtain ⟨hx, hy⟩ := point_x h
  obtain ⟨hx', hy'⟩ := point_x h'
  have n0 := smul_ne_zero' hD.G_ne hD.G_order z
  have n0' := smul_ne_zero' hD.G_ne hD.G_order z'
  have hcast : (d : ZMod n) = (d' : ZMod n) → d = d' := by
    intro hc
    have := (ZMod.natCast_eq_natCast_iff' d d' n).mp hc
    rwa [Nat.mod_eq_of_lt hdn, Nat.mod_eq_of_lt hdn'] at this
  have hcancel : ∀ i j : Nat, i • G = j • G → (i : ZMod n) = (j : ZMod n) := fun i j => smul_inj hD.G_ne hD.G_order
  rw [hx.2, hx'.2, hy.2, hy'.2]
  constructor
  · constructor
    · rintro ⟨h1, h2⟩
      exact hcast (hcancel _ _ (point_ext n0 n0' (by exact_mod_cast h1) (by exact_mod_cast h2)))
    · rintro rfl
      exact ⟨rfl, rfl⟩
  · constructor
    · intro h1
      rcases point_abscissa n0 n0' (by exact_mod_cast h1) with h2 | h2
      · exact .inl (hcast (hcancel _ _ h2.symm))
      · right
        have h3 : (d + d') • G = 0 • G := by rw [add_nsmul, h2, add_neg_cancel, zero_nsmul]
        have h4 := hcancel _ _ h3
        rw [Nat.cast_zero, ZMod.natCast_eq_zero_iff] at h4
        obtain ⟨c, hc⟩ := h4
        have c1 : c = 1 := by
          have : c < 2 := by
            by_contra h
            have := Nat.mul_le_mul_left n (Nat.le_of_not_lt h)
            omega
          have : c ≠ 0 := by rintro rfl; omega
          omega
        rw [hc, c1, Nat.mul_one]
    · rintro (rfl | hs)
      · rfl
      · have : d' • G = -(d • G) := by
          rw [eq_neg_iff_add_eq_zero, ← add_nsmul, Nat.add_comm, hs, hD.G_order]
        rw [this, xCoord_neg]

/-- C75: the SEC1 texts of the public keys of different private keys are different, whichever forms are compared. -/
theorem C75_text (key key' : PrivateKey) (hp : key.params = cp) (hp' : key'.params = cp) (d d' : Nat) (hd : Denotes w key.data d)
    (hd' : Denotes w key'.data d') (hd0 : 0 < d) (hdn : d < n) (hd0' : 0 < d') (hdn' : d' < n) (pk pk' : PublicKey)
    (hk : (key.publicKey m w : Out ε _) = .ok pk) (hk' : (key'.publicKey m w : Out ε _) = .ok pk') (c c' : Bool) (t : List UInt8)
    (ht : (pk.toSec1Hex m w c : Out ε _) = .ok t) (ht' : (pk'.toSec1Hex m w c' : Out ε _) = .ok t) : d = d' := by
  have hnp : Fact n.Prime := ⟨hD.n_prime⟩
  have z := cast_ne_zero_of_lt hd0 hdn
  have z' := cast_ne_zero_of_lt hd0' hdn'
  obtain ⟨pk1, e, q1, h⟩ := publicKey_y (ε := ε) m hD hp hd z
  obtain ⟨pk2, e', q2, h'⟩ := publicKey_y (ε := ε) m hD hp' hd' z'
  cases hk.symm.trans e
  cases hk'.symm.trans e'
  have n0 := smul_ne_zero' hD.G_ne hD.G_order z
  have n0' := smul_ne_zero' hD.G_ne hD.G_order z'
  have hdec : ∀ (pk : PublicKey) (d : Nat) (c : Bool), pk.params = cp → PointDenotes w pk.data (d • G) → d • G ≠ 0 →
      (pk.toSec1Hex m w c : Out ε _) = .ok t → ∃ pk', PublicKey.fromSec1Hex m w t cp = .ok pk' ∧ PointDenotes w pk'.data (d • G) := by
    intro pk d c q h n0 ht
    have hr : 0 < xCoord (d • G) ∧ xCoord (d • G) < n ∧ 0 < yCoord (d • G) ∧ yCoord (d • G) < n := by
      by_contra hc
      rw [(C19_panics (ε := ε) m w cp p n a b G hD pk q (d • G) h c).mpr hc] at ht
      cases ht
    obtain ⟨t1, pk', t2, -, t3⟩ := C19_round_trip_partial (ε := ε) m w cp p n a b G hD pk q (d • G) h n0 (smul_smul_zero hD.G_order d) hr.1 hr.2.1
      hr.2.2.1 hr.2.2.2 c
    rw [ht] at t1
    injection t1 with t1
    rw [← t1] at t2
    exact ⟨pk', t2, t3⟩
  obtain ⟨u, u1, u2⟩ := hdec pk d c q1 h n0 ht
  obtain ⟨v, v1, v2⟩ := hdec pk' d' c' q2 h' n0' ht'
  cases u1.symm.trans v1
  have := smul_inj hD.G_ne hD.G_order (denotes_unique hD.b_ne u2 v2)
  have := (ZMod.natCast_eq_natCast_iff' d d' n).mp this
  rwa [Nat.mod_eq_of_lt hdn, Nat.mod_eq_of_lt hdn'] at this

/-! ## C76 -/

/-- C76: if a public key accepts signatures of two hashes that differ modulo the order, and the signatures have the same `r`, then anybody can
compute the private key: it is one of two numbers given by the signatures and the hashes. -/
theorem C76_same_r (hpn : p ≤ 2 * n) (sig sig' : Signature) (hp : sig.params = cp) (hp' : sig'.params = cp) (r s s' : Nat) (hr0 : 0 < r)
    (hrn : r < n) (hs0 : 0 < s) (hsn : s < n) (hs0' : 0 < s') (hsn' : s' < n) (hr : Denotes w sig.r r) (hr' : Denotes w sig'.r r)
    (hs : Denotes w sig.s s) (hs' : Denotes w sig'.s s') (hbig : p ≤ r + n) (d : Nat) (pk : PublicKey) (hpk : pk.params = cp)
    (hQ : PointDenotes w pk.data (d • G)) (hash hash' : List UInt8) (o o' : VerifyingOptions)
    (h8 : o.strictHashByteLength = true → bitLength n % 8 = 0) (h8' : o'.strictHashByteLength = true → bitLength n % 8 = 0)
    (hne : leadingBits (bitLength n) hash % n ≠ leadingBits (bitLength n) hash' % n)
    (hv : verifyWithOptions m w hash sig pk o = .ok true) (hv' : verifyWithOptions m w hash' sig' pk o' = .ok true) :
    (d : ZMod n) ∈ sameRSecrets n r s s' (leadingBits (bitLength n) hash) (leadingBits (bitLength n) hash') :=
  same_r hD hpn hr0 hrn hs0 hsn hs0' hsn' hbig hne
    (accepted_equation m w cp p n a b G hD hp hr0 hs0 hsn hr hs hpk hQ (haveI := Fact.mk hD.n_prime; smul_smul_zero hD.G_order d) h8 hv).1
    (accepted_equation m w cp p n a b G hD hp' hr0 hs0' hsn' hr' hs' hpk hQ (haveI := Fact.mk hD.n_prime; smul_smul_zero hD.G_order d) h8' hv').1

/-- C76: who knows the nonce of one signature knows the private key: `d = (s·k - e) / r`. -/
theorem C76_known_nonce (d e k : Nat) (hd0 : 0 < d) (hdn : d < n) (xd xe xk : BInt) (hd : Denotes w xd d) (he : Denotes w xe e)
    (hel : bitLength e ≤ bitLength n) (hk : Denotes w xk k) (hk0 : 0 < k) (hkn : k < n) (sig : Signature) (id : RecoveryId)
    (hs : (PrivateKey.sign m w ⟨xd, cp⟩ xe xk : Out ε _) = .ok (some (sig, id))) :
    ∃ r s : Nat, Denotes w sig.r r ∧ Denotes w sig.s s ∧ (d : ZMod n) = ((s : ZMod n) * k - e) * (r : ZMod n)⁻¹ := by
  have hnp : Fact n.Prime := ⟨hD.n_prime⟩
  obtain ⟨_, -, res, h1, -, h2⟩ := C21_sign (ε := ε) m w cp p n a b G hD d e k hd0 hdn xd xe xk hd he hel hk hk0 hkn
  rw [hs] at h1
  injection h1 with h1
  obtain ⟨-, hr, hs, hr0, hrn, -⟩ := h2 sig id h1.symm
  refine ⟨_, _, hr, hs, ?_⟩
  have zk := cast_ne_zero_of_lt hk0 hkn
  have zr := cast_ne_zero_of_lt hr0 hrn
  rw [eq_mul_inv_iff_mul_eq₀ zr]
  have : ((ecdsaS n G d e k : Nat) : ZMod n) = ((e : ZMod n) + (ecdsaR n G k : ZMod n) * (d : ZMod n)) * (k : ZMod n)⁻¹ := by
    unfold ecdsaS; rw [ZMod.natCast_zmod_val]
  rw [this, mul_assoc, inv_mul_cancel₀ zk]
  ring

end

/-! On the example curve, with the key 7 and the nonce 5 for the hashes 100 and 101. -/

/-- Signing on the example curve. -/
private def toySign (d e k : Nat) : Option (Nat × Nat) :=
  match (PrivateKey.sign .debug 8 ⟨Toy.byte d, Toy.params⟩ (Toy.byte e) (Toy.byte k) : Out Unit _) with
  | .ok (some (sig, _)) => some ((toInt 8 sig.r).toNat, (toInt 8 sig.s).toNat)
  | _ => none

/-- Verification with the public key of 7. -/
private def toyAccepts (r s : Nat) (hash : UInt8) : Bool :=
  verifyWithOptions .debug 8 [hash] ⟨Toy.byte r, Toy.byte s, Toy.params⟩ ⟨⟨Toy.byte 44, Toy.byte 104⟩, Toy.params⟩ ⟨false, true⟩ = .ok true

/-- The coordinates of the public key. -/
private def toyPublic (d : Nat) : Out Unit (Int × Int) :=
  (PrivateKey.publicKey .debug 8 ⟨Toy.byte d, Toy.params⟩ : Out Unit _).bind fun pk => .ok (toInt 8 pk.data.x, toInt 8 pk.data.y)

example : toyPublic 7 = .ok (44, 104) ∧ toyPublic 226 = .ok (44, 147) ∧ 7 + 226 = 233 ∧ toyPublic 8 ≠ .ok (44, 104) := by decide +kernel

example : toySign 7 100 5 = some (53, 1) ∧ toySign 7 101 5 = some (53, 141) ∧ toyAccepts 53 1 100 ∧ toyAccepts 53 141 101 ∧
    251 ≤ 53 + 233 ∧ (7 : ZMod 233) ∈ sameRSecrets 233 53 1 141 100 101 ∧ (7 : ZMod 233) = ((1 : ZMod 233) * 5 - 100) * (53 : ZMod 233)⁻¹ := by
  decide +kernel

/-- The hypotheses about the curve are met. -/
example : Domain 8 Toy.params 251 233 4 3 Toy.G ∧ 251 ≤ 2 * 233 := ⟨Toy.domain, by decide⟩

/-! ## C77 -/

section C77
variable (m : Build) (w : Nat) [DigitWidth w] (H : Hasher) (h : List UInt8 → List UInt8) (limit : Nat) (hc : Computes H h limit)
  (ho : H.outLen ≤ H.blockLen) (ho0 : 0 < H.outLen)
include hc ho ho0

/-- C77: when the nonce generator gives the same nonce for different inputs (the private key, the hash modulo the order, the additional data
drawn), two different messages that were hashed on the way have the same hash.  The order has as many bits as the hash. -/
theorem C77_nonce (q : Nat) (hq8 : bitLength q = 8 * H.outLen) (d d' : Nat) (hd : d < q) (hd' : d' < q) (key key' : PrivateKey)
    (hk : Denotes w key.data d) (hk' : Denotes w key'.data d') (hq : Denotes w key.params.order q) (hq' : Denotes w key'.params.order q)
    (extra extra' : Bool) (hash hash' : List UInt8) (hh : hash ≠ []) (hh' : hash' ≠ []) :
    ∃ g g', (Rfc6979.new m w key.params.order extra : Out ε _) = .ok g ∧ (Rfc6979.new m w key'.params.order extra' : Out ε _) = .ok g' ∧
    ∀ (fuel fuel' : Nat) (st st' : H.State) (rand rand' : Out RandomError (List UInt8)) (bytes bytes' : List UInt8) x x' t t',
      Drawn extra rand bytes → Drawn extra' rand' bytes' →
      H.blockLen + H.outLen + 1 + 2 * ((bitLength q + 7) / 8) + bytes.length < limit →
      H.blockLen + H.outLen + 1 + 2 * ((bitLength q + 7) / 8) + bytes'.length < limit →
      (d, leadingBits (bitLength q) hash % q, bytes) ≠ (d', leadingBits (bitLength q) hash' % q, bytes') →
      g.generateNonce m w H fuel hash key st rand = .ok (x, t) → g'.generateNonce m w H fuel' hash' key' st' rand' = .ok (x', t') →
      toInt w x = toInt w x' →
      ∃ k : Nat, Denotes w x k ∧
        NonceCollision h H.blockLen H.outLen q (Rfc6979.seed q d hash bytes) (Rfc6979.seed q d' hash' bytes') k := by
  obtain ⟨g, e, hs⟩ := C26_sound (ε := ε) m w H h limit hc ho ho0 q d hd key hk hq extra hash hh
  obtain ⟨g', e', hs'⟩ := C26_sound (ε := ε) m w H h limit hc ho ho0 q d' hd' key' hk' hq' extra' hash' hh'
  refine ⟨g, g', e, e', ?_⟩
  intro fuel fuel' st st' rand rand' bytes bytes' x x' t t' hb hb' hl hl' hne h1 h2 hxx
  have drawn : ∀ {extra : Bool} {rand : Out RandomError (List UInt8)} {b b' : List UInt8}, Drawn extra rand b → Drawn extra rand b' → b = b' := by
    intro extra rand b b' h1 h2
    unfold Drawn at h1 h2
    cases extra
    · simp only [Bool.false_eq_true, if_false] at h1 h2
      rw [h1, h2]
    · simp only [if_true] at h1 h2
      rw [h1] at h2
      exact Out.ok.inj h2
  obtain ⟨k, k1, ⟨b1, k2, k3⟩, -, -⟩ := hs fuel st rand (fun b hb1 => by rw [drawn hb1 hb]; exact hl) x t h1
  obtain ⟨k', k1', ⟨b2, k2', k3'⟩, -, -⟩ := hs' fuel' st' rand' (fun b hb1 => by rw [drawn hb1 hb']; exact hl') x' t' h2
  cases drawn k2 hb
  cases drawn k2' hb'
  have hkk : k = k' := by
    have := k1.2.symm.trans (hxx.trans k1'.2)
    exact_mod_cast this
  subst hkk
  refine ⟨k, k1, nonce_collision hc.length ho hq8 ho0 ?_ (seed_ne_nil _ _ hd) (seed_ne_nil _ _ hd') k3 k3'⟩
  intro hseed
  obtain ⟨s1, s2, s3⟩ := seed_inj hd hd' hseed
  exact hne (by rw [s1, s2, s3])

/-- C77 for signing: if two signatures made with the same private key for hashes that differ modulo the order have the same `r`, then either
their nonces add up to the order, or they are equal and come with a collision of the hash function as above. -/
theorem C77_sign (cp : Params) (p n : Nat) [Fact p.Prime] (a b : Int) (G : (curve (a : ZMod p) (b : ZMod p)).Point)
    (hD : Domain w cp p n a b G) (hpn : p ≤ 2 * n) (hn8 : bitLength n = 8 * H.outLen) (d : Nat) (hd0 : 0 < d) (hdn : d < n) (key : PrivateKey)
    (hkey : key.params = cp) (hd : Denotes w key.data d) (hash hash' : List UInt8) (o o' : SigningOptions)
    (rand rand' : Nat → Out RandomError (List UInt8))
    (hl : ∀ i bytes, Drawn o.employExtraRandomData (rand i) bytes →
      H.blockLen + H.outLen + 1 + 2 * ((bitLength n + 7) / 8) + bytes.length < limit)
    (hl' : ∀ i bytes, Drawn o'.employExtraRandomData (rand' i) bytes →
      H.blockLen + H.outLen + 1 + 2 * ((bitLength n + 7) / 8) + bytes.length < limit)
    (hne : leadingBits (bitLength n) hash % n ≠ leadingBits (bitLength n) hash' % n) (f f' nf nf' : Nat) (st st' : H.State)
    (sig sig' : Signature) (id id' : RecoveryId) (h1 : signWithOptions m w H f nf st rand hash key o = .ok (sig, id))
    (h2 : signWithOptions m w H f' nf' st' rand' hash' key o' = .ok (sig', id')) (r : Nat) (hr : Denotes w sig.r r)
    (hr' : Denotes w sig'.r r) (hbig : p ≤ r + n) :
    ∃ i i' bytes bytes' k k', Drawn o.employExtraRandomData (rand i) bytes ∧ Drawn o'.employExtraRandomData (rand' i') bytes' ∧
      Rfc6979.IsNonce (Spec.hmac h H.blockLen) H.outLen n (Rfc6979.seed n d hash bytes) k ∧
      Rfc6979.IsNonce (Spec.hmac h H.blockLen) H.outLen n (Rfc6979.seed n d hash' bytes') k' ∧ ecdsaR n G k = r ∧ ecdsaR n G k' = r ∧
      (k + k' = n ∨
        k = k' ∧ NonceCollision h H.blockLen H.outLen n (Rfc6979.seed n d hash bytes) (Rfc6979.seed n d hash' bytes') k) := by
  have hnp : Fact n.Prime := ⟨hD.n_prime⟩
  have hmod : bitLength n % 8 = 0 := by omega
  obtain ⟨-, -, -, j, k, ⟨b1, c1, c2⟩, hk0, hkn, -, ⟨-, c3, -, -⟩, -⟩ :=
    sign_ok m w cp p n a b G hD H h limit hc ho ho0 d hd0 hdn key hkey hd hash o (fun _ => hmod) rand hl f nf st sig id h1
  obtain ⟨-, -, -, j', k', ⟨b2, c1', c2'⟩, hk0', hkn', -, ⟨-, c3', -, -⟩, -⟩ :=
    sign_ok m w cp p n a b G hD H h limit hc ho ho0 d hd0 hdn key hkey hd hash' o' (fun _ => hmod) rand' hl' f' nf' st' sig' id' h2
  have r1 : ecdsaR n G k = r := by have := c3.2.symm.trans hr.2; exact_mod_cast this
  have r2 : ecdsaR n G k' = r := by have := c3'.2.symm.trans hr'.2; exact_mod_cast this
  refine ⟨j, j', b1, b2, k, k', c1, c1', c2, c2', r1, r2, ?_⟩
  have z := cast_ne_zero_of_lt hk0 hkn
  have z' := cast_ne_zero_of_lt hk0' hkn'
  have n0 := smul_ne_zero' hD.G_ne hD.G_order z
  have n0' := smul_ne_zero' hD.G_ne hD.G_order z'
  have r1' : xCoord (k • G) % n = r := r1
  have r2' : xCoord (k' • G) % n = r := r2
  rcases same_or_opposite hpn n0 n0' (r1'.trans r2'.symm)
    ⟨fun h => absurd h (low_of_large hbig r1' n0), fun h => absurd h (low_of_large hbig r2' n0')⟩ with hs | hs
  · right
    have hkk : k = k' := by
      have := (ZMod.natCast_eq_natCast_iff' k k' n).mp (smul_inj hD.G_ne hD.G_order hs.symm)
      rwa [Nat.mod_eq_of_lt hkn, Nat.mod_eq_of_lt hkn'] at this
    subst hkk
    refine ⟨rfl, nonce_collision hc.length ho hn8 ho0 ?_ (seed_ne_nil _ _ hdn) (seed_ne_nil _ _ hdn) c2 c2'⟩
    intro hseed
    exact hne (seed_inj hdn hdn hseed).2.1
  · left
    have h3 : (k + k') • G = 0 • G := by rw [add_nsmul, hs, add_neg_cancel, zero_nsmul]
    have h4 := smul_inj hD.G_ne hD.G_order h3
    rw [Nat.cast_zero, ZMod.natCast_eq_zero_iff] at h4
    obtain ⟨c, hc⟩ := h4
    have c1 : c = 1 := by
      have : c < 2 := by
        by_contra h
        have := Nat.mul_le_mul_left n (Nat.le_of_not_lt h)
        omega
      have : c ≠ 0 := by rintro rfl; omega
      omega
    rw [hc, c1, Nat.mul_one]

/-! A hash function that always gives 5 leads all keys and hashes to the nonce 5: the premises are met, with the order 233, which has 8 bits, and so
is the conclusion, though the messages hashed are different. -/

end C77

example (rand : Out RandomError (List UInt8)) : Computes (constHasher 5) (fun _ => [5]) 1000 ∧ bitLength 233 = 8 * (constHasher 5).outLen ∧
    NonceOf (constHasher 5) (fun _ => [5]) 233 7 [100] false rand 5 ∧ NonceOf (constHasher 5) (fun _ => [5]) 233 7 [101] false rand 5 :=
  ⟨constHasher_computes 5 1000, by decide, example_nonce 5 (by decide) (by decide) 7 [100] rand,
    example_nonce 5 (by decide) (by decide) 7 [101] rand⟩

example : [100, 101].map (fun hash => (signWithOptions .debug 8 (constHasher 5) 1 1 () (fun _ => .panic) [hash] ⟨Toy.byte 7, Toy.params⟩
    (exampleOptions true)).bind (fun o => .ok (toInt 8 o.1.r))) = [.ok 53, .ok 53] := by decide +kernel

/-! ## C75 for accounts -/

/-- C75: if the accounts of two different keys have the same address, then hashing the two public keys ends in different states of the sponge
of which 160 output bits agree. -/
theorem C75_address (m : Build) (w : Nat) [DigitWidth w] (data data' : List UInt8) (len : data.length = 32) (len' : data'.length = 32)
    (hne : data ≠ data') (key key' : PrivateKey) (hk : (EoaPrivateKey.new m w data len : Out ε _) = .ok (some key))
    (hk' : (EoaPrivateKey.new m w data' len' : Out ε _) = .ok (some key')) :
    ∃ pk pk' addr addr', (EoaPrivateKey.publicKey m w key : Out ε _) = .ok pk ∧ (EoaPrivateKey.publicKey m w key' : Out ε _) = .ok pk' ∧
      (EoaPublicKey.address m w pk : Out ε _) = .ok addr ∧ (EoaPublicKey.address m w pk' : Out ε _) = .ok addr' ∧
      (addr.data = addr'.data → ∃ x y x' y' : Nat, Denotes w pk.data.x x ∧ Denotes w pk.data.y y ∧ Denotes w pk'.data.x x' ∧
        Denotes w pk'.data.y y' ∧
        Sha3.after 1088 (Sha3.blocksOf 1088 [] (octets 32 x ++ octets 32 y)) ≠ Sha3.after 1088 (Sha3.blocksOf 1088 [] (octets 32 x' ++ octets 32 y')) ∧
        (Sha3.keccak256 (octets 32 x ++ octets 32 y)).drop 12 = (Sha3.keccak256 (octets 32 x' ++ octets 32 y')).drop 12) := by
  obtain ⟨cp, ecp, hD, -⟩ := secp256k1_y (ε := ε) w
  have info : ∀ (data : List UInt8) (len : data.length = 32) (key : PrivateKey), (EoaPrivateKey.new m w data len : Out ε _) = .ok (some key) →
      ∃ pk addr, (EoaPrivateKey.publicKey m w key : Out ε _) = .ok pk ∧ (EoaPublicKey.address m w pk : Out ε _) = .ok addr ∧
        addr.data = Eth.addressOf Sha3.keccak256 (xCoord (ofBE data • LCT.Secp256k1.G)) (yCoord (ofBE data • LCT.Secp256k1.G)) ∧
        PointDenotes w pk.data (ofBE data • LCT.Secp256k1.G) ∧ 0 < ofBE data ∧ ofBE data < Secp256k1.n := by
    intro data len key hk
    obtain ⟨k, e, hsome, hkey⟩ := C47_private_key (ε := ε) m w data len
    rw [e] at hk
    injection hk with hk
    obtain ⟨hd, hcp⟩ := hkey key hk
    obtain ⟨h0, hn⟩ := hsome.mp (by rw [hk]; rfl)
    rw [ecp] at hcp
    injection hcp with hcp
    obtain ⟨pk, e3, -, hq⟩ := publicKey_y (ε := ε) m hD hcp.symm hd (cast_ne_zero_of_lt h0 hn)
    obtain ⟨pk', addr, e4, e5, ha⟩ := C47_address (ε := ε) m w data len key (by rw [e, hk])
    cases Out.ok.inj (e3.symm.trans e4)
    exact ⟨pk, addr, e3, e5, ha, hq, h0, hn⟩
  obtain ⟨pk, addr, e1, e2, ha, hq, h0, hn⟩ := info data len key hk
  obtain ⟨pk', addr', e1', e2', ha', hq', h0', hn'⟩ := info data' len' key' hk'
  refine ⟨pk, pk', addr, addr', e1, e1', e2, e2', fun heq => ?_⟩
  obtain ⟨hx, hy⟩ := point_x hq
  obtain ⟨hx', hy'⟩ := point_x hq'
  refine ⟨_, _, _, _, hx, hy, hx', hy', ?_, by rw [ha, ha'] at heq; exact heq⟩
  have h256 : Secp256k1.p < 256 ^ 32 := by decide +kernel
  have l1 := coord_lt (ofBE data • LCT.Secp256k1.G)
  have l2 := coord_lt (ofBE data' • LCT.Secp256k1.G)
  refine C74_keccak256_short _ _ (by simp [octets_length]) (by simp [octets_length]) ?_
  intro hc
  obtain ⟨c1, c2⟩ := List.append_inj hc (by simp [octets_length])
  have x1 := octets_inj (by omega) (by omega) c1
  have y1 := octets_inj (by omega) (by omega) c2
  have hP := point_ext (smul_ne_zero' hD.G_ne hD.G_order (cast_ne_zero_of_lt h0 hn))
    (smul_ne_zero' hD.G_ne hD.G_order (cast_ne_zero_of_lt h0' hn')) x1 y1
  have := (ZMod.natCast_eq_natCast_iff' _ _ _).mp (smul_inj hD.G_ne hD.G_order hP)
  rw [Nat.mod_eq_of_lt hn, Nat.mod_eq_of_lt hn'] at this
  exact hne (ofBE_inj_of_length (by rw [len, len']) this)

/-! Two different keys that are accepted. -/

example : ∀ b ∈ [(1 : UInt8), 2], ∃ key, (EoaPrivateKey.new .debug 64 (List.replicate 31 0 ++ [b]) rfl : Out Unit _) = .ok (some key) := by
  intro b hb
  obtain ⟨k, e, h, -⟩ := C47_private_key (ε := Unit) .debug 64 (List.replicate 31 0 ++ [b]) rfl
  have hr : ∀ b ∈ [(1 : UInt8), 2], 0 < ofBE (List.replicate 31 0 ++ [b]) ∧ ofBE (List.replicate 31 0 ++ [b]) < Secp256k1.n := by decide +kernel
  have : k.isSome := h.mpr (hr b hb)
  obtain ⟨key, rfl⟩ := Option.isSome_iff_exists.mp this
  exact ⟨key, e⟩

end LCT.Props
