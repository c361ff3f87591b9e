import Verif.Lemmas.Crypto.P256
import Verif.Props.KeyClient
import Verif.Props.Published

/-!
# C91: curves that users supply

The library has one curve built in, and takes the domain parameters of others from its users.  The test suite supplies NIST P-256 in this way.
Everything proved about ECDSA for domain parameters in general (C19-C27, C88) needs them to be valid; here this is proved for P-256 as it is
written down in the test suite, so that what was proved holds of it without assumptions about the curve.
-/

namespace LCT.Props
open LCT.BigInt LCT.Spec LCT.Out LCT.Modular LCT.Curve LCT.Crypto LCT.Hash LCT.Random
variable {ε : Type}

theorem bitLength_p256 : bitLength P256.n = 256 := by decide +kernel

/-- C91: the parameters in the test suite are those of P-256, and they are valid: `p` and `n` are primes, the base point is on the curve, has the
order `n`, and the curve has exactly `n` points. -/
theorem C91_domain (w : Nat) [DigitWidth w] : ∃ cp, (nistP256 w : Out ε _) = .ok cp ∧ cp.cofactor = 1 ∧
    Denotes w cp.curve.p P256.p ∧ Denotes w cp.curve.a (-3) ∧ Denotes w cp.curve.b P256.b ∧
    Denotes w cp.basePoint.x P256.gx ∧ Denotes w cp.basePoint.y P256.gy ∧ Denotes w cp.order P256.n ∧
    P256.p.Prime ∧ P256.n.Prime ∧ (∃ h, LCT.P256.G = .some (P256.gx : ZMod P256.p) (P256.gy : ZMod P256.p) h) ∧
    addOrderOf LCT.P256.G = P256.n ∧
    Nat.card (curve (-3 : ZMod P256.p) (P256.b : ZMod P256.p)).Point = P256.n := by
  obtain ⟨cp, ecp, hD, hcof⟩ := nistP256_y (ε := ε) w
  have hb : Denotes w cp.basePoint.x _ ∧ Denotes w cp.basePoint.y _ := hD.base
  have hc := LCT.P256.card_points
  rw [show ((P256.gx : Nat) : ZMod P256.p).val = P256.gx from ZMod.val_cast_of_lt (by decide),
    show ((P256.gy : Nat) : ZMod P256.p).val = P256.gy from ZMod.val_cast_of_lt (by decide)] at hb
  refine ⟨cp, ecp, hcof, hD.curve.p, hD.curve.a, hD.curve.b, hb.1, hb.2, hD.order, LCT.P256.prime_p, LCT.P256.prime_n, ⟨_, rfl⟩,
    LCT.P256.order_G, ?_⟩
  push_cast at hc
  exact hc

/-- C91: C88 for P-256 and any hash function of the library that delivers at least one byte and at most a block.

Missing for the full property: as for C88. -/
theorem C91_client_partial (m : Build) (w : Nat) [DigitWidth w] (H : Hasher) (h : List UInt8 → List UInt8) (limit : Nat)
    (hc : Computes H h limit) (ho : H.outLen ≤ H.blockLen) (ho0 : 0 < H.outLen) (hlim : H.blockLen + H.outLen + 97 < limit) (st : H.State) :
    ∃ cp, (nistP256 w : Out Unit _) = .ok cp ∧
    ∀ (env : Nat → Nat → Out RandomError (List UInt8)) (c : KeyClient),
    (∀ i j, env i j ≠ .panic) → (∀ i j bytes, env i j = .ok bytes → bytes.length = 32) →
    (∀ rs (x : Holds P256.p (-3) P256.b), KeyRun H h P256.n LCT.P256.G c env rs x → (c rs).Proper x) →
    ∀ k,
      (∀ f nf,
        (∃ rs xs x, keySession m w H f nf st cp env c k = .ok (rs, xs) ∧ rs.length = k ∧
          KeyRun H h P256.n LCT.P256.G c env rs x ∧ KeyMatches w cp P256.n xs x) ∨
        (keySession m w H f nf st cp env c k = .panic ∧ ∃ rs x, rs.length < k ∧ KeyRun H h P256.n LCT.P256.G c env rs x ∧
          KeyIdeal H h P256.n LCT.P256.G (env rs.length) x (c rs) none) ∨
        (keySession m w H f nf st cp env c k = .hang ∧ ∃ rs x, rs.length < k ∧ KeyRun H h P256.n LCT.P256.G c env rs x ∧
          ∃ i hash o, c rs = .sign i hash o)) ∧
      ((∀ rs (x : Holds P256.p (-3) P256.b), KeyRun H h P256.n LCT.P256.G c env rs x → rs.length < k →
          ∃ an, KeyIdeal H h P256.n LCT.P256.G (env rs.length) x (c rs) an) →
        ∃ f0, ∀ f nf, f0 ≤ f → f0 ≤ nf → keySession m w H f nf st cp env c k ≠ .hang) := by
  obtain ⟨cp, ecp, hD, hcof⟩ := nistP256_y (ε := Unit) w
  refine ⟨cp, ecp, fun env c henv hlen hfit k => ?_⟩
  have hl : ∀ i j bytes, env i j = .ok bytes →
      H.blockLen + H.outLen + 1 + 2 * ((bitLength P256.n + 7) / 8) + bytes.length < limit := by
    intro i j bytes hb
    rw [bitLength_p256, hlen i j bytes hb]
    omega
  have hl0 : H.blockLen + H.outLen + 1 + 2 * ((bitLength P256.n + 7) / 8) < limit := by
    rw [bitLength_p256]
    omega
  exact ⟨fun f nf => C88_client_partial m w cp P256.p P256.n (-3) P256.b LCT.P256.G hD hcof (by decide +kernel) (by rw [bitLength_p256])
      H h limit hc ho ho0 f nf st env henv hl hl0 c hfit k,
    C88_answered m w cp P256.p P256.n (-3) P256.b LCT.P256.G hD hcof (by decide +kernel) (by rw [bitLength_p256])
      H h limit hc ho ho0 st env henv hl hl0 c hfit k⟩

/-- The hash functions that the test suite uses with P-256 meet the hypotheses. -/
example : (Sha2.Sha256.outLen ≤ Sha2.Sha256.blockLen ∧ 0 < Sha2.Sha256.outLen ∧ Sha2.Sha256.blockLen + Sha2.Sha256.outLen + 97 < 2 ^ 61) ∧
    (Sha2.Sha384.outLen ≤ Sha2.Sha384.blockLen ∧ 0 < Sha2.Sha384.outLen ∧ Sha2.Sha384.blockLen + Sha2.Sha384.outLen + 97 < 2 ^ 61) ∧
    (Sha2.Sha512.outLen ≤ Sha2.Sha512.blockLen ∧ 0 < Sha2.Sha512.outLen ∧ Sha2.Sha512.blockLen + Sha2.Sha512.outLen + 97 < 2 ^ 61) := by
  decide

/-! ## The signatures published in RFC 6979, A.2.5 -/

namespace P256Published

/-- The private key. -/
def d : Nat := 0xC9AFA9D845BA75166B5C215767B1D6934E50C3DB36E89B127B8A622B120F6721

/-- The message `sample`. -/
def sample : List UInt8 := [0x73, 0x61, 0x6d, 0x70, 0x6c, 0x65]

/-- SHA-384, computed by the model where it is known to agree with the specification. -/
def sha384 (msg : List UInt8) : List UInt8 :=
  if msg.length < 2 ^ 61 then
    match (Sha2.Sha384.digest .release Sha2.Sha384.fresh msg : Out Unit _) with
    | .ok (d, _) => d
    | _ => Spec.Sha2.sha384 msg
  else Spec.Sha2.sha384 msg

theorem sha384_eq : Spec.Sha2.sha384 = sha384 := by
  funext msg
  unfold sha384
  split
  · rename_i h
    obtain ⟨st, e⟩ := Hash.Sha2.computes384.digest Unit .release Sha2.Sha384.fresh msg h
    rw [e]
  · rfl

/-- The nonce, from the intermediate values of the generator. -/
theorem nonce_of (H : Hasher) (h g : List UInt8 → List UInt8) (hg : h = g) (hash T : List UInt8) (K1 V1 K2 V2 : List UInt8) (e k : Nat)
    (he : Rfc6979.bits2int P256.n hash % P256.n = e) (hb : (256 + (8 * H.outLen - 1)) / (8 * H.outLen) = 1)
    (h1 : hmac g H.blockLen (List.replicate H.outLen 0) (List.replicate H.outLen 1 ++ [0] ++ (octets 32 d ++ octets 32 e)) = K1)
    (h2 : hmac g H.blockLen K1 (List.replicate H.outLen 1) = V1)
    (h3 : hmac g H.blockLen K1 (V1 ++ [1] ++ (octets 32 d ++ octets 32 e)) = K2)
    (h4 : hmac g H.blockLen K2 V1 = V2) (h5 : hmac g H.blockLen K2 V2 = T) (h6 : leadingBits 256 T = k) (hk : 0 < k ∧ k < P256.n)
    (rand : Out RandomError (List UInt8)) : NonceOf H h P256.n d hash false rand k := by
  have hseed : Rfc6979.seed P256.n d hash [] = octets 32 d ++ octets 32 e := by
    have hl : (bitLength P256.n + 7) / 8 = 32 := by rw [bitLength_p256]
    rw [Rfc6979.seed, Spec.Rfc6979.bits2octets, he, Spec.Rfc6979.int2octets, Spec.Rfc6979.int2octets, hl, List.append_nil]
  have hb : Rfc6979.blocks H.outLen P256.n = 1 := by rw [Rfc6979.blocks, bitLength_p256]; exact hb
  refine ⟨[], rfl, 0, ?_, hk.1, hk.2, fun j hj => absurd hj (Nat.not_lt_zero j)⟩
  subst hg
  rw [hseed]
  show Rfc6979.bits2int _ (Rfc6979.T (hmac h H.blockLen) H.outLen _ (Rfc6979.start (hmac h H.blockLen) H.outLen _)) = k
  have hstart : Rfc6979.start (hmac h H.blockLen) H.outLen (octets 32 d ++ octets 32 e) = ⟨K2, V2⟩ := by
    simp only [Rfc6979.start]
    rw [h1, h2, h3, h4]
  rw [hstart, Rfc6979.T, hb, show List.range 1 = [0] from rfl, List.flatMap_cons, List.flatMap_nil, List.append_nil]
  simp only [Rfc6979.chain]
  rw [h5, Spec.Rfc6979.bits2int, bitLength_p256, h6]

/-- A signature from its nonce, checked by computation. -/
theorem halves (e k r s y : Nat) (h : Certify.mul P256.p (P256.p - 3) (P256.gx, P256.gy) 257 k = some (r, y)) (hr : r < P256.n)
    (hrp : r < P256.p) (hs : s < P256.n) (hk0 : 0 < k) (hkn : k < P256.n) (hsk : (s * k) % P256.n = (e + r * d) % P256.n) :
    ecdsaR P256.n LCT.P256.G k = r ∧ ecdsaS P256.n LCT.P256.G d e k = s := by
  have hx : xCoord (k • LCT.P256.G) = r := by
    obtain ⟨h', e'⟩ := Certify.mul_is LCT.P256.a_cast LCT.P256.G_is 257 k (r, y) h
    rw [e']
    show ((r : Nat) : ZMod P256.p).val = r
    exact ZMod.val_cast_of_lt hrp
  have hR : ecdsaR P256.n LCT.P256.G k = r := by rw [ecdsaR, hx, Nat.mod_eq_of_lt hr]
  have hc : ((s : Nat) : ZMod P256.n) * (k : ZMod P256.n) = (e : ZMod P256.n) + (r : ZMod P256.n) * (d : ZMod P256.n) := by
    have := (ZMod.natCast_eq_natCast_iff' _ _ _).mpr hsk
    push_cast at this
    exact this
  refine ⟨hR, ?_⟩
  rw [ecdsaS, hR, ← hc, mul_assoc, mul_inv_cancel₀ (cast_ne_zero_of_lt hk0 hkn), mul_one]
  exact ZMod.val_cast_of_lt hs

def hash256 : List UInt8 := octets 32 0xaf2bdbe1aa9b6ec1e2ade1d694f41fc71a831d0268e9891562113d8a62add1bf
def k256 : Nat := 0xa6e3c57dd01abe90086538398355dd4c3b17aa873382b0f24d6129493d8aad60
def r256 : Nat := 0xefd48b2aacb6a8fd1140dd9cd45e81d69d2c877b56aaf991c34d0ea84eaf3716
def s256 : Nat := 0xf7cb1c942d657c41d436c7a1b6e29f65f3e900dbb9aff4064dc4ab2f843acda8

set_option maxRecDepth 100000 in
theorem hash256_eq : Spec.Sha2.sha256 sample = hash256 := by
  rw [Published.sha_eq]
  decide +kernel

set_option maxRecDepth 100000 in
theorem nonce256 (rand : Out RandomError (List UInt8)) : NonceOf Sha2.Sha256 Spec.Sha2.sha256 P256.n d hash256 false rand k256 :=
  nonce_of Sha2.Sha256 _ Published.sha Published.sha_eq hash256 (octets 32 k256)
    (octets 32 0x122db1de98dae4dfa33f2da8e98494c80bff807b479fd79261b37e25f267ee58)
    (octets 32 0xc9947803a747fc60c23535fdcc13b5ca566b48221ca67d4964d22daa48275844)
    (octets 32 0xb6d4f98ebae70aa15a2238ade4e20ab323fc1e777d22f0c582d8ef2e6ba73569)
    (octets 32 0xbae57fe256de2de806b10635497237e7bae96754582566384c47c6c3416494d1)
    0xaf2bdbe1aa9b6ec1e2ade1d694f41fc71a831d0268e9891562113d8a62add1bf k256
    (by decide +kernel) (by decide) (by decide +kernel) (by decide +kernel) (by decide +kernel) (by decide +kernel) (by decide +kernel)
    (by decide +kernel) (by decide) rand

def hash384 : List UInt8 :=
  octets 48 0x9a9083505bc92276aec4be312696ef7bf3bf603f4bbd381196a029f340585312313bca4a9b5b890efee42c77b1ee25fe
def e384 : Nat := 0x9a9083505bc92276aec4be312696ef7bf3bf603f4bbd381196a029f340585312
def k384 : Nat := 0x09f634b188cefd98e7ec88b1aa9852d734d0bc272f7d2a47decc6ebeb375aad4
def r384 : Nat := 0x0eafea039b20e9b42309fb1d89e213057cbf973dc0cfc8f129edddc800ef7719
def s384 : Nat := 0x4861f0491e6998b9455193e34e7b0d284ddd7149a74b95b9261f13abde940954

set_option maxRecDepth 100000 in
theorem hash384_eq : Spec.Sha2.sha384 sample = hash384 := by
  rw [sha384_eq]
  decide +kernel

def K1 : List UInt8 := octets 48 0x7102e77269c277fb409a094f42d6cdc3eab30baa6611adcbcf545a4b0152ee47f3ba22cccdc8dc5fc15519277c64a79c
def V1 : List UInt8 := octets 48 0x629f1c299fe3d190cf9578ad8ba2bbce8d8e9d488e8c0d54b8108dfc31a77a9857d48d3dc8e1714443b96ccb6117b16c
def K2 : List UInt8 := octets 48 0x1bc684ace52b08cea3779bd65290413359c2fa7d20c2f3d70a9a369467d1dac86db0f373b2234a38ca7ca680208a093c
def V2 : List UInt8 := octets 48 0x59c55572304a19be7f0fed792b9e92b67c45f89664a5e2eb4aff3628678fb374c760958e2662458c9ffe4a1f147db343
def T : List UInt8 := octets 48 0x09f634b188cefd98e7ec88b1aa9852d734d0bc272f7d2a47decc6ebeb375aad44bcf3c4ddd084e5a9da69d20244680bb

set_option maxRecDepth 100000 in
theorem K1_eq : hmac sha384 128 (List.replicate 48 0) (List.replicate 48 1 ++ [0] ++ (octets 32 d ++ octets 32 e384)) = K1 := by
  decide +kernel

set_option maxRecDepth 100000 in
theorem V1_eq : hmac sha384 128 K1 (List.replicate 48 1) = V1 := by decide +kernel

set_option maxRecDepth 100000 in
theorem K2_eq : hmac sha384 128 K1 (V1 ++ [1] ++ (octets 32 d ++ octets 32 e384)) = K2 := by decide +kernel

set_option maxRecDepth 100000 in
theorem V2_eq : hmac sha384 128 K2 V1 = V2 := by decide +kernel

set_option maxRecDepth 100000 in
theorem T_eq : hmac sha384 128 K2 V2 = T := by decide +kernel

theorem nonce384 (rand : Out RandomError (List UInt8)) : NonceOf Sha2.Sha384 Spec.Sha2.sha384 P256.n d hash384 false rand k384 :=
  nonce_of Sha2.Sha384 _ sha384 sha384_eq hash384 T K1 V1 K2 V2 e384 k384
    (by decide +kernel) (by decide) K1_eq V1_eq K2_eq V2_eq T_eq (by decide +kernel) (by decide) rand

/-- Signing a hash whose nonce and signature are known, with the options of the test suite, and verifying it again. -/
theorem signs (m : Build) (w : Nat) [DigitWidth w] (H : Hasher) (h : List UInt8 → List UInt8) (limit : Nat) (hc : Computes H h limit)
    (ho : H.outLen ≤ H.blockLen) (ho0 : 0 < H.outLen) (hlim : H.blockLen + H.outLen + 97 < limit) (hash : List UInt8) (hne : hash ≠ [])
    (e k r s y : Nat) (strict : Bool) (hst : strict = true → hash.length = 32) (he : leadingBits 256 hash = e) (he0 : e ≠ 0)
    (hk : ∀ rand, NonceOf H h P256.n d hash false rand k)
    (hmul : Certify.mul P256.p (P256.p - 3) (P256.gx, P256.gy) 257 k = some (r, y)) (hr : 0 < r ∧ r < P256.n) (hrp : r < P256.p)
    (hs : 0 < s ∧ s < P256.n) (hk' : 0 < k ∧ k < P256.n) (hsk : (s * k) % P256.n = (e + r * d) % P256.n)
    (key : PrivateKey) (hkey : (nistP256 w : Out Unit _) = .ok key.params) (hd : Denotes w key.data d)
    (rand : Nat → Out RandomError (List UInt8)) :
    ∃ f0, ∀ fuel nonceFuel (st : H.State), f0 ≤ fuel → f0 ≤ nonceFuel → ∃ sig id,
      signWithOptions m w H fuel nonceFuel st rand hash key ⟨false, strict, false, false⟩ = .ok (sig, id) ∧
      Denotes w sig.r r ∧ Denotes w sig.s s ∧
      ∃ pk, (key.publicKey m w : Out VerifyingError _) = .ok pk ∧
        verifyWithOptions m w hash sig pk { VerifyingOptions.default with strictHashByteLength := strict, enforceLowS := false } = .ok true := by
  obtain ⟨cp, ecp, hD, hcof⟩ := nistP256_y (ε := Unit) w
  have hkey' := hkey
  rw [ecp] at hkey'
  injection hkey' with hkey'
  have hlead : leadingBits (bitLength P256.n) hash = e := by rw [bitLength_p256, he]
  obtain ⟨hR, hS⟩ := halves e k r s y hmul hr.2 hrp hs.2 hk'.1 hk'.2 hsk
  have hl : ∀ i bytes, Drawn false (rand i) bytes →
      H.blockLen + H.outLen + 1 + 2 * ((bitLength P256.n + 7) / 8) + bytes.length < limit := by
    intro i bytes hb
    cases (hb : bytes = [])
    rw [bitLength_p256]
    show _ + 0 < _
    omega
  have hlen : strict = true → hash.length * 8 = bitLength P256.n := fun h => by rw [bitLength_p256, hst h]
  obtain ⟨f0, hf⟩ := C27_progress m w cp P256.p P256.n (-3) P256.b LCT.P256.G hD H h limit hc ho ho0 d (by decide) (by decide) key
    hkey'.symm hd hash ⟨false, strict, false, false⟩ (fun _ => by rw [bitLength_p256]) rand hl hne hlen (fun _ => by rw [hlead]; exact he0)
    0 k (fun i hi => absurd hi (Nat.not_lt_zero i)) (hk _) (by rw [hlead, Unusable, hR, hS]; omega)
  refine ⟨f0, fun fuel nf st h1 h2 => ?_⟩
  obtain ⟨sig, id, hok, hr', hs'⟩ := hf fuel nf st h1 h2
  rw [hR] at hr'
  simp only [hlead, hS, Bool.false_eq_true, false_and, if_false] at hs'
  obtain ⟨pk, epk, -, hv⟩ := C21_sign_then_verify m w cp P256.p P256.n (-3) P256.b LCT.P256.G hD H h limit hc ho ho0 d (by decide)
    (by decide) key hkey'.symm hd hash ⟨false, strict, false, false⟩ (fun _ => by rw [bitLength_p256]) rand hl fuel nf st sig id hok
    { VerifyingOptions.default with strictHashByteLength := strict, enforceLowS := false } nofun
    (fun h => ⟨by rw [bitLength_p256], hlen h⟩) (by rw [hlead]; exact he0)
  exact ⟨sig, id, hok, hr', hs', pk, epk, hv⟩

end P256Published
open P256Published

/-- C91: the signatures that RFC 6979 prints in A.2.5 for the message `sample`, with SHA-256 and with SHA-384, are the ones that the library makes
from P-256 as supplied by the test suite, and it accepts them. -/
theorem C91_published (m : Build) (w : Nat) [DigitWidth w] (key : PrivateKey) (hkey : (nistP256 w : Out Unit _) = .ok key.params)
    (hd : Denotes w key.data (0xC9AFA9D845BA75166B5C215767B1D6934E50C3DB36E89B127B8A622B120F6721 : Nat))
    (rand : Nat → Out RandomError (List UInt8)) :
    ∃ f0, ∀ fuel nonceFuel, f0 ≤ fuel → f0 ≤ nonceFuel →
      (∀ st, ∃ sig id, signWithOptions m w Sha2.Sha256 fuel nonceFuel st rand (Spec.Sha2.sha256 sample) key ⟨false, true, false, false⟩ = .ok (sig, id) ∧
        Denotes w sig.r (0xefd48b2aacb6a8fd1140dd9cd45e81d69d2c877b56aaf991c34d0ea84eaf3716 : Nat) ∧
        Denotes w sig.s (0xf7cb1c942d657c41d436c7a1b6e29f65f3e900dbb9aff4064dc4ab2f843acda8 : Nat) ∧
        ∃ pk, (key.publicKey m w : Out VerifyingError _) = .ok pk ∧
          verifyWithOptions m w (Spec.Sha2.sha256 sample) sig pk
            { VerifyingOptions.default with strictHashByteLength := true, enforceLowS := false } = .ok true) ∧
      (∀ st, ∃ sig id, signWithOptions m w Sha2.Sha384 fuel nonceFuel st rand (Spec.Sha2.sha384 sample) key ⟨false, false, false, false⟩ = .ok (sig, id) ∧
        Denotes w sig.r (0x0eafea039b20e9b42309fb1d89e213057cbf973dc0cfc8f129edddc800ef7719 : Nat) ∧
        Denotes w sig.s (0x4861f0491e6998b9455193e34e7b0d284ddd7149a74b95b9261f13abde940954 : Nat) ∧
        ∃ pk, (key.publicKey m w : Out VerifyingError _) = .ok pk ∧
          verifyWithOptions m w (Spec.Sha2.sha384 sample) sig pk
            { VerifyingOptions.default with strictHashByteLength := false, enforceLowS := false } = .ok true) := by
  have n1 : hash256 ≠ [] := fun h => absurd (congrArg List.length h) (by decide)
  have n2 : hash384 ≠ [] := fun h => absurd (congrArg List.length h) (by decide)
  rw [hash256_eq, hash384_eq]
  obtain ⟨f1, h1⟩ := signs m w Sha2.Sha256 _ _ Hash.Sha2.computes256 (by decide) (by decide) (by decide) hash256 n1
    0xaf2bdbe1aa9b6ec1e2ade1d694f41fc71a831d0268e9891562113d8a62add1bf k256 r256 s256
    0x34a7e72c423213443152c82df94fe0f6851bf894fd91c64b19555346093ff492 true (fun _ => by decide) (by decide +kernel) (by decide) nonce256
    (by decide +kernel) (by decide) (by decide) (by decide) (by decide) (by decide +kernel) key hkey hd rand
  obtain ⟨f2, h2⟩ := signs m w Sha2.Sha384 _ _ Hash.Sha2.computes384 (by decide) (by decide) (by decide) hash384 n2
    e384 k384 r384 s384
    0xbb78f0e6ec1bc1f3dc0900d3c4f2955d1e27865bee7ac17e57d465e06f981d86 false nofun (by decide +kernel) (by decide) nonce384
    (by decide +kernel) (by decide) (by decide) (by decide) (by decide) (by decide +kernel) key hkey hd rand
  exact ⟨max f1 f2, fun fuel nf a b => ⟨fun st => h1 fuel nf st (by omega) (by omega), fun st => h2 fuel nf st (by omega) (by omega)⟩⟩

end LCT.Props
