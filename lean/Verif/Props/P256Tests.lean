import Verif.Lemmas.KeyTests
import Verif.Props.UserCurves
import Verif.Spec.P256Tests

/-!
# C100: the tests of signing and verifying on P-256
-/

namespace LCT.Props
open LCT.BigInt LCT.Spec LCT.Out LCT.Modular LCT.Curve LCT.Hash LCT.Crypto LCT.Codecs LCT.Random LCT.RandomTests LCT.TransactionTests LCT.KeyTests
open LCT.P256Tests LCT.VectorTests

section
variable (m : Build) (w : Nat) [hw : DigitWidth w] (H : Hasher) (h : List UInt8 → List UInt8) (limit : Nat) (hc : Computes H h limit)
  (ho : H.outLen ≤ H.blockLen) (ho0 : 0 < H.outLen) (hlim : H.blockLen + H.outLen + 97 < limit) (strict : Bool)
  (hst : strict = true → H.outLen = 32)
  (rand : Nat → Out RandomError (List UInt8)) (v : Case) (hmsg : v.message.length < limit)
  (hnonce : ∀ d, MessageSignable P256.n h v d → ∃ k, MessageNonce P256.n LCT.P256.G H h v d k)
include hc ho ho0 hlim hst hmsg hnonce

open Classical in
private theorem signAndVerify_iff (pick : H.State → H.State) :
    ∃ f0, ∀ f nf, f0 ≤ f → f0 ≤ nf →
      P256Tests.signAndVerify m w H pick ⟨false, strict, false, false⟩ ⟨false, strict⟩ f nf rand v =
        if MessageClaim P256.n LCT.P256.G H h v then .ok () else .panic := by
  obtain ⟨cp, ecp, hD, -⟩ := nistP256_y (ε := Unit) w
  obtain ⟨st, est⟩ := hc.digest Unit m H.fresh v.message hmsg
  unfold P256Tests.signAndVerify
  simp only [ecp, bind_ok, est]
  rcases number_reads (w := w) v.d with ⟨x, z, e, hx, hz⟩ | ⟨e, hz⟩
  swap
  · refine ⟨0, fun f nf _ _ => ?_⟩
    rw [if_neg fun ⟨d, _, h1, _⟩ => hz d h1.1, e]
    rfl
  simp only [e, bind_ok]
  obtain ⟨o, eo, ho'⟩ := privateKeyNew_y (ε := Unit) m hx hD.order
  simp only [eo, bind_ok, ho']
  by_cases hr : 0 < z ∧ z < P256.n
  swap
  · refine ⟨0, fun f nf _ _ => ?_⟩
    have hno : ¬ MessageClaim P256.n LCT.P256.G H h v := by
      rintro ⟨d, _, ⟨h1, h2, h3, -⟩, -⟩
      apply hr
      rw [← (hz d).mp h1]
      exact ⟨by exact_mod_cast h2, by exact_mod_cast h3⟩
    rw [if_neg hr, if_neg hno]
    rfl
  obtain ⟨d, rfl⟩ := Int.eq_ofNat_of_zero_le hr.1.le
  have hd0 : 0 < d := by exact_mod_cast hr.1
  have hdn : d < P256.n := by exact_mod_cast hr.2
  have huniq : ∀ d', MessageSignable P256.n h v d' → d' = d := fun d' h' => by exact_mod_cast (hz d').mp h'.1
  have eu : ∀ {α : Type} (a : α), (unwrap (some a) : Out Unit α) = .ok a := fun _ => rfl
  simp only [if_pos hr, eu, bind_ok]
  have hl : ∀ i bytes, Drawn false (rand i) bytes →
      H.blockLen + H.outLen + 1 + 2 * ((bitLength P256.n + 7) / 8) + bytes.length < limit := by
    intro i bytes hb
    cases (hb : bytes = [])
    rw [bitLength_p256]
    show _ + 0 < _
    omega
  have hne : h v.message ≠ [] := fun h0 => by
    have := hc.length v.message
    rw [h0] at this
    simp only [List.length_nil] at this
    omega
  have hlen : strict = true → (h v.message).length * 8 = bitLength P256.n := fun hs => by rw [bitLength_p256, hc.length, hst hs]
  by_cases hzero : leadingBits (bitLength P256.n) (h v.message) = 0
  · refine ⟨0, fun f nf _ _ => ?_⟩
    have hs := C25_sign m w cp P256.p P256.n (-3) P256.b LCT.P256.G hD H h limit hc ho ho0 d hdn ⟨x, cp⟩ rfl hx (h v.message)
      ⟨false, strict, false, false⟩ (fun _ => by rw [bitLength_p256]) rand hl f nf (pick st) _ rfl
    rw [if_neg hne, if_neg (fun hq => hq.2 (hlen hq.1)), if_pos ⟨rfl, hzero⟩] at hs
    rw [hs, if_neg fun ⟨_, _, h1, _⟩ => h1.2.2.2 hzero]
    rfl
  have hsig : MessageSignable P256.n h v d := ⟨(hz d).mpr rfl, hd0, hdn, hzero⟩
  obtain ⟨k, hk⟩ := hnonce d hsig
  obtain ⟨f0, hf⟩ := C27_progress m w cp P256.p P256.n (-3) P256.b LCT.P256.G hD H h limit hc ho ho0 d hd0 hdn ⟨x, cp⟩
    rfl hx (h v.message) ⟨false, strict, false, false⟩ (fun _ => by rw [bitLength_p256]) rand hl hne hlen (fun _ => hzero)
    0 k (fun i hi => absurd hi (Nat.not_lt_zero i)) hk.1 hk.2
  refine ⟨f0, fun f nf h1 h2 => ?_⟩
  obtain ⟨sig, id, hok, hr', hs'⟩ := hf f nf (pick st) h1 h2
  simp only [Bool.false_eq_true, false_and, if_false] at hs'
  obtain ⟨pk, epk, ⟨r, s, hr1, hs1, hr0, hrn, hs0, hsn⟩, hv⟩ := C21_sign_then_verify m w cp P256.p P256.n (-3) P256.b LCT.P256.G hD H h
    limit hc ho ho0 d hd0 hdn ⟨x, cp⟩ rfl hx (h v.message) ⟨false, strict, false, false⟩ (fun _ => by rw [bitLength_p256]) rand hl f nf (pick st)
    sig id hok ⟨false, strict⟩ nofun (fun hq => ⟨by rw [bitLength_p256], hlen hq⟩) hzero
  obtain ⟨-, -, -, -, -, -, -, -, -, ⟨hp, -⟩, -⟩ :=
    sign_ok m w cp P256.p P256.n (-3) P256.b LCT.P256.G hD H h limit hc ho ho0 d hd0 hdn ⟨x, cp⟩ rfl hx (h v.message)
      ⟨false, strict, false, false⟩ (fun _ => by rw [bitLength_p256]) rand hl f nf (pick st) sig id hok
  have er : r = ecdsaR P256.n LCT.P256.G k := by
    have := hr1.2.symm.trans hr'.2
    exact_mod_cast this
  have es : s = ecdsaS P256.n LCT.P256.G d (leadingBits (bitLength P256.n) (h v.message)) k := by
    have := hs1.2.symm.trans hs'.2
    exact_mod_cast this
  have hhex := toP1363Hex_y (ε := Unit) (m := m) (n := P256.n) (sig := sig) (by rw [show sig.params = cp from hp]; exact hD.order) hr1 hs1 hr0 hrn hs0 hsn
  have eh : ∀ {ε : Type} {α : Type} (a : α), (unwrapped (.ok a : Out ε α) : Out Unit α) = .ok a := fun _ => rfl
  rw [hok, eh, bind_ok]
  simp only [hhex, bind_ok, epk, eh, hv]
  have hiff : MessageClaim P256.n LCT.P256.G H h v ↔ p1363Text P256.n r s = v.signature := by
    constructor
    · rintro ⟨d', k', h1, h2, h3⟩
      cases huniq d' h1
      cases C26_unique _ _ _ _ _ _ _ _ _ hk.1 h2.1
      rw [h3, er, es]
    · intro he
      exact ⟨d, k, hsig, hk, by rw [← he, er, es]⟩
  by_cases hq : p1363Text P256.n r s = v.signature
  · rw [if_pos (hiff.mpr hq), hq, beq_self_eq_true]
    rfl
  · rw [if_neg fun hh => hq (hiff.mp hh), beq_eq_false_iff_ne.mpr hq]
    rfl

end

section
variable (m : Build) (w : Nat) [hw : DigitWidth w] (rand : Nat → Out RandomError (List UInt8)) (v : Case) (hmsg : v.message.length < 2 ^ 61)
include hmsg

open Classical in
/-- C100: the test with SHA-256 passes exactly if the text is that of a private key of P-256, the hash of the message is not zero, and the expected signature is
the one of RFC 6979; otherwise it panics. -/
theorem C100_sha256 (hnonce : ∀ d, MessageSignable P256.n Spec.Sha2.sha256 v d → ∃ k, MessageNonce P256.n LCT.P256.G Sha2.Sha256 Spec.Sha2.sha256 v d k) :
    ∃ f0, ∀ f nf, f0 ≤ f → f0 ≤ nf → sha256Sign m w f nf rand v =
      if MessageClaim P256.n LCT.P256.G Sha2.Sha256 Spec.Sha2.sha256 v then .ok () else .panic :=
  signAndVerify_iff m w Sha2.Sha256 _ _ Hash.Sha2.computes256 (by decide) (by decide) (by decide) true (fun _ => rfl) rand v hmsg hnonce _

open Classical in
/-- C100: the test with SHA-384. -/
theorem C100_sha384 (hnonce : ∀ d, MessageSignable P256.n Spec.Sha2.sha384 v d → ∃ k, MessageNonce P256.n LCT.P256.G Sha2.Sha384 Spec.Sha2.sha384 v d k) :
    ∃ f0, ∀ f nf, f0 ≤ f → f0 ≤ nf → sha384Sign m w f nf rand v =
      if MessageClaim P256.n LCT.P256.G Sha2.Sha384 Spec.Sha2.sha384 v then .ok () else .panic :=
  signAndVerify_iff m w Sha2.Sha384 _ _ Hash.Sha2.computes384 (by decide) (by decide) (by decide) false nofun rand v hmsg hnonce _

open Classical in
/-- C100: the test with SHA-512. -/
theorem C100_sha512 (hnonce : ∀ d, MessageSignable P256.n Spec.Sha2.sha512 v d → ∃ k, MessageNonce P256.n LCT.P256.G Sha2.Sha512 Spec.Sha2.sha512 v d k) :
    ∃ f0, ∀ f nf, f0 ≤ f → f0 ≤ nf → sha512Sign m w f nf rand v =
      if MessageClaim P256.n LCT.P256.G Sha2.Sha512 Spec.Sha2.sha512 v then .ok () else .panic :=
  signAndVerify_iff m w Sha2.Sha512 _ _ Hash.Sha2.computes512 (by decide) (by decide) (by decide) false nofun rand v hmsg hnonce _

end

/-! ## The cases of the test suite with SHA-256 and SHA-384, where the nonces are known -/

section
open P256Published

/-- The text of the private key in the tests. -/
def keyText : List UInt8 := ascii "C9AFA9D845BA75166B5C215767B1D6934E50C3DB36E89B127B8A622B120F6721"

theorem key_number : NumberText keyText d :=
  .inr ⟨[], keyText, keyText.filterMap digitVal, 1, rfl, .none, by unfold DigitText; decide +kernel, by decide +kernel, by decide +kernel⟩

theorem key_unique {d' : Nat} (h : NumberText keyText d') : d' = d := by
  rcases number_reads (w := 64) keyText with ⟨x, z, e, hx, hz⟩ | ⟨e, hz⟩
  · exact_mod_cast ((hz d').mp h).trans ((hz d).mp key_number).symm
  · exact absurd h (hz _)

/-- What has to be computed for a test whose nonce is known. -/
theorem published_case (H : Hasher) (h : List UInt8 → List UInt8) (hash : List UInt8) (e k r s y : Nat) (t : List UInt8) (hh : h sample = hash)
    (he : leadingBits 256 hash = e) (he0 : e ≠ 0) (hk : ∀ rand, NonceOf H h P256.n d hash false rand k)
    (hmul : Certify.mul P256.p (P256.p - 3) (P256.gx, P256.gy) 257 k = some (r, y)) (hr : 0 < r ∧ r < P256.n) (hrp : r < P256.p)
    (hs : 0 < s ∧ s < P256.n) (hk' : 0 < k ∧ k < P256.n) (hsk : (s * k) % P256.n = (e + r * d) % P256.n) (ht : t = p1363Text P256.n r s) :
    (∀ d', MessageSignable P256.n h ⟨keyText, sample, t⟩ d' → ∃ k, MessageNonce P256.n LCT.P256.G H h ⟨keyText, sample, t⟩ d' k) ∧
    MessageClaim P256.n LCT.P256.G H h ⟨keyText, sample, t⟩ := by
  obtain ⟨hR, hS⟩ := halves e k r s y hmul hr.2 hrp hs.2 hk'.1 hk'.2 hsk
  have hlead : leadingBits (bitLength P256.n) (h sample) = e := by rw [bitLength_p256, hh, he]
  have hn : MessageNonce P256.n LCT.P256.G H h ⟨keyText, sample, t⟩ d k := by
    refine ⟨?_, ?_⟩
    · show NonceOf H h P256.n d (h sample) false _ k
      rw [hh]
      exact hk _
    · show ¬ Unusable P256.n LCT.P256.G d (leadingBits (bitLength P256.n) (h sample)) k
      rw [hlead, Unusable, hR, hS]
      omega
  refine ⟨fun d' h' => ⟨k, ?_⟩, d, k, ⟨key_number, by decide, by decide, ?_⟩, hn, ?_⟩
  · cases key_unique h'.1
    exact hn
  · show leadingBits (bitLength P256.n) (h sample) ≠ 0
    rw [hlead]
    exact he0
  · show t = p1363Text P256.n (ecdsaR P256.n LCT.P256.G k) (ecdsaS P256.n LCT.P256.G d (leadingBits (bitLength P256.n) (h sample)) k)
    rw [hlead, hR, hS, ht]

/-- C100 for the tests with SHA-256 and SHA-384 as they are: they pass. -/
theorem C100_published (m : Build) (w : Nat) [DigitWidth w] (rand : Nat → Out RandomError (List UInt8)) :
    ∃ f0, ∀ f nf, f0 ≤ f → f0 ≤ nf →
      sha256Sign m w f nf rand ⟨ascii "C9AFA9D845BA75166B5C215767B1D6934E50C3DB36E89B127B8A622B120F6721", ascii "sample",
        ascii "efd48b2aacb6a8fd1140dd9cd45e81d69d2c877b56aaf991c34d0ea84eaf3716f7cb1c942d657c41d436c7a1b6e29f65f3e900dbb9aff4064dc4ab2f843acda8"⟩ =
          .ok () ∧
      sha384Sign m w f nf rand ⟨ascii "C9AFA9D845BA75166B5C215767B1D6934E50C3DB36E89B127B8A622B120F6721", ascii "sample",
        ascii "0eafea039b20e9b42309fb1d89e213057cbf973dc0cfc8f129edddc800ef77194861f0491e6998b9455193e34e7b0d284ddd7149a74b95b9261f13abde940954"⟩ =
          .ok () := by
  have hm : ascii "sample" = sample := by decide +kernel
  obtain ⟨a1, a2⟩ := published_case Sha2.Sha256 Spec.Sha2.sha256 hash256 0xaf2bdbe1aa9b6ec1e2ade1d694f41fc71a831d0268e9891562113d8a62add1bf k256 r256 s256
    0x34a7e72c423213443152c82df94fe0f6851bf894fd91c64b19555346093ff492
    (ascii "efd48b2aacb6a8fd1140dd9cd45e81d69d2c877b56aaf991c34d0ea84eaf3716f7cb1c942d657c41d436c7a1b6e29f65f3e900dbb9aff4064dc4ab2f843acda8")
    hash256_eq (by decide +kernel) (by decide) nonce256 (by decide +kernel) (by decide) (by decide) (by decide) (by decide) (by decide +kernel)
    (by decide +kernel)
  obtain ⟨b1, b2⟩ := published_case Sha2.Sha384 Spec.Sha2.sha384 hash384 e384 k384 r384 s384
    0xbb78f0e6ec1bc1f3dc0900d3c4f2955d1e27865bee7ac17e57d465e06f981d86
    (ascii "0eafea039b20e9b42309fb1d89e213057cbf973dc0cfc8f129edddc800ef77194861f0491e6998b9455193e34e7b0d284ddd7149a74b95b9261f13abde940954")
    hash384_eq (by decide +kernel) (by decide) nonce384 (by decide +kernel) (by decide) (by decide) (by decide) (by decide) (by decide +kernel)
    (by decide +kernel)
  obtain ⟨f1, h1⟩ := C100_sha256 m w rand _ (by decide +kernel) a1
  obtain ⟨f2, h2⟩ := C100_sha384 m w rand _ (by decide +kernel) b1
  refine ⟨max f1 f2, fun f nf hf hnf => ⟨?_, ?_⟩⟩
  · rw [hm]
    exact (h1 f nf (by omega) (by omega)).trans (if_pos a2)
  · rw [hm]
    exact (h2 f nf (by omega) (by omega)).trans (if_pos b2)

end

end LCT.Props
