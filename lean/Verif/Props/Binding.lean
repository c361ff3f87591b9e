import Verif.Lemmas.Crypto.Binding
import Verif.Props.Signing

/-!
# What a signature is bound to: C69

For how many values of `s`, how many hashes and how many public keys can a verifier say yes when the other inputs are fixed?  The bounds are for
curves with `p ≤ 2·n`, like the built-in one; they are halved when `r + n ≥ p`, which on the built-in curve holds for all `r` but the
smallest `2^129` of `2^256`.
-/

namespace LCT.Props
open LCT.BigInt LCT.Spec LCT.Out LCT.Modular LCT.Curve LCT.Crypto LCT.Hash LCT.Random
variable {ε : Type}

section
variable (m : Build) (w : Nat) [DigitWidth w] (cp : Params) (p n : Nat) [Fact p.Prime] (a b : Int)
  (G : (curve (a : ZMod p) (b : ZMod p)).Point) (hD : Domain w cp p n a b G)
include hD

/-- What an accepting run says. -/
theorem accepted_equation {sig : Signature} (hp : sig.params = cp) {r s : Nat} (hr0 : 0 < r) (hs0 : 0 < s) (hsn : s < n)
    (hr : Denotes w sig.r r) (hs : Denotes w sig.s s) {pk : PublicKey} (hpk : pk.params = cp)
    {Q : (curve (a : ZMod p) (b : ZMod p)).Point} (hQ : PointDenotes w pk.data Q) (hnQ : n • Q = 0) {hash : List UInt8} {o : VerifyingOptions}
    (h8 : o.strictHashByteLength = true → bitLength n % 8 = 0) (hv : verifyWithOptions m w hash sig pk o = .ok true) :
    EcdsaVerifies n G Q (leadingBits (bitLength n) hash) r s ∧ (o.enforceLowS = true → s ≤ n / 2) := by
  have h := C25_verify m w cp p n a b G hD sig hp r s hr0 hs0 hsn hr hs pk hpk Q hQ hnQ hash o h8 _ hv
  split at h
  · cases h
  split at h
  · cases h
  rename_i hl
  split at h
  · cases h
  split at h
  · cases h
  refine ⟨?_, fun ho => by by_contra hc; exact hl ⟨ho, by omega⟩⟩
  by_contra hc
  have := h.2 hc
  simp at this

/-- C69: with low-s enforced, a public key accepts a hash under a given `r` for one value of `s` only (two when `r + n < p`): signatures
cannot be altered into others that are accepted for the same hash and have the same `r`. -/
theorem C69_one_form (hpn : p ≤ 2 * n) (pk : PublicKey) (hpk : pk.params = cp)
    (hv : ValidPoint w n (W := curve (a : ZMod p) (b : ZMod p)) pk.data) (hash : List UInt8) (strict : Bool)
    (h8 : strict = true → bitLength n % 8 = 0) (r : Nat) (hr0 : 0 < r) (S : Finset Nat)
    (hS : ∀ s ∈ S, 0 < s ∧ s < n ∧ ∃ sig : Signature, sig.params = cp ∧ Denotes w sig.r r ∧ Denotes w sig.s s ∧
      verifyWithOptions m w hash sig pk ⟨true, strict⟩ = .ok true) : S.card ≤ if p ≤ r + n then 1 else 2 := by
  obtain ⟨Q, hQ, -, hnQ⟩ := hv
  refine card_s hD hpn hnQ (e := leadingBits (bitLength n) hash) S fun s hs => ?_
  obtain ⟨h0, hn, sig, h1, h2, h3, h4⟩ := hS s hs
  obtain ⟨g1, g2⟩ := accepted_equation m w cp p n a b G hD h1 hr0 h0 hn h2 h3 hpk hQ hnQ h8 h4
  exact ⟨h0, g2 rfl, g1⟩

/-- C69: a public key accepts a signature for at most two hashes (four when `r + n < p`), hashes being counted by what verification uses of
them: the leading bits, as many as the order has, modulo the order. -/
theorem C69_hashes (hpn : p ≤ 2 * n) (sig : Signature) (hp : sig.params = cp) (r s : Nat) (hr0 : 0 < r) (hs0 : 0 < s) (hsn : s < n)
    (hr : Denotes w sig.r r) (hs : Denotes w sig.s s) (pk : PublicKey) (hpk : pk.params = cp)
    (hv : ValidPoint w n (W := curve (a : ZMod p) (b : ZMod p)) pk.data) (o : VerifyingOptions)
    (h8 : o.strictHashByteLength = true → bitLength n % 8 = 0) (S : Finset Nat)
    (hS : ∀ e ∈ S, ∃ hash, leadingBits (bitLength n) hash % n = e ∧ verifyWithOptions m w hash sig pk o = .ok true) :
    S.card ≤ if p ≤ r + n then 2 else 4 := by
  obtain ⟨Q, hQ, -, hnQ⟩ := hv
  refine card_e hD hpn hnQ hs0 hsn S fun e he => ?_
  obtain ⟨hash, rfl, h⟩ := hS e he
  have g1 := (accepted_equation m w cp p n a b G hD hp hr0 hs0 hsn hr hs hpk hQ hnQ h8 h).1
  refine ⟨Nat.mod_lt _ hD.n_prime.pos, ?_⟩
  unfold EcdsaVerifies at g1 ⊢
  rw [ZMod.natCast_mod]
  exact g1

/-- C69: two is not one: whoever holds the private key can always find a second hash, different modulo the order, for which the same signature
is accepted.  It is `-(e + 2·r·d)` modulo the order. -/
theorem C69_second_hash (h8 : bitLength n % 8 = 0) (sig : Signature) (hp : sig.params = cp) (r s : Nat) (hr0 : 0 < r) (hs0 : 0 < s)
    (hsn : s < n) (hr : Denotes w sig.r r) (hs : Denotes w sig.s s) (d : Nat) (pk : PublicKey) (hpk : pk.params = cp)
    (hQ : PointDenotes w pk.data (d • G)) (o : VerifyingOptions) (hash : List UInt8)
    (hv : verifyWithOptions m w hash sig pk o = .ok true) :
    ∃ hash', hash'.length * 8 = bitLength n ∧ leadingBits (bitLength n) hash' % n ≠ leadingBits (bitLength n) hash % n ∧
      (leadingBits (bitLength n) hash' + leadingBits (bitLength n) hash + 2 * r * d) % n = 0 ∧
      verifyWithOptions m w hash' sig pk o = .ok true := by
  have hnp : Fact n.Prime := ⟨hD.n_prime⟩
  have hn0 := hD.n_prime.pos
  obtain ⟨g1, g2⟩ := accepted_equation m w cp p n a b G hD hp hr0 hs0 hsn hr hs hpk hQ (smul_smul_zero hD.G_order d) (fun _ => h8) hv
  generalize hE : leadingBits (bitLength n) hash = e at g1 ⊢
  -- the second hash, in the range from 1 to `n`
  have hx : ∃ x, 0 < x ∧ x ≤ n ∧ (x + e + 2 * r * d) % n = 0 := by
    refine ⟨n - (e + 2 * r * d) % n, by have := Nat.mod_lt (e + 2 * r * d) hn0; omega, by omega, ?_⟩
    have h1 := Nat.mod_lt (e + 2 * r * d) hn0
    have h2 := Nat.div_add_mod (e + 2 * r * d) n
    have : n - (e + 2 * r * d) % n + e + 2 * r * d = n * ((e + 2 * r * d) / n + 1) := by
      rw [Nat.mul_add, Nat.mul_one]; omega
    rw [this, Nat.mul_mod_right]
  obtain ⟨x, hx0, hxn, hxe⟩ := hx
  have hcast : (x : ZMod n) = -((e : ZMod n) + 2 * (r : ZMod n) * (d : ZMod n)) := by
    have := (ZMod.natCast_eq_zero_iff (x + e + 2 * r * d) n).mpr (Nat.dvd_of_mod_eq_zero hxe)
    push_cast at this
    linear_combination this
  have hlen : (octets (bitLength n / 8) x).length * 8 = bitLength n := by rw [octets_length]; omega
  have hval : leadingBits (bitLength n) (octets (bitLength n / 8) x) = x := by
    unfold leadingBits
    rw [hlen, Nat.sub_self, Nat.pow_zero, Nat.div_one, octets_eq, ofBE_toBEk, Nat.mod_eq_of_lt]
    rw [show 256 = 2 ^ 8 from rfl, ← Nat.pow_mul, show 8 * (bitLength n / 8) = bitLength n by omega]
    exact Nat.lt_of_le_of_lt hxn ((bitLength_le_iff n _).mp (Nat.le_refl _))
  have hver := second_hash hD g1 hcast
  refine ⟨octets (bitLength n / 8) x, hlen, ?_, by rw [hval]; exact hxe, ?_⟩
  · rw [hval]
    intro hc
    have hc' : (x : ZMod n) = (e : ZMod n) := (ZMod.natCast_eq_natCast_iff' x e n).mpr hc
    have hz : (2 : ZMod n) * ((e : ZMod n) + (r : ZMod n) * (d : ZMod n)) = 0 := by
      rw [hc'] at hcast; linear_combination hcast
    have h2 : (2 : ZMod n) ≠ 0 := by
      have := cast_ne_zero_of_lt (n := n) (k := 2) (by decide) (by have := hD.n_prime.two_le; have := hD.n_ne; omega)
      exact_mod_cast this
    have hz' := (mul_eq_zero.mp hz).resolve_left h2
    apply g1.1
    rw [← mul_nsmul, ← add_nsmul, ← zero_nsmul G]
    apply smul_congr hD.G_order
    push_cast
    rw [ZMod.natCast_zmod_val, ZMod.natCast_zmod_val]
    linear_combination (s : ZMod n)⁻¹ * hz'
  · have h := C25_verify m w cp p n a b G hD sig hp r s hr0 hs0 hsn hr hs pk hpk _ hQ (smul_smul_zero hD.G_order d) (octets (bitLength n / 8) x) o (fun _ => h8) _ rfl
    have hne : octets (bitLength n / 8) x ≠ [] := by
      intro hc
      rw [hc] at hval
      simp [leadingBits, ofBE] at hval
      omega
    rw [if_neg hne, if_neg (fun hc => by have := g2 hc.1; omega), if_neg (fun hc => hc.2 hlen), hval, if_neg (by omega)] at h
    exact h.1 hver

/-- C69: at most two valid public keys (four when `r + n < p`) accept a given signature for a given hash. -/
theorem C69_keys (hpn : p ≤ 2 * n) (sig : Signature) (hp : sig.params = cp) (r s : Nat) (hr0 : 0 < r) (hrn : r < n) (hs0 : 0 < s)
    (hsn : s < n) (hr : Denotes w sig.r r) (hs : Denotes w sig.s s) (hash : List UInt8) (o : VerifyingOptions)
    (h8 : o.strictHashByteLength = true → bitLength n % 8 = 0) (S : Finset (curve (a : ZMod p) (b : ZMod p)).Point)
    (hS : ∀ Q ∈ S, n • Q = 0 ∧ ∃ pk : PublicKey, pk.params = cp ∧ PointDenotes w pk.data Q ∧
      verifyWithOptions m w hash sig pk o = .ok true) : S.card ≤ if p ≤ r + n then 2 else 4 := by
  refine card_q hD hpn hr0 hrn hs0 hsn (e := leadingBits (bitLength n) hash) S fun Q hQ => ?_
  obtain ⟨h0, pk, h1, h2, h3⟩ := hS Q hQ
  exact ⟨h0, (accepted_equation m w cp p n a b G hD hp hr0 hs0 hsn hr hs h1 h2 h0 h8 h3).1⟩

end

/-- C69 on the built-in curve: two low-s signatures made with `Signature::new` that have the same `r ≥ p - n` and that the same valid public
key accepts for the same hash are the same signature. -/
theorem C69_one_form_secp256k1 (m : Build) (w : Nat) [DigitWidth w] : ∃ cp, (secp256k1 w : Out ε _) = .ok cp ∧
    ∀ (pk : PublicKey) (px py : BInt) (x y : Int), Denotes w px x → Denotes w py y →
      (PublicKey.new m w ⟨px, py⟩ cp : Out ε _) = .ok (some pk) →
    ∀ (r s s' : BInt) (r₀ s₀ s₀' : Int), Denotes w r r₀ → Denotes w s s₀ → Denotes w s' s₀' → ∀ (sig sig' : Signature),
      (Signature.new m w r s cp : Out ε _) = .ok (some sig) → (Signature.new m w r s' cp : Out ε _) = .ok (some sig') →
      Secp256k1.p - Secp256k1.n ≤ r₀ →
    ∀ (hash : List UInt8) (strict : Bool), verifyWithOptions m w hash sig pk ⟨true, strict⟩ = .ok true →
      verifyWithOptions m w hash sig' pk ⟨true, strict⟩ = .ok true → s₀ = s₀' := by
  have : Fact (Nat.Prime Secp256k1.p) := ⟨LCT.Secp256k1.prime_p⟩
  have : Fact (Nat.Prime Secp256k1.n) := ⟨LCT.Secp256k1.prime_n⟩
  obtain ⟨cp, e, hD, hcof⟩ := secp256k1_y (ε := ε) w
  refine ⟨cp, e, ?_⟩
  intro pk px py x y hx hy hpk r s s' r₀ s₀ s₀' hr hs hs' sig sig' hsig hsig' hbig hash strict h1 h2
  obtain ⟨o, e1, ho⟩ := publicKeyNew_y (ε := ε) m hD (by rw [hcof]) (pt := ⟨px, py⟩) hx hy
  obtain ⟨_, e2, rfl⟩ := signatureNew_y (ε := ε) m hr hs hD.order
  obtain ⟨_, e3, rfl⟩ := signatureNew_y (ε := ε) m hr hs' hD.order
  rw [e1] at hpk
  injection hpk with hpk
  subst hpk
  rcases ho with ⟨hval, ho⟩ | ⟨-, ho⟩
  case inr => cases ho
  injection ho with ho
  subst ho
  by_cases c1 : 0 < r₀ ∧ r₀ < Secp256k1.n ∧ 0 < s₀ ∧ s₀ < Secp256k1.n
  case neg => rw [e2, if_neg c1] at hsig; cases hsig
  by_cases c2 : 0 < r₀ ∧ r₀ < Secp256k1.n ∧ 0 < s₀' ∧ s₀' < Secp256k1.n
  case neg => rw [e3, if_neg c2] at hsig'; cases hsig'
  rw [e2, if_pos c1] at hsig
  rw [e3, if_pos c2] at hsig'
  injection hsig with hsig; injection hsig with hsig
  injection hsig' with hsig'; injection hsig' with hsig'
  subst hsig hsig'
  obtain ⟨r₁, rfl⟩ := Int.eq_ofNat_of_zero_le (by omega : 0 ≤ r₀)
  obtain ⟨s₁, rfl⟩ := Int.eq_ofNat_of_zero_le (by omega : 0 ≤ s₀)
  obtain ⟨s₁', rfl⟩ := Int.eq_ofNat_of_zero_le (by omega : 0 ≤ s₀')
  have hc := C69_one_form m w cp Secp256k1.p Secp256k1.n 0 7 LCT.Secp256k1.G hD (by decide) ⟨⟨px, py⟩, cp⟩ rfl hval hash strict
    (fun _ => by decide +kernel) r₁ (by omega) {s₁, s₁'} (by
      intro t ht
      rcases Finset.mem_insert.mp ht with rfl | ht
      · exact ⟨by omega, by omega, _, rfl, hr, hs, h1⟩
      · cases Finset.mem_singleton.mp ht
        exact ⟨by omega, by omega, _, rfl, hr, hs', h2⟩)
  rw [if_pos (by omega)] at hc
  by_contra hne
  rw [Finset.card_pair (fun h => hne (by rw [h]))] at hc
  omega

/-! ## Examples

On the example curve the public key of 7 is `(44, 104)`.  The bounds are reached: with `r = 53`, for which `251 ≤ 53 + 233`, there are one
low `s`, two hashes and two keys; with `r = 8` there are two low values of `s`, four hashes and four keys. -/

/-- Verification on the example curve. -/
private def accepts (x y r s : Nat) (hash : UInt8) : Bool :=
  verifyWithOptions .debug 8 [hash] ⟨Toy.byte r, Toy.byte s, Toy.params⟩ ⟨⟨Toy.byte x, Toy.byte y⟩, Toy.params⟩ ⟨true, true⟩ = .ok true

example : 251 ≤ 53 + 233 ∧ accepts 44 104 53 1 100 ∧ accepts 44 104 53 1 90 ∧ accepts 30 212 53 1 100 ∧ ¬ accepts 44 104 53 1 101 := by decide +kernel

example : ¬ 251 ≤ 8 + 233 ∧ accepts 44 104 8 15 100 ∧ accepts 44 104 8 99 100 ∧ accepts 44 104 8 15 10 ∧ accepts 44 104 8 15 21 ∧
    accepts 44 104 8 15 111 ∧ accepts 98 191 8 15 100 ∧ accepts 45 137 8 15 100 ∧ accepts 102 162 8 15 100 := by decide +kernel

/-- The hypotheses are met by this curve and key. -/
example : Domain 8 Toy.params 251 233 4 3 Toy.G ∧ 251 ≤ 2 * 233 ∧ bitLength 233 % 8 = 0 ∧
    ValidPoint 8 233 (W := Toy.E) Toy.params.basePoint :=
  ⟨Toy.domain, by decide, by decide, Toy.G, Toy.domain.base, Toy.G_ne, Toy.G_order⟩

end LCT.Props
