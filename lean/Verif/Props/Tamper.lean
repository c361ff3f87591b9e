import Verif.Props.Nonces
import Verif.Props.Recovery
import Verif.Props.Transactions

/-!
# A signature belongs to one transaction: C79
-/

namespace LCT.Props
open LCT.BigInt LCT.Spec LCT.Spec.Eth LCT.Out LCT.Modular LCT.Curve LCT.Crypto LCT.Hash LCT.Random LCT.Ethereum
variable {ε : Type}

private theorem forall2_mem_left {α β : Type} {R : α → β → Prop} : ∀ {as : List α} {bs : List β}, List.Forall₂ R as bs → ∀ a ∈ as, ∃ b ∈ bs, R a b
  | _, _, .cons h hs, a, ha => by
    rcases List.mem_cons.mp ha with rfl | ha
    · exact ⟨_, List.mem_cons_self, h⟩
    · obtain ⟨b, hb, hr⟩ := forall2_mem_left hs a ha
      exact ⟨b, List.mem_cons_of_mem _ hb, hr⟩

section
variable (m : Build) (w : Nat) [DigitWidth w] (cp : Params) (p n : Nat) [hpr : Fact p.Prime] (a b : Int)
  (G : (curve (a : ZMod p) (b : ZMod p)).Point) (hD : Domain w cp p n a b G) (hcof : cp.cofactor = 1) (hpn : p ≤ 2 * n)
  (sig : Signature) (hp : sig.params = cp) (r s : Nat) (hr0 : 0 < r) (hrn : r < n) (hs0 : 0 < s) (hsn : s < n) (hr : Denotes w sig.r r)
  (hs : Denotes w sig.s s)
include hD hcof hpn hp hr0 hrn hs0 hsn hr hs

/-- What a recovered key says. -/
theorem recovered (hash : List UInt8) (id : RecoveryId) (o : RecoveryOptions) (h8 : o.strictHashByteLength = true → bitLength n % 8 = 0)
    (keys : List PublicKey) (hok : recoverWithOptions m w sig hash (some id) o = .ok keys) (pk : PublicKey) (hpk : pk ∈ keys) :
    ∃ Q, pk.params = cp ∧ PointDenotes w pk.data Q ∧ Q ≠ 0 ∧ n • Q = 0 ∧ EcdsaVerifies n G Q (leadingBits (bitLength n) hash) r s ∧
      IdDescribes n G Q (leadingBits (bitLength n) hash) r s id := by
  have hc32 : cp.cofactor < 2 ^ 32 := by rw [hcof]; decide
  have h := C23_errors m w cp p n a b G hD hc32 sig hp r s hr0 hrn hs0 hsn hr hs hash (some id) o h8 _ hok
  by_cases h1 : hash = []
  · rw [if_pos h1] at h; cases h
  rw [if_neg h1] at h
  by_cases h2 : o.strictHashByteLength = true ∧ hash.length * 8 ≠ bitLength n
  · rw [if_pos h2] at h; cases h
  rw [if_neg h2] at h
  by_cases h3 : leadingBits (bitLength n) hash = 0
  · rw [if_pos h3] at h; cases h
  obtain ⟨keys', e, Qs, hf, -, hmem⟩ := C23_exact m w cp p n a b G hD hc32 sig hp r s hr0 hrn hs0 hsn hr hs hash (some id) o h8 hcof hpn h1
    (fun ho => by by_contra hc; exact h2 ⟨ho, hc⟩) h3
  cases hok.symm.trans e
  obtain ⟨Q, hQ, hq1, hq2⟩ := forall2_mem_left hf pk hpk
  obtain ⟨q0, q1, q2⟩ := (hmem Q).mp hQ
  have hQn : n • Q = 0 := by
    have := hD.card_smul Q
    rwa [hcof, Nat.one_mul] at this
  exact ⟨Q, hq1, hq2, q0, hQn, q1, q2 id rfl⟩

/-- C79: if the same signature with the same recovery id gives the same public key for two hashes, then the two hashes are the same modulo the
order. -/
theorem C79_one_hash (hash hash' : List UInt8) (id : RecoveryId) (o o' : RecoveryOptions)
    (h8 : o.strictHashByteLength = true → bitLength n % 8 = 0) (h8' : o'.strictHashByteLength = true → bitLength n % 8 = 0)
    (keys keys' : List PublicKey) (hok : recoverWithOptions m w sig hash (some id) o = .ok keys)
    (hok' : recoverWithOptions m w sig hash' (some id) o' = .ok keys') (pk pk' : PublicKey) (hpk : pk ∈ keys) (hpk' : pk' ∈ keys')
    (hx : toInt w pk.data.x = toInt w pk'.data.x) (hy : toInt w pk.data.y = toInt w pk'.data.y) :
    leadingBits (bitLength n) hash % n = leadingBits (bitLength n) hash' % n := by
  have hnp : Fact n.Prime := ⟨hD.n_prime⟩
  obtain ⟨Q, -, k1, k2, k3, k4, k5⟩ := recovered m w cp p n a b G hD hcof hpn sig hp r s hr0 hrn hs0 hsn hr hs hash id o h8 keys hok pk hpk
  obtain ⟨Q', -, k1', k2', -, k4', k5'⟩ :=
    recovered m w cp p n a b G hD hcof hpn sig hp r s hr0 hrn hs0 hsn hr hs hash' id o' h8' keys' hok' pk' hpk'
  have hQ : Q = Q' := by
    obtain ⟨hx1, hy1⟩ := point_x k1
    obtain ⟨hx2, hy2⟩ := point_x k1'
    rw [hx1.2, hx2.2] at hx
    rw [hy1.2, hy2.2] at hy
    exact point_ext k2 k2' (by exact_mod_cast hx) (by exact_mod_cast hy)
  subst hQ
  have hR : verifierPoint n G Q (leadingBits (bitLength n) hash) r s = verifierPoint n G Q (leadingBits (bitLength n) hash') r s :=
    point_unique hD hpn k4.1 k4'.1 (k4.2.trans k4'.2.symm) (k5.1.symm.trans k5'.1) (k5.2.symm.trans k5'.2)
  have zs := cast_ne_zero_of_lt hs0 hsn
  have g1 := smul_verifierPoint (e := leadingBits (bitLength n) hash) (r := r) hD.G_order k3 zs
  have g2 := smul_verifierPoint (e := leadingBits (bitLength n) hash') (r := r) hD.G_order k3 zs
  rw [hR] at g1
  exact (ZMod.natCast_eq_natCast_iff' _ _ n).mp (smul_inj hD.G_ne hD.G_order (add_right_cancel (g1.symm.trans g2)))

end

/-- The coordinates of the keys recovered on the example curve from `(r, s)`, a hash of one byte and a recovery id. -/
private def toyRecovered (r s : Nat) (hash : UInt8) (id : RecoveryId) : Out RecoveryError (List (Int × Int)) :=
  (recoverWithOptions .debug 8 ⟨Toy.byte r, Toy.byte s, Toy.params⟩ [hash] (some id) ⟨true⟩).bind fun keys =>
    .ok (keys.map fun k => (toInt 8 k.data.x, toInt 8 k.data.y))

/-- The hypotheses are met by the hashes 10 and 243 = 10 + 233, which give the same key; the hash 11 gives another. -/
example : toyRecovered 53 1 10 .LowXOddY = .ok [(90, 220)] ∧ toyRecovered 53 1 243 .LowXOddY = .ok [(90, 220)] ∧
    toyRecovered 53 1 11 .LowXOddY ≠ .ok [(90, 220)] ∧ 243 = 10 + 233 := by decide +kernel

/-- The hypotheses about the curve are met. -/
example : Domain 8 Toy.params 251 233 4 3 Toy.G ∧ Toy.params.cofactor = 1 ∧ 251 ≤ 2 * 233 ∧ bitLength 233 % 8 = 0 :=
  ⟨Toy.domain, rfl, by decide, by decide +kernel⟩

/-- Two public keys, different as numbers, whose Keccak-256 hashes end in different states and agree in the 160 bits that make the address. -/
def AddressCollision (w : Nat) (pk pk' : PublicKey) : Prop :=
  ∃ x y x' y' : Nat, Denotes w pk.data.x x ∧ Denotes w pk.data.y y ∧ Denotes w pk'.data.x x' ∧ Denotes w pk'.data.y y' ∧ (x, y) ≠ (x', y') ∧
    Sha3.after 1088 (Sha3.blocksOf 1088 [] (octets 32 x ++ octets 32 y)) ≠ Sha3.after 1088 (Sha3.blocksOf 1088 [] (octets 32 x' ++ octets 32 y')) ∧
    addressOf Sha3.keccak256 x y = addressOf Sha3.keccak256 x' y'

/-- C79: if the same signature with the same recovery id, attached to two different transactions of any kinds, gives the same sender, then
Keccak-256 collides on the preimages, or their hashes, as numbers, differ by exactly the order, or Keccak-256 collides on two public keys. -/
theorem C79_transactions (m : Build) (w : Nat) [DigitWidth w] : ∃ cp, (secp256k1 w : Out ε _) = .ok cp ∧
    ∀ (xr xs : BInt) (r s : Int), Denotes w xr r → Denotes w xs s → ∀ sig, (Signature.new m w xr xs cp : Out ε _) = .ok (some sig) →
    ∀ (P Q : Payload), P.preimage.length < 2 ^ 64 → P ≠ Q →
    ∀ (id : RecoveryId) (o o' : RecoveryOptions) (keys keys' : List PublicKey),
      recoverWithOptions m w sig (Sha3.keccak256 P.preimage) (some id) o = .ok keys →
      recoverWithOptions m w sig (Sha3.keccak256 Q.preimage) (some id) o' = .ok keys' →
    ∀ pk ∈ keys, ∀ pk' ∈ keys', ∃ sender sender', (EoaPublicKey.address m w pk : Out ε _) = .ok sender ∧
      (EoaPublicKey.address m w pk' : Out ε _) = .ok sender' ∧ (sender.data = sender'.data →
        (Sha3.OutputCollides 1088 [] 256 P.preimage Q.preimage ∨ Sha3.InnerCollides 1088 [] P.preimage Q.preimage) ∨
        (ofBE (Sha3.keccak256 P.preimage) + Secp256k1.n = ofBE (Sha3.keccak256 Q.preimage) ∨
          ofBE (Sha3.keccak256 Q.preimage) + Secp256k1.n = ofBE (Sha3.keccak256 P.preimage)) ∨
        AddressCollision w pk pk') := by
  obtain ⟨cp, e, hD, hcof⟩ := secp256k1_y (ε := ε) w
  refine ⟨cp, e, ?_⟩
  intro xr xs r s hr hs sig hsig P Q hP hne id o o' keys keys' hok hok' pk hpk pk' hpk'
  obtain ⟨_, e2, rfl⟩ := signatureNew_y (ε := ε) m hr hs hD.order
  by_cases c1 : 0 < r ∧ r < Secp256k1.n ∧ 0 < s ∧ s < Secp256k1.n
  case neg => rw [e2, if_neg c1] at hsig; cases hsig
  rw [e2, if_pos c1] at hsig
  injection hsig with hsig; injection hsig with hsig
  subst hsig
  obtain ⟨r₁, rfl⟩ := Int.eq_ofNat_of_zero_le (by omega : 0 ≤ r)
  obtain ⟨s₁, rfl⟩ := Int.eq_ofNat_of_zero_le (by omega : 0 ≤ s)
  have hbl : bitLength Secp256k1.n % 8 = 0 := by rw [bitLength_n]
  obtain ⟨A, k0, k1, k2, -, -, -⟩ := recovered m w cp Secp256k1.p Secp256k1.n 0 7 LCT.Secp256k1.G hD hcof (by decide) ⟨xr, xs, cp⟩ rfl r₁ s₁
    (by omega) (by omega) (by omega) (by omega) hr hs _ id o (fun _ => hbl) keys hok pk hpk
  obtain ⟨B, k0', k1', k2', -, -, -⟩ := recovered m w cp Secp256k1.p Secp256k1.n 0 7 LCT.Secp256k1.G hD hcof (by decide) ⟨xr, xs, cp⟩ rfl r₁ s₁
    (by omega) (by omega) (by omega) (by omega) hr hs _ id o' (fun _ => hbl) keys' hok' pk' hpk'
  obtain ⟨hx, hy⟩ := point_x k1
  obtain ⟨hx', hy'⟩ := point_x k1'
  have h256 : Secp256k1.p < 256 ^ 32 := by decide +kernel
  have l1 := coord_lt A
  have l2 := coord_lt B
  obtain ⟨u, eu, hu⟩ := address_y (ε := ε) m (pk := pk) (by rw [k0]; exact hD.order) bitLength_n hx hy (by omega) (by omega)
  obtain ⟨v, ev, hv⟩ := address_y (ε := ε) m (pk := pk') (by rw [k0']; exact hD.order) bitLength_n hx' hy' (by omega) (by omega)
  refine ⟨u, v, eu, ev, fun huv => ?_⟩
  rw [hu, hv] at huv
  by_cases hxy : (xCoord A, yCoord A) = (xCoord B, yCoord B)
  case neg =>
    refine .inr (.inr ⟨_, _, _, _, hx, hy, hx', hy', hxy, ?_, huv⟩)
    refine C74_keccak256_short _ _ (by simp [octets_length]) (by simp [octets_length]) ?_
    intro hc
    obtain ⟨c1, c2⟩ := List.append_inj hc (by simp [octets_length])
    exact hxy (by rw [octets_inj (by omega) (by omega) c1, octets_inj (by omega) (by omega) c2])
  obtain ⟨x1, y1⟩ := Prod.mk.inj hxy
  have hmod := C79_one_hash m w cp Secp256k1.p Secp256k1.n 0 7 LCT.Secp256k1.G hD hcof (by decide) ⟨xr, xs, cp⟩ rfl r₁ s₁
    (by omega) (by omega) (by omega) (by omega) hr hs _ _ id o o' (fun _ => hbl) (fun _ => hbl) keys keys' hok hok' pk pk' hpk hpk'
    (by rw [hx.2, hx'.2, x1]) (by rw [hy.2, hy'.2, y1])
  have hlead : ∀ msg, leadingBits (bitLength Secp256k1.n) (Sha3.keccak256 msg) = ofBE (Sha3.keccak256 msg) := by
    intro msg
    unfold leadingBits
    rw [bitLength_n, keccak_length, show 32 * 8 - 256 = 0 from rfl, Nat.pow_zero, Nat.div_one]
  have hlt : ∀ msg, ofBE (Sha3.keccak256 msg) < 2 * Secp256k1.n := by
    intro msg
    have h1 := ofBE_lt (Sha3.keccak256 msg)
    rw [keccak_length] at h1
    have h2 : 256 ^ 32 < 2 * Secp256k1.n := by decide +kernel
    omega
  rw [hlead, hlead] at hmod
  by_cases heq : ofBE (Sha3.keccak256 P.preimage) = ofBE (Sha3.keccak256 Q.preimage)
  · left
    have hd := ofBE_inj_of_length (by rw [keccak_length, keccak_length]) heq
    have hpre : P.preimage ≠ Q.preimage := fun h => hne (C44_injective P Q hP h)
    obtain ⟨t, e1⟩ := keccak_digest (ε := ε) m Hash.Sha3.Keccak256.fresh P.preimage
    obtain ⟨t', e2⟩ := keccak_digest (ε := ε) m Hash.Sha3.Keccak256.fresh Q.preimage
    exact C74_keccak256 (ε := ε) _ _ ⟨hpre, m, m, _, _, _, _, _, e1, by rw [hd]; exact e2⟩
  · refine .inr (.inl ?_)
    have a1 := hlt P.preimage
    have a2 := hlt Q.preimage
    generalize ofBE (Sha3.keccak256 P.preimage) = i at *
    generalize ofBE (Sha3.keccak256 Q.preimage) = j at *
    have d1 := Nat.div_add_mod i Secp256k1.n
    have d2 := Nat.div_add_mod j Secp256k1.n
    have np : 0 < Secp256k1.n := LCT.Secp256k1.prime_n.pos
    have q1 : i / Secp256k1.n < 2 := Nat.div_lt_of_lt_mul (by omega)
    have q2 : j / Secp256k1.n < 2 := Nat.div_lt_of_lt_mul (by omega)
    generalize Secp256k1.n = n at *
    generalize i / n = qi at *
    generalize j / n = qj at *
    have : qi = 0 ∨ qi = 1 := by omega
    have : qj = 0 ∨ qj = 1 := by omega
    rcases ‹qi = 0 ∨ qi = 1› with rfl | rfl <;> rcases ‹qj = 0 ∨ qj = 1› with rfl | rfl <;> simp only [Nat.mul_zero, Nat.mul_one, Nat.zero_add] at d1 d2 <;> omega

end LCT.Props
