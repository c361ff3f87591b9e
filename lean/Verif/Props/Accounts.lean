import Verif.Lemmas.Ethereum.Transaction
import Verif.Lemmas.Ethereum.Address
import Verif.Lemmas.Crypto.Encoding
import Verif.Lemmas.Hash.Sha2
import Verif.Model.Ethereum.Account
import Verif.Props.Recovery
import Mathlib.GroupTheory.SpecificGroups.Cyclic.Basic

/-!
# Accounts and signed transactions: C43, C47

`Secp256k1.G` is the base point (of the curve over the integers modulo `p`, a group of prime order `n`), `d • G` the public key of the secret
`d`.
-/

namespace LCT.Props
open LCT.BigInt LCT.Rlp LCT.Spec LCT.Spec.Eth LCT.Out LCT.Modular LCT.Curve LCT.Crypto LCT.Hash LCT.Random LCT.Ethereum
variable {ε : Type}

instance : Fact (Nat.Prime Secp256k1.p) := ⟨LCT.Secp256k1.prime_p⟩
instance : Fact (Nat.Prime Secp256k1.n) := ⟨LCT.Secp256k1.prime_n⟩

theorem bitLength_n : bitLength Secp256k1.n = 256 := by decide +kernel

theorem coord_lt {W : WeierstrassCurve.Affine (ZMod Secp256k1.p)} (P : W.Point) : xCoord P < Secp256k1.p ∧ yCoord P < Secp256k1.p := by
  cases P with
  | zero => exact ⟨LCT.Secp256k1.prime_p.pos, LCT.Secp256k1.prime_p.pos⟩
  | some x y h => exact ⟨ZMod.val_lt x, ZMod.val_lt y⟩

theorem pointToBytes_y (m : Build) {w : Nat} [DigitWidth w] {cp : Params} {n x y : Nat} {pt : Point} (hn : Denotes w cp.order n)
    (hx : Denotes w pt.x x) (hy : Denotes w pt.y y) (hxl : x < 256 ^ ((bitLength n + 7) / 8)) (hyl : y < 256 ^ ((bitLength n + 7) / 8)) :
    (cp.pointToBytes m w pt : Out ε _).Yields (· = octets ((bitLength n + 7) / 8) x ++ octets ((bitLength n + 7) / 8) y) := by
  unfold Params.pointToBytes
  run (byteLen_y m hn) with _ rfl
  run (toBeBytes_y m hx) with _ rfl
  simp only [Int.natAbs_natCast]
  run (leftPad_y hxl) with _ rfl
  run (toBeBytes_y m hy) with _ rfl
  simp only [Int.natAbs_natCast]
  run (leftPad_y hyl) with _ rfl
  exact .pure rfl

/-! ## C47 -/

/-- C47: a private key is made of 32 bytes exactly if the number they are lies strictly between 0 and the order of the group; no panic. -/
theorem C47_private_key (m : Build) (w : Nat) [DigitWidth w] (data : List UInt8) (len : data.length = 32) :
    ∃ k, (EoaPrivateKey.new m w data len : Out ε _) = .ok k ∧
      (k.isSome ↔ 0 < ofBE data ∧ ofBE data < Secp256k1.n) ∧
      ∀ key, k = some key → Denotes w key.data (ofBE data : Nat) ∧ (secp256k1 w : Out ε _) = .ok key.params := by
  obtain ⟨d, e1, hd⟩ := fromBeBytes_y (ε := ε) w data (by rintro rfl; cases len)
  obtain ⟨cp, e2, hD, -⟩ := secp256k1_y (ε := ε) w
  obtain ⟨_, e3, rfl⟩ := privateKeyNew_y (ε := ε) m hd hD.order
  refine ⟨_, by rw [EoaPrivateKey.new, e1, bind_ok, e2, bind_ok]; exact e3, ?_, ?_⟩
  · split
    · rename_i h; simp only [Option.isSome_some, true_iff]; omega
    · rename_i h; simp only [Option.isSome_none, Bool.false_eq_true, false_iff]; omega
  · intro key hk
    split at hk
    · cases hk; exact ⟨hd, e2⟩
    · cases hk

/-- The address of a public key whose coordinates fit into 32 bytes. -/
theorem address_y (m : Build) {w : Nat} [DigitWidth w] {pk : PublicKey} {n x y : Nat} (hn : Denotes w pk.params.order n)
    (h256 : bitLength n = 256) (hx : Denotes w pk.data.x x) (hy : Denotes w pk.data.y y) (hxl : x < 256 ^ 32) (hyl : y < 256 ^ 32) :
    ∃ a, (EoaPublicKey.address m w pk : Out ε _) = .ok a ∧ a.data = addressOf Sha3.keccak256 x y := by
  have hb := pointToBytes_y (ε := ε) m hn hx hy (by rw [h256]; exact hxl) (by rw [h256]; exact hyl)
  rw [h256, show (256 + 7) / 8 = 32 from rfl] at hb
  unfold addressOf
  generalize octets 32 x ++ octets 32 y = msg at hb ⊢
  obtain ⟨msg, eb, rfl⟩ := hb
  obtain ⟨st, eh⟩ := keccak_digest (ε := ε) m Hash.Sha3.Keccak256.fresh msg
  have hl := keccak_length msg
  have hl2 : ((Sha3.keccak256 msg).drop 12).length = 20 := by rw [List.length_drop, hl]
  generalize Sha3.keccak256 msg = hash at eh hl hl2 ⊢
  refine ⟨⟨_, hl2⟩, ?_, rfl⟩
  rw [EoaPublicKey.address, eb, bind_ok, eh, bind_ok]
  simp only [hl]
  rw [show (rassert (decide (12 ≤ 32)) : Out ε Unit) = .ok () from rfl, bind_ok, Address.fromBytes, dif_pos hl2]
  rfl

/-- C47: the address of the account of a private key is made of the coordinates of `d • G`; no panic, whatever the coordinates. -/
theorem C47_address (m : Build) (w : Nat) [DigitWidth w] (data : List UInt8) (len : data.length = 32) (key : PrivateKey)
    (hk : (EoaPrivateKey.new m w data len : Out ε _) = .ok (some key)) :
    ∃ pk a, (EoaPrivateKey.publicKey m w key : Out ε _) = .ok pk ∧ (EoaPublicKey.address m w pk : Out ε _) = .ok a ∧
      a.data = addressOf Sha3.keccak256 (xCoord (ofBE data • LCT.Secp256k1.G)) (yCoord (ofBE data • LCT.Secp256k1.G)) := by
  obtain ⟨k, e, hsome, hkey⟩ := C47_private_key (ε := ε) m w data len
  rw [e] at hk
  injection hk with hk
  obtain ⟨hd, hcp⟩ := hkey key hk
  obtain ⟨h0, hn⟩ := hsome.mp (by rw [hk]; rfl)
  obtain ⟨cp, e2, hD, -⟩ := secp256k1_y (ε := ε) w
  rw [e2] at hcp
  injection hcp with hcp
  obtain ⟨pk, e3, hp, hq⟩ := publicKey_y (ε := ε) m hD hcp.symm hd (cast_ne_zero_of_lt h0 hn)
  obtain ⟨hx, hy⟩ := point_x hq
  have h256 : Secp256k1.p < 256 ^ 32 := by decide +kernel
  have hlt := coord_lt (ofBE data • LCT.Secp256k1.G)
  obtain ⟨a, e4, ha⟩ := address_y (ε := ε) m (pk := pk) (by rw [hp]; exact hD.order) bitLength_n hx hy (Nat.lt_trans hlt.1 h256)
    (Nat.lt_trans hlt.2 h256)
  exact ⟨pk, a, e3, e4, ha⟩

/-! The key 1 has the base point as public key; it is accepted. -/

example : ∃ key, (EoaPrivateKey.new .debug 64 (List.replicate 31 0 ++ [1]) rfl : Out Unit _) = .ok (some key) := by
  obtain ⟨k, e, h, -⟩ := C47_private_key (ε := Unit) .debug 64 (List.replicate 31 0 ++ [1]) rfl
  have : k.isSome := h.mpr ⟨by decide +kernel, by decide +kernel⟩
  obtain ⟨key, rfl⟩ := Option.isSome_iff_exists.mp this
  exact ⟨key, e⟩

/-! ## C43 -/

/-- The numbers `r`, `s` and the parity bit form an ECDSA signature on secp256k1 of the number `e` for the public key `d • G`: the verification
equation holds, and `parity` is that of the ordinate of the point which the verifier computes. -/
def SignedBy (d e r s parity : Nat) : Prop :=
  0 < r ∧ r < Secp256k1.n ∧ 0 < s ∧ s < Secp256k1.n ∧ EcdsaVerifies Secp256k1.n LCT.Secp256k1.G (d • LCT.Secp256k1.G) e r s ∧
  parity = yCoord (((e : ZMod Secp256k1.n) * (s : ZMod Secp256k1.n)⁻¹).val • LCT.Secp256k1.G +
    ((r : ZMod Secp256k1.n) * (s : ZMod Secp256k1.n)⁻¹).val • d • LCT.Secp256k1.G) % 2

theorem fromBigint_nat {w : Nat} {x : BInt} {r : Nat} (h : Denotes w x r) (h0 : 0 < r) : BUint.fromBigint x = some x := by
  rw [BUint.fromBigint, if_neg]
  intro hn
  have hs : x.sign = .negative := by simpa [BInt.isSignNegative] using hn
  have := h.2
  unfold toInt at this
  rw [hs] at this
  simp only at this
  omega

theorem parity_of {id : RecoveryId} {y : Nat} (h : idOdd id = decide (y % 2 = 1)) : id.yParity.toU8.toNat = y % 2 := by
  cases id <;> simp only [idOdd, eq_comm (a := false), eq_comm (a := true), decide_eq_true_eq, decide_eq_false_iff_not] at h
  · show 0 = _; omega
  · show 1 = _; omega
  · show 0 = _; omega
  · show 1 = _; omega

section
variable (m : Build) (w : Nat) [DigitWidth w] (d : Nat) (hd0 : 0 < d) (hdn : d < Secp256k1.n) (key : PrivateKey)
  (hkey : (secp256k1 w : Out Unit _) = .ok key.params) (hd : Denotes w key.data d) (o : SigningOptions)
  (rand : Nat → Out RandomError (List UInt8)) (hrand : ∀ i bytes, rand i = .ok bytes → bytes.length = 32) (fuel nonceFuel : Nat)
include hd0 hdn hkey hd hrand

/-- Signatures of 32-byte hashes with the default nonce generator. -/
theorem signDefault_ok (hash : List UInt8) (hh : hash.length = 32) (sig : Signature) (id : RecoveryId)
    (hok : signDefault m w fuel nonceFuel rand hash key o = .ok (sig, id)) :
    ∃ r s : Nat, Denotes w sig.r r ∧ Denotes w sig.s s ∧ SignedBy d (ofBE hash) r s id.yParity.toU8.toNat ∧
      (o.enforceLowS = true → s ≤ Secp256k1.n / 2) ∧ (o.isZeroHashAllowed = false → ofBE hash ≠ 0) := by
  obtain ⟨cp, e, hD, hcof⟩ := secp256k1_y (ε := Unit) w
  rw [e] at hkey
  injection hkey with hkey
  have hlead : leadingBits (bitLength Secp256k1.n) hash = ofBE hash := by
    unfold leadingBits
    rw [bitLength_n, hh, show 32 * 8 - 256 = 0 from rfl, Nat.pow_zero, Nat.div_one]
  have hl : ∀ i bytes, Drawn o.employExtraRandomData (rand i) bytes →
      Sha2.Sha256.blockLen + Sha2.Sha256.outLen + 1 + 2 * ((bitLength Secp256k1.n + 7) / 8) + bytes.length < 2 ^ 61 := by
    intro i bytes hb
    unfold Drawn at hb
    rw [bitLength_n]
    have : bytes.length ≤ 32 := by
      split at hb
      · rw [hrand i bytes hb]
      · rw [hb]; exact Nat.zero_le _
    show 64 + 32 + 1 + _ + _ < _
    omega
  obtain ⟨-, r, s, -, hr, hs, hr0, hrn, hs0, hsn, hlow, hver, hid⟩ := signed m w cp Secp256k1.p Secp256k1.n 0 7 LCT.Secp256k1.G hD
    Sha2.Sha256 Sha2.sha256 (2 ^ 61) Hash.Sha2.computes256 (by decide) (by decide) d hd0 hdn key hkey.symm hd hash o
    (fun _ => by rw [bitLength_n]) rand hl fuel nonceFuel _ sig id hok
  obtain ⟨-, -, hz, -⟩ := sign_ok m w cp Secp256k1.p Secp256k1.n 0 7 LCT.Secp256k1.G hD
    Sha2.Sha256 Sha2.sha256 (2 ^ 61) Hash.Sha2.computes256 (by decide) (by decide) d hd0 hdn key hkey.symm hd hash o
    (fun _ => by rw [bitLength_n]) rand hl fuel nonceFuel _ sig id hok
  rw [hlead] at hver hid hz
  exact ⟨r, s, hr, hs, ⟨hr0, hrn, hs0, hsn, hver, parity_of hid.2⟩, hlow, hz⟩

/-- The two numbers of a signature are not negative, so they can be turned into `BigUint`s. -/
theorem signDefault_unsigned (hash : List UInt8) (hh : hash.length = 32) (sig : Signature) (id : RecoveryId)
    (hok : signDefault m w fuel nonceFuel rand hash key o = .ok (sig, id)) :
    BUint.fromBigint sig.r = some sig.r ∧ BUint.fromBigint sig.s = some sig.s := by
  obtain ⟨r, s, hr, hs, ⟨hr0, -, hs0, -⟩, -⟩ := signDefault_ok m w d hd0 hdn key hkey hd o rand hrand fuel nonceFuel hash hh sig id hok
  exact ⟨fromBigint_nat hr hr0, fromBigint_nat hs hs0⟩

theorem signDefault_no_panic (hp : ∀ i, rand i ≠ .panic) (hash : List UInt8) :
    signDefault m w fuel nonceFuel rand hash key o ≠ .panic := by
  obtain ⟨cp, e, hD, hcof⟩ := secp256k1_y (ε := Unit) w
  rw [e] at hkey
  injection hkey with hkey
  have hl : ∀ i bytes, Drawn o.employExtraRandomData (rand i) bytes →
      Sha2.Sha256.blockLen + Sha2.Sha256.outLen + 1 + 2 * ((bitLength Secp256k1.n + 7) / 8) + bytes.length < 2 ^ 61 := by
    intro i bytes hb
    unfold Drawn at hb
    rw [bitLength_n]
    have : bytes.length ≤ 32 := by
      split at hb
      · rw [hrand i bytes hb]
      · rw [hb]; exact Nat.zero_le _
    show 64 + 32 + 1 + _ + _ < _
    omega
  exact C27_no_panic m w cp Secp256k1.p Secp256k1.n 0 7 LCT.Secp256k1.G hD
    Sha2.Sha256 Sha2.sha256 (2 ^ 61) Hash.Sha2.computes256 (by decide) (by decide) d hd0 hdn key hkey.symm hd hash o
    (fun _ => by rw [bitLength_n]) rand hl hp fuel nonceFuel _

/-- C43, Legacy: signing a payload is signing the Keccak-256 hash of its preimage; errors are passed on and nothing panics. -/
theorem C43_legacy_outcome (x : PayloadLegacy) (t : Legacy) (hx : LegacyOf w x t) (hl : (Payload.legacy t).preimage.length < 2 ^ 64)
    (hpanic : ∀ i, rand i ≠ .panic) :
    match signDefault m w fuel nonceFuel rand (Sha3.keccak256 (Payload.legacy t).preimage) key o with
    | .ok (sig, id) => ∃ y, x.sign m w fuel nonceFuel rand key o = .ok y ∧ y.payload = x ∧ y.r = sig.r ∧ y.s = sig.s ∧
        y.v.toNat = 27 + id.yParity.toU8.toNat
    | .err e => x.sign m w fuel nonceFuel rand key o = .err (.SigningError e)
    | .hang => x.sign m w fuel nonceFuel rand key o = .hang
    | .panic => False := by
  have hh := keccak_length (Payload.legacy t).preimage
  have hk := keccak_eq (ε := BuildingError) m (Payload.legacy t).preimage
  have he : (encodeM (PayloadLegacy.encodeTo m w) x : Out BuildingError _) = .ok (Payload.legacy t).preimage :=
    encodeM_eq (payloadLegacy_enc m hx) hl
  generalize Sha3.keccak256 (Payload.legacy t).preimage = hash at hh hk ⊢
  cases hs : signDefault m w fuel nonceFuel rand hash key o with
  | ok v =>
    obtain ⟨sig, id⟩ := v
    obtain ⟨h1, h2⟩ := signDefault_unsigned m w d hd0 hdn key hkey hd o rand hrand fuel nonceFuel hash hh sig id hs
    refine ⟨⟨x, 27 + id.yParity.toU8, sig.r, sig.s⟩, ?_, rfl, rfl, rfl, by cases id <;> rfl⟩
    rw [PayloadLegacy.sign, he, bind_ok, hk, bind_ok, hs]
    simp only [mapErr, bind_ok, h1, h2]
    rfl
  | err e => simp only; rw [PayloadLegacy.sign, he, bind_ok, hk, bind_ok, hs]; rfl
  | panic => exact absurd hs (signDefault_no_panic m w d hd0 hdn key hkey hd o rand hrand fuel nonceFuel hpanic hash)
  | hang => simp only; rw [PayloadLegacy.sign, he, bind_ok, hk, bind_ok, hs]; rfl

/-- C43, Legacy: a signed transaction contains the payload and a signature of it for the public key of the signer; `v` is 27 or 28. -/
theorem C43_legacy (x : PayloadLegacy) (t : Legacy) (hx : LegacyOf w x t) (hl : (Payload.legacy t).preimage.length < 2 ^ 64)
    (hpanic : ∀ i, rand i ≠ .panic) (y : TransactionLegacy) (hy : x.sign m w fuel nonceFuel rand key o = .ok y) :
    y.payload = x ∧ ∃ r s parity : Nat, Denotes w y.r r ∧ Denotes w y.s s ∧ parity ≤ 1 ∧ y.v.toNat = 27 + parity ∧
      SignedBy d (ofBE (Sha3.keccak256 (Payload.legacy t).preimage)) r s parity ∧ (o.enforceLowS = true → s ≤ Secp256k1.n / 2) ∧
      (o.isZeroHashAllowed = false → ofBE (Sha3.keccak256 (Payload.legacy t).preimage) ≠ 0) := by
  have h := C43_legacy_outcome m w d hd0 hdn key hkey hd o rand hrand fuel nonceFuel x t hx hl hpanic
  have hh := keccak_length (Payload.legacy t).preimage
  generalize Sha3.keccak256 (Payload.legacy t).preimage = hash at hh h ⊢
  cases hs : signDefault m w fuel nonceFuel rand hash key o with
  | ok v =>
    obtain ⟨sig, id⟩ := v
    rw [hs] at h
    obtain ⟨y', e, h1, h2, h3, h4⟩ := h
    rw [hy] at e
    injection e with e
    subst e
    obtain ⟨r, s, hr, hs', hsig⟩ := signDefault_ok m w d hd0 hdn key hkey hd o rand hrand fuel nonceFuel hash hh sig id hs
    refine ⟨h1, r, s, id.yParity.toU8.toNat, h2 ▸ hr, h3 ▸ hs', by cases id <;> decide, h4, hsig⟩
  | err e => rw [hs] at h; simp only at h; rw [hy] at h; cases h
  | panic => rw [hs] at h; exact h.elim
  | hang => rw [hs] at h; simp only at h; rw [hy] at h; cases h

/-- C43, Eip155: signing a payload is signing the Keccak-256 hash of its preimage; errors are passed on and nothing panics. -/
theorem C43_eip155_outcome (x : PayloadEip155) (t : Eip155) (hx : Eip155Of w x t) (hl : (Payload.eip155 t).preimage.length < 2 ^ 64)
    (hpanic : ∀ i, rand i ≠ .panic) :
    match signDefault m w fuel nonceFuel rand (Sha3.keccak256 (Payload.eip155 t).preimage) key o with
    | .ok (sig, id) => ∃ y, x.sign m w fuel nonceFuel rand key o = .ok y ∧ y.payload = x ∧ y.r = sig.r ∧ y.s = sig.s ∧
        Denotes w y.v (35 + 2 * t.chainId + id.yParity.toU8.toNat : Nat)
    | .err e => x.sign m w fuel nonceFuel rand key o = .err (.SigningError e)
    | .hang => x.sign m w fuel nonceFuel rand key o = .hang
    | .panic => False := by
  have hh := keccak_length (Payload.eip155 t).preimage
  have hk := keccak_eq (ε := BuildingError) m (Payload.eip155 t).preimage
  have he : (encodeM (PayloadEip155.encodeTo m w) x : Out BuildingError _) = .ok (Payload.eip155 t).preimage :=
    encodeM_eq (payloadEip155_enc m hx) hl
  generalize Sha3.keccak256 (Payload.eip155 t).preimage = hash at hh hk ⊢
  cases hs : signDefault m w fuel nonceFuel rand hash key o with
  | ok v =>
    obtain ⟨sig, id⟩ := v
    obtain ⟨h1, h2⟩ := signDefault_unsigned m w d hd0 hdn key hkey hd o rand hrand fuel nonceFuel hash hh sig id hs
    have hv : (do
        let parity ← BUint.ofNat w id.yParity.toU8.toNat
        let two ← BUint.ofNat w 2
        let c ← BInt.mul m w x.chainId two
        let v ← BInt.add m w parity c
        let n35 ← BUint.ofNat w 35
        let v ← BInt.add m w v n35
        return (⟨x, v, sig.r, sig.s⟩ : TransactionEip155) : Out BuildingError _).Yields fun y => y.payload = x ∧ y.r = sig.r ∧ y.s = sig.s ∧
          Denotes w y.v (35 + 2 * t.chainId + id.yParity.toU8.toNat : Nat) := by
      have hp : id.yParity.toU8.toNat < 2 ^ 128 := by have := id.yParity.toU8.toNat_lt; omega
      run (ofNat_u hp) with parity hparity
      run (ofNat_u (k := 2) (by decide)) with two htwo
      run (mul_y m hx.chainId htwo) with c hc
      run (add_y m hparity hc) with v hv
      run (ofNat_u (k := 35) (by decide)) with n35 hn35
      run (add_y m hv hn35) with v' hv'
      refine .pure ⟨rfl, rfl, rfl, ?_⟩
      have e : ((id.yParity.toU8.toNat : Int) + (t.chainId : Int) * ((2 : Nat) : Int)) + ((35 : Nat) : Int) =
        ((35 + 2 * t.chainId + id.yParity.toU8.toNat : Nat) : Int) := by omega
      rwa [e] at hv'
    obtain ⟨y, e, hy⟩ := hv
    refine ⟨y, ?_, hy⟩
    rw [PayloadEip155.sign, he, bind_ok, hk, bind_ok, hs]
    simp only [mapErr, bind_ok, h1, h2, unwrap]
    exact e
  | err e => simp only; rw [PayloadEip155.sign, he, bind_ok, hk, bind_ok, hs]; rfl
  | panic => exact absurd hs (signDefault_no_panic m w d hd0 hdn key hkey hd o rand hrand fuel nonceFuel hpanic hash)
  | hang => simp only; rw [PayloadEip155.sign, he, bind_ok, hk, bind_ok, hs]; rfl

/-- C43, Eip155: a signed transaction contains the payload and a signature of it for the public key of the signer; `v` is 35 or 36 plus twice the chain id. -/
theorem C43_eip155 (x : PayloadEip155) (t : Eip155) (hx : Eip155Of w x t) (hl : (Payload.eip155 t).preimage.length < 2 ^ 64)
    (hpanic : ∀ i, rand i ≠ .panic) (y : TransactionEip155) (hy : x.sign m w fuel nonceFuel rand key o = .ok y) :
    y.payload = x ∧ ∃ r s parity : Nat, Denotes w y.r r ∧ Denotes w y.s s ∧ parity ≤ 1 ∧ Denotes w y.v (35 + 2 * t.chainId + parity : Nat) ∧
      SignedBy d (ofBE (Sha3.keccak256 (Payload.eip155 t).preimage)) r s parity ∧ (o.enforceLowS = true → s ≤ Secp256k1.n / 2) ∧
      (o.isZeroHashAllowed = false → ofBE (Sha3.keccak256 (Payload.eip155 t).preimage) ≠ 0) := by
  have h := C43_eip155_outcome m w d hd0 hdn key hkey hd o rand hrand fuel nonceFuel x t hx hl hpanic
  have hh := keccak_length (Payload.eip155 t).preimage
  generalize Sha3.keccak256 (Payload.eip155 t).preimage = hash at hh h ⊢
  cases hs : signDefault m w fuel nonceFuel rand hash key o with
  | ok v =>
    obtain ⟨sig, id⟩ := v
    rw [hs] at h
    obtain ⟨y', e, h1, h2, h3, h4⟩ := h
    rw [hy] at e
    injection e with e
    subst e
    obtain ⟨r, s, hr, hs', hsig⟩ := signDefault_ok m w d hd0 hdn key hkey hd o rand hrand fuel nonceFuel hash hh sig id hs
    refine ⟨h1, r, s, id.yParity.toU8.toNat, h2 ▸ hr, h3 ▸ hs', by cases id <;> decide, h4, hsig⟩
  | err e => rw [hs] at h; simp only at h; rw [hy] at h; cases h
  | panic => rw [hs] at h; exact h.elim
  | hang => rw [hs] at h; simp only at h; rw [hy] at h; cases h

/-- C43, Eip2930: signing a payload is signing the Keccak-256 hash of its preimage; errors are passed on and nothing panics. -/
theorem C43_eip2930_outcome (x : PayloadEip2930) (t : Eip2930) (hx : Eip2930Of w x t) (hl : (Payload.eip2930 t).preimage.length < 2 ^ 64)
    (hpanic : ∀ i, rand i ≠ .panic) :
    match signDefault m w fuel nonceFuel rand (Sha3.keccak256 (Payload.eip2930 t).preimage) key o with
    | .ok (sig, id) => ∃ y, x.sign m w fuel nonceFuel rand key o = .ok y ∧ y.payload = x ∧ y.r = sig.r ∧ y.s = sig.s ∧
        y.yParity = id.yParity
    | .err e => x.sign m w fuel nonceFuel rand key o = .err (.SigningError e)
    | .hang => x.sign m w fuel nonceFuel rand key o = .hang
    | .panic => False := by
  have hh := keccak_length (Payload.eip2930 t).preimage
  have hk := keccak_eq (ε := BuildingError) m (Payload.eip2930 t).preimage
  have he : (encodeM (PayloadEip2930.encodeTo m w) x : Out BuildingError _) = .ok (rlp (.list t.fields)) :=
    encodeM_eq (payloadEip2930_enc m hx) (by simp only [Payload.preimage, List.length_cons] at hl; omega)
  have hcons : TransactionEip2930.transactionType :: rlp (.list t.fields) = (Payload.eip2930 t).preimage := rfl
  generalize Sha3.keccak256 (Payload.eip2930 t).preimage = hash at hh hk ⊢
  cases hs : signDefault m w fuel nonceFuel rand hash key o with
  | ok v =>
    obtain ⟨sig, id⟩ := v
    obtain ⟨h1, h2⟩ := signDefault_unsigned m w d hd0 hdn key hkey hd o rand hrand fuel nonceFuel hash hh sig id hs
    refine ⟨⟨x, id.yParity, sig.r, sig.s⟩, ?_, rfl, rfl, rfl, rfl⟩
    rw [PayloadEip2930.sign, he, bind_ok, hcons, hk, bind_ok, hs]
    simp only [mapErr, bind_ok, h1, h2]
    rfl
  | err e => simp only; rw [PayloadEip2930.sign, he, bind_ok, hcons, hk, bind_ok, hs]; rfl
  | panic => exact absurd hs (signDefault_no_panic m w d hd0 hdn key hkey hd o rand hrand fuel nonceFuel hpanic hash)
  | hang => simp only; rw [PayloadEip2930.sign, he, bind_ok, hcons, hk, bind_ok, hs]; rfl

/-- C43, Eip2930: a signed transaction contains the payload and a signature of it for the public key of the signer; the parity is kept as it is. -/
theorem C43_eip2930 (x : PayloadEip2930) (t : Eip2930) (hx : Eip2930Of w x t) (hl : (Payload.eip2930 t).preimage.length < 2 ^ 64)
    (hpanic : ∀ i, rand i ≠ .panic) (y : TransactionEip2930) (hy : x.sign m w fuel nonceFuel rand key o = .ok y) :
    y.payload = x ∧ ∃ r s parity : Nat, Denotes w y.r r ∧ Denotes w y.s s ∧ parity ≤ 1 ∧ y.yParity.toU8.toNat = parity ∧
      SignedBy d (ofBE (Sha3.keccak256 (Payload.eip2930 t).preimage)) r s parity ∧ (o.enforceLowS = true → s ≤ Secp256k1.n / 2) ∧
      (o.isZeroHashAllowed = false → ofBE (Sha3.keccak256 (Payload.eip2930 t).preimage) ≠ 0) := by
  have h := C43_eip2930_outcome m w d hd0 hdn key hkey hd o rand hrand fuel nonceFuel x t hx hl hpanic
  have hh := keccak_length (Payload.eip2930 t).preimage
  generalize Sha3.keccak256 (Payload.eip2930 t).preimage = hash at hh h ⊢
  cases hs : signDefault m w fuel nonceFuel rand hash key o with
  | ok v =>
    obtain ⟨sig, id⟩ := v
    rw [hs] at h
    obtain ⟨y', e, h1, h2, h3, h4⟩ := h
    rw [hy] at e
    injection e with e
    subst e
    obtain ⟨r, s, hr, hs', hsig⟩ := signDefault_ok m w d hd0 hdn key hkey hd o rand hrand fuel nonceFuel hash hh sig id hs
    refine ⟨h1, r, s, id.yParity.toU8.toNat, h2 ▸ hr, h3 ▸ hs', by cases id <;> decide, by rw [h4], hsig⟩
  | err e => rw [hs] at h; simp only at h; rw [hy] at h; cases h
  | panic => rw [hs] at h; exact h.elim
  | hang => rw [hs] at h; simp only at h; rw [hy] at h; cases h

/-- C43, Eip1559: signing a payload is signing the Keccak-256 hash of its preimage; errors are passed on and nothing panics. -/
theorem C43_eip1559_outcome (x : PayloadEip1559) (t : Eip1559) (hx : Eip1559Of w x t) (hl : (Payload.eip1559 t).preimage.length < 2 ^ 64)
    (hpanic : ∀ i, rand i ≠ .panic) :
    match signDefault m w fuel nonceFuel rand (Sha3.keccak256 (Payload.eip1559 t).preimage) key o with
    | .ok (sig, id) => ∃ y, x.sign m w fuel nonceFuel rand key o = .ok y ∧ y.payload = x ∧ y.r = sig.r ∧ y.s = sig.s ∧
        y.yParity = id.yParity
    | .err e => x.sign m w fuel nonceFuel rand key o = .err (.SigningError e)
    | .hang => x.sign m w fuel nonceFuel rand key o = .hang
    | .panic => False := by
  have hh := keccak_length (Payload.eip1559 t).preimage
  have hk := keccak_eq (ε := BuildingError) m (Payload.eip1559 t).preimage
  have he : (encodeM (PayloadEip1559.encodeTo m w) x : Out BuildingError _) = .ok (rlp (.list t.fields)) :=
    encodeM_eq (payloadEip1559_enc m hx) (by simp only [Payload.preimage, List.length_cons] at hl; omega)
  have hcons : TransactionEip1559.transactionType :: rlp (.list t.fields) = (Payload.eip1559 t).preimage := rfl
  generalize Sha3.keccak256 (Payload.eip1559 t).preimage = hash at hh hk ⊢
  cases hs : signDefault m w fuel nonceFuel rand hash key o with
  | ok v =>
    obtain ⟨sig, id⟩ := v
    obtain ⟨h1, h2⟩ := signDefault_unsigned m w d hd0 hdn key hkey hd o rand hrand fuel nonceFuel hash hh sig id hs
    refine ⟨⟨x, id.yParity, sig.r, sig.s⟩, ?_, rfl, rfl, rfl, rfl⟩
    rw [PayloadEip1559.sign, he, bind_ok, hcons, hk, bind_ok, hs]
    simp only [mapErr, bind_ok, h1, h2]
    rfl
  | err e => simp only; rw [PayloadEip1559.sign, he, bind_ok, hcons, hk, bind_ok, hs]; rfl
  | panic => exact absurd hs (signDefault_no_panic m w d hd0 hdn key hkey hd o rand hrand fuel nonceFuel hpanic hash)
  | hang => simp only; rw [PayloadEip1559.sign, he, bind_ok, hcons, hk, bind_ok, hs]; rfl

/-- C43, Eip1559: a signed transaction contains the payload and a signature of it for the public key of the signer; the parity is kept as it is. -/
theorem C43_eip1559 (x : PayloadEip1559) (t : Eip1559) (hx : Eip1559Of w x t) (hl : (Payload.eip1559 t).preimage.length < 2 ^ 64)
    (hpanic : ∀ i, rand i ≠ .panic) (y : TransactionEip1559) (hy : x.sign m w fuel nonceFuel rand key o = .ok y) :
    y.payload = x ∧ ∃ r s parity : Nat, Denotes w y.r r ∧ Denotes w y.s s ∧ parity ≤ 1 ∧ y.yParity.toU8.toNat = parity ∧
      SignedBy d (ofBE (Sha3.keccak256 (Payload.eip1559 t).preimage)) r s parity ∧ (o.enforceLowS = true → s ≤ Secp256k1.n / 2) ∧
      (o.isZeroHashAllowed = false → ofBE (Sha3.keccak256 (Payload.eip1559 t).preimage) ≠ 0) := by
  have h := C43_eip1559_outcome m w d hd0 hdn key hkey hd o rand hrand fuel nonceFuel x t hx hl hpanic
  have hh := keccak_length (Payload.eip1559 t).preimage
  generalize Sha3.keccak256 (Payload.eip1559 t).preimage = hash at hh h ⊢
  cases hs : signDefault m w fuel nonceFuel rand hash key o with
  | ok v =>
    obtain ⟨sig, id⟩ := v
    rw [hs] at h
    obtain ⟨y', e, h1, h2, h3, h4⟩ := h
    rw [hy] at e
    injection e with e
    subst e
    obtain ⟨r, s, hr, hs', hsig⟩ := signDefault_ok m w d hd0 hdn key hkey hd o rand hrand fuel nonceFuel hash hh sig id hs
    refine ⟨h1, r, s, id.yParity.toU8.toNat, h2 ▸ hr, h3 ▸ hs', by cases id <;> decide, by rw [h4], hsig⟩
  | err e => rw [hs] at h; simp only at h; rw [hy] at h; cases h
  | panic => rw [hs] at h; exact h.elim
  | hang => rw [hs] at h; simp only at h; rw [hy] at h; cases h

end

section
variable (m : Build) (w : Nat) [DigitWidth w] (cp : Params) (hcp : (secp256k1 w : Out Unit _) = .ok cp) (d : Nat) (hd0 : 0 < d)
  (hdn : d < Secp256k1.n) (hash : List UInt8) (hh : hash.length = 32) (hz : ofBE hash ≠ 0) (xr xs : BInt) (r s parity : Nat)
  (hr : Denotes w xr r) (hs : Denotes w xs s) (hsig : SignedBy d (ofBE hash) r s parity)
include hcp hd0 hdn hh hz hr hs hsig

/-- Recovery from the two numbers of a signature alone returns a list that contains the public key of the signer. -/
theorem recover_signed : ∃ keys, recover m w ⟨xr, xs, cp⟩ hash none = .ok keys ∧
    ∃ pk ∈ keys, pk.params = cp ∧ PointDenotes w pk.data (d • LCT.Secp256k1.G) := by
  obtain ⟨cp', e, hD, hcof⟩ := secp256k1_y (ε := Unit) w
  rw [hcp] at e
  injection e with e
  subst e
  have hlead : leadingBits (bitLength Secp256k1.n) hash = ofBE hash := by
    unfold leadingBits
    rw [bitLength_n, hh, show 32 * 8 - 256 = 0 from rfl, Nat.pow_zero, Nat.div_one]
  obtain ⟨hr0, hrn, hs0, hsn, hver, -⟩ := hsig
  exact C23_complete m w cp Secp256k1.p Secp256k1.n 0 7 LCT.Secp256k1.G hD (by rw [hcof]; decide) ⟨xr, xs, cp⟩ rfl r s hr0 hrn hs0 hsn hr hs
    hash none .default (fun _ => by rw [bitLength_n]) (Or.inl (by rw [hcof])) (by rw [hcof]; decide +kernel) (by rintro rfl; cases hh)
    (fun _ => by rw [bitLength_n, hh]) (by rw [hlead]; exact hz) _ (smul_ne_zero' hD.G_ne hD.G_order (cast_ne_zero_of_lt hd0 hdn))
    (smul_smul_zero hD.G_order d) (by rw [hlead]; exact hver) (fun _ h => by cases h)

/-- With the parity bit as recovery id it returns exactly the public key of the signer, if `r + n ≥ p`. -/
theorem recover_signed_parity (hx : Secp256k1.p ≤ r + Secp256k1.n) :
    ∃ pk, recover m w ⟨xr, xs, cp⟩ hash (RecoveryId.fromU8 (UInt8.ofNat parity)) = .ok [pk] ∧ pk.params = cp ∧
      PointDenotes w pk.data (d • LCT.Secp256k1.G) := by
  obtain ⟨cp', e, hD, hcof⟩ := secp256k1_y (ε := Unit) w
  rw [hcp] at e
  injection e with e
  subst e
  have hlead : leadingBits (bitLength Secp256k1.n) hash = ofBE hash := by
    unfold leadingBits
    rw [bitLength_n, hh, show 32 * 8 - 256 = 0 from rfl, Nat.pow_zero, Nat.div_one]
  obtain ⟨hr0, hrn, hs0, hsn, hver, hpar⟩ := hsig
  have hv2 := hver.2
  have hlow : ¬ Secp256k1.n ≤ xCoord (((ofBE hash : ZMod Secp256k1.n) * (s : ZMod Secp256k1.n)⁻¹).val • LCT.Secp256k1.G +
    ((r : ZMod Secp256k1.n) * (s : ZMod Secp256k1.n)⁻¹).val • d • LCT.Secp256k1.G) := by
    intro hc
    have h1 := (coord_lt (((ofBE hash : ZMod Secp256k1.n) * (s : ZMod Secp256k1.n)⁻¹).val • LCT.Secp256k1.G +
      ((r : ZMod Secp256k1.n) * (s : ZMod Secp256k1.n)⁻¹).val • d • LCT.Secp256k1.G)).1
    have h2 := Nat.mod_add_div (xCoord (((ofBE hash : ZMod Secp256k1.n) * (s : ZMod Secp256k1.n)⁻¹).val • LCT.Secp256k1.G +
      ((r : ZMod Secp256k1.n) * (s : ZMod Secp256k1.n)⁻¹).val • d • LCT.Secp256k1.G)) Secp256k1.n
    rw [hv2] at h2
    have h3 := Nat.div_pos hc LCT.Secp256k1.prime_n.pos
    have h4 := Nat.le_mul_of_pos_right Secp256k1.n h3
    omega
  have hid : ∃ i, RecoveryId.fromU8 (UInt8.ofNat parity) = some i ∧
      IdDescribes Secp256k1.n LCT.Secp256k1.G (d • LCT.Secp256k1.G) (ofBE hash) r s i := by
    rcases Nat.mod_two_eq_zero_or_one (yCoord (((ofBE hash : ZMod Secp256k1.n) * (s : ZMod Secp256k1.n)⁻¹).val • LCT.Secp256k1.G +
      ((r : ZMod Secp256k1.n) * (s : ZMod Secp256k1.n)⁻¹).val • d • LCT.Secp256k1.G)) with h | h
    · rw [hpar, h]
      refine ⟨.LowXEvenY, rfl, ?_, ?_⟩
      · exact (decide_eq_false hlow).symm
      · exact (decide_eq_false (by rw [h]; decide)).symm
    · rw [hpar, h]
      refine ⟨.LowXOddY, rfl, ?_, ?_⟩
      · exact (decide_eq_false hlow).symm
      · exact (decide_eq_true (by rw [h])).symm
  obtain ⟨i, hi, hid⟩ := hid
  exact C23_unique m w cp Secp256k1.p Secp256k1.n 0 7 LCT.Secp256k1.G hD (by rw [hcof]; decide) ⟨xr, xs, cp⟩ rfl r s hr0 hrn hs0 hsn hr hs
    hash _ .default (fun _ => by rw [bitLength_n]) hcof (by decide +kernel) (by rintro rfl; cases hh)
    (fun _ => by rw [bitLength_n, hh]) (by rw [hlead]; exact hz) _ (smul_ne_zero' hD.G_ne hD.G_order (cast_ne_zero_of_lt hd0 hdn))
    (by rw [hlead]; exact hver) i hi (by rw [hlead]; exact hid)

end

/-- Two public keys are the same for the code: same parameters, same coordinates. -/
def SameKey (w : Nat) (k k' : PublicKey) : Prop :=
  k.params = k'.params ∧ toInt w k.data.x = toInt w k'.data.x ∧ toInt w k.data.y = toInt w k'.data.y

section
variable (m : Build) (w : Nat) [DigitWidth w] (d : Nat) (hd0 : 0 < d) (hdn : d < Secp256k1.n) (key : PrivateKey)
  (hkey : (secp256k1 w : Out Unit _) = .ok key.params) (hd : Denotes w key.data d) (o : SigningOptions)
  (rand : Nat → Out RandomError (List UInt8)) (hrand : ∀ i bytes, rand i = .ok bytes → bytes.length = 32)
  (hpanic : ∀ i, rand i ≠ .panic) (fuel nonceFuel : Nat)
include hd0 hdn hkey hd hrand hpanic

omit hrand hpanic in
theorem sender (hash : List UInt8) (hh : hash.length = 32) (hz : ofBE hash ≠ 0) (xr xs : BInt) (r s parity : Nat) (hr : Denotes w xr r)
    (hs : Denotes w xs s) (hsig : SignedBy d (ofBE hash) r s parity) (id : Option RecoveryId)
    (hid : id = RecoveryId.fromU8 (UInt8.ofNat parity)) :
    ∃ pk, (key.publicKey m w : Out ε _) = .ok pk ∧
      (∃ keys, recover m w ⟨xr, xs, key.params⟩ hash none = .ok keys ∧ ∃ k ∈ keys, SameKey w k pk) ∧
      (Secp256k1.p ≤ toInt w xr + Secp256k1.n → ∃ k, recover m w ⟨xr, xs, key.params⟩ hash id = .ok [k] ∧ SameKey w k pk) := by
  obtain ⟨cp, e, hD, -⟩ := secp256k1_y (ε := Unit) w
  have hc : key.params = cp := by rw [e] at hkey; injection hkey with h; exact h.symm
  obtain ⟨pk, e2, hp2, hq2⟩ := publicKey_y (ε := ε) m hD hc hd (cast_ne_zero_of_lt hd0 hdn)
  obtain ⟨hx2, hy2⟩ := point_x hq2
  refine ⟨pk, e2, ?_, fun hx => ?_⟩
  · obtain ⟨keys, e3, k, hk, hkp, hkq⟩ := recover_signed m w key.params hkey d hd0 hdn hash hh hz xr xs r s parity hr hs hsig
    obtain ⟨hx, hy⟩ := point_x hkq
    exact ⟨keys, e3, k, hk, by rw [hkp, hp2, hc], hx.2.trans hx2.2.symm, hy.2.trans hy2.2.symm⟩
  · rw [hr.2] at hx
    obtain ⟨k, e3, hkp, hkq⟩ := recover_signed_parity m w key.params hkey d hd0 hdn hash hh hz xr xs r s parity hr hs hsig (by omega)
    obtain ⟨hx, hy⟩ := point_x hkq
    exact ⟨k, by rw [hid]; exact e3, by rw [hkp, hp2, hc], hx.2.trans hx2.2.symm, hy.2.trans hy2.2.symm⟩

/-- C43, Legacy: from a signed transaction the public key of the signer is recovered.  It is among the keys recovered from `r` and `s` alone; and
it is the only one recovered from `r`, `s` and the parity if `r + n ≥ p`, which fails for one in `2^128` values of `r`.  Missing: those
values; for them the property is false, see `C43_high_x_violated`. -/
theorem C43_legacy_sender_partial (x : PayloadLegacy) (t : Legacy) (hx : LegacyOf w x t) (hl : (Payload.legacy t).preimage.length < 2 ^ 64)
    (y : TransactionLegacy) (hy : x.sign m w fuel nonceFuel rand key o = .ok y)
    (hz : o.isZeroHashAllowed = false ∨ ofBE (Sha3.keccak256 (Payload.legacy t).preimage) ≠ 0) :
    ∃ pk, (key.publicKey m w : Out ε _) = .ok pk ∧
      (∃ keys, recover m w ⟨y.r, y.s, key.params⟩ (Sha3.keccak256 (Payload.legacy t).preimage) none = .ok keys ∧ ∃ k ∈ keys, SameKey w k pk) ∧
      (Secp256k1.p ≤ toInt w y.r + Secp256k1.n → ∃ k, recover m w ⟨y.r, y.s, key.params⟩ (Sha3.keccak256 (Payload.legacy t).preimage)
        (RecoveryId.fromU8 (y.v - 27)) = .ok [k] ∧ SameKey w k pk) := by
  obtain ⟨-, r, s, parity, hr, hs, hpar, hv, hsig, -, hz2⟩ :=
    C43_legacy m w d hd0 hdn key hkey hd o rand hrand fuel nonceFuel x t hx hl hpanic y hy
  have hh := keccak_length (Payload.legacy t).preimage
  generalize Sha3.keccak256 (Payload.legacy t).preimage = hash at hh hz hz2 hsig ⊢
  exact sender m w d hd0 hdn key hkey hd hash hh (hz.elim hz2 (fun h => h)) y.r y.s r s parity hr hs hsig _ (by
    congr 1
    apply UInt8.toNat_inj.mp
    rcases (show parity = 0 ∨ parity = 1 by omega) with rfl | rfl
    · have : y.v = 27 := UInt8.toNat_inj.mp hv
      rw [this]; rfl
    · have : y.v = 28 := UInt8.toNat_inj.mp hv
      rw [this]; rfl)

/-- C43, Eip155: from a signed transaction the public key of the signer is recovered.  It is among the keys recovered from `r` and `s` alone; and
it is the only one recovered from `r`, `s` and the parity if `r + n ≥ p`, which fails for one in `2^128` values of `r`.  Missing: those
values; for them the property is false, see `C43_high_x_violated`. -/
theorem C43_eip155_sender_partial (x : PayloadEip155) (t : Eip155) (hx : Eip155Of w x t) (hl : (Payload.eip155 t).preimage.length < 2 ^ 64)
    (y : TransactionEip155) (hy : x.sign m w fuel nonceFuel rand key o = .ok y)
    (hz : o.isZeroHashAllowed = false ∨ ofBE (Sha3.keccak256 (Payload.eip155 t).preimage) ≠ 0) :
    ∃ pk, (key.publicKey m w : Out ε _) = .ok pk ∧
      (∃ keys, recover m w ⟨y.r, y.s, key.params⟩ (Sha3.keccak256 (Payload.eip155 t).preimage) none = .ok keys ∧ ∃ k ∈ keys, SameKey w k pk) ∧
      (Secp256k1.p ≤ toInt w y.r + Secp256k1.n → ∃ k, recover m w ⟨y.r, y.s, key.params⟩ (Sha3.keccak256 (Payload.eip155 t).preimage)
        (RecoveryId.fromU8 (UInt8.ofNat (toInt w y.v - 35 - 2 * t.chainId).toNat)) = .ok [k] ∧ SameKey w k pk) := by
  obtain ⟨-, r, s, parity, hr, hs, hpar, hv, hsig, -, hz2⟩ :=
    C43_eip155 m w d hd0 hdn key hkey hd o rand hrand fuel nonceFuel x t hx hl hpanic y hy
  have hh := keccak_length (Payload.eip155 t).preimage
  generalize Sha3.keccak256 (Payload.eip155 t).preimage = hash at hh hz hz2 hsig ⊢
  exact sender m w d hd0 hdn key hkey hd hash hh (hz.elim hz2 (fun h => h)) y.r y.s r s parity hr hs hsig _ (by
    have : (toInt w y.v - 35 - 2 * t.chainId).toNat = parity := by rw [hv.2]; omega
    rw [this])

/-- C43, Eip2930: from a signed transaction the public key of the signer is recovered.  It is among the keys recovered from `r` and `s` alone; and
it is the only one recovered from `r`, `s` and the parity if `r + n ≥ p`, which fails for one in `2^128` values of `r`.  Missing: those
values; for them the property is false, see `C43_high_x_violated`. -/
theorem C43_eip2930_sender_partial (x : PayloadEip2930) (t : Eip2930) (hx : Eip2930Of w x t) (hl : (Payload.eip2930 t).preimage.length < 2 ^ 64)
    (y : TransactionEip2930) (hy : x.sign m w fuel nonceFuel rand key o = .ok y)
    (hz : o.isZeroHashAllowed = false ∨ ofBE (Sha3.keccak256 (Payload.eip2930 t).preimage) ≠ 0) :
    ∃ pk, (key.publicKey m w : Out ε _) = .ok pk ∧
      (∃ keys, recover m w ⟨y.r, y.s, key.params⟩ (Sha3.keccak256 (Payload.eip2930 t).preimage) none = .ok keys ∧ ∃ k ∈ keys, SameKey w k pk) ∧
      (Secp256k1.p ≤ toInt w y.r + Secp256k1.n → ∃ k, recover m w ⟨y.r, y.s, key.params⟩ (Sha3.keccak256 (Payload.eip2930 t).preimage)
        (RecoveryId.fromU8 y.yParity.toU8) = .ok [k] ∧ SameKey w k pk) := by
  obtain ⟨-, r, s, parity, hr, hs, hpar, hv, hsig, -, hz2⟩ :=
    C43_eip2930 m w d hd0 hdn key hkey hd o rand hrand fuel nonceFuel x t hx hl hpanic y hy
  have hh := keccak_length (Payload.eip2930 t).preimage
  generalize Sha3.keccak256 (Payload.eip2930 t).preimage = hash at hh hz hz2 hsig ⊢
  exact sender m w d hd0 hdn key hkey hd hash hh (hz.elim hz2 (fun h => h)) y.r y.s r s parity hr hs hsig _ (by rw [← hv, UInt8.ofNat_toNat])

/-- C43, Eip1559: from a signed transaction the public key of the signer is recovered.  It is among the keys recovered from `r` and `s` alone; and
it is the only one recovered from `r`, `s` and the parity if `r + n ≥ p`, which fails for one in `2^128` values of `r`.  Missing: those
values; for them the property is false, see `C43_high_x_violated`. -/
theorem C43_eip1559_sender_partial (x : PayloadEip1559) (t : Eip1559) (hx : Eip1559Of w x t) (hl : (Payload.eip1559 t).preimage.length < 2 ^ 64)
    (y : TransactionEip1559) (hy : x.sign m w fuel nonceFuel rand key o = .ok y)
    (hz : o.isZeroHashAllowed = false ∨ ofBE (Sha3.keccak256 (Payload.eip1559 t).preimage) ≠ 0) :
    ∃ pk, (key.publicKey m w : Out ε _) = .ok pk ∧
      (∃ keys, recover m w ⟨y.r, y.s, key.params⟩ (Sha3.keccak256 (Payload.eip1559 t).preimage) none = .ok keys ∧ ∃ k ∈ keys, SameKey w k pk) ∧
      (Secp256k1.p ≤ toInt w y.r + Secp256k1.n → ∃ k, recover m w ⟨y.r, y.s, key.params⟩ (Sha3.keccak256 (Payload.eip1559 t).preimage)
        (RecoveryId.fromU8 y.yParity.toU8) = .ok [k] ∧ SameKey w k pk) := by
  obtain ⟨-, r, s, parity, hr, hs, hpar, hv, hsig, -, hz2⟩ :=
    C43_eip1559 m w d hd0 hdn key hkey hd o rand hrand fuel nonceFuel x t hx hl hpanic y hy
  have hh := keccak_length (Payload.eip1559 t).preimage
  generalize Sha3.keccak256 (Payload.eip1559 t).preimage = hash at hh hz hz2 hsig ⊢
  exact sender m w d hd0 hdn key hkey hd hash hh (hz.elim hz2 (fun h => h)) y.r y.s r s parity hr hs hsig _ (by rw [← hv, UInt8.ofNat_toNat])

end

/-! The point `(n + 2, y)` of the curve: signatures made with its discrete logarithm as nonce have `r = 2`. -/

def highY : Nat := 24738801717713540165859037596706942650182884013760002261031960508407254471123

theorem high_nonsingular : LCT.Secp256k1.E.Nonsingular ((Secp256k1.n + 2 : Nat) : ZMod Secp256k1.p) ((highY : Nat) : ZMod Secp256k1.p) := by
  rw [WeierstrassCurve.Affine.nonsingular_iff, WeierstrassCurve.Affine.equation_iff]
  have hy : (highY : ZMod Secp256k1.p) ≠ 0 := LCT.Secp256k1.cast_ne_zero (by decide) (by decide)
  refine ⟨?_, Or.inr ?_⟩
  · have h : (highY ^ 2) % Secp256k1.p = ((Secp256k1.n + 2) ^ 3 + 7) % Secp256k1.p := by decide +kernel
    have h2 := (ZMod.natCast_eq_natCast_iff' _ _ _).mpr h
    push_cast at h2 ⊢
    simp only [zero_mul, add_zero]
    linear_combination h2
  · intro h
    have h2 : 2 * (highY : ZMod Secp256k1.p) = 0 := by
      simp only [zero_mul, sub_zero] at h
      linear_combination h
    exact hy ((mul_eq_zero.mp h2).resolve_left (two_ne LCT.Secp256k1.p_ne_two))

theorem denotes_inj {w : Nat} {pt : Point} {P Q : LCT.Secp256k1.E.Point} (hP : PointDenotes w pt P) (hQ : PointDenotes w pt Q) : P = Q := by
  have val_inj : ∀ {x y : ZMod Secp256k1.p} {z : BInt}, Denotes w z x.val → Denotes w z y.val → x = y := by
    intro x y z hx hy
    have : (x.val : Int) = y.val := hx.2.symm.trans hy.2
    exact ZMod.val_injective _ (by exact_mod_cast this)
  have val_zero : ∀ {x : ZMod Secp256k1.p} {z : BInt}, Denotes w z x.val → Denotes w z 0 → x = 0 := by
    intro x z hx hy
    have : (x.val : Int) = 0 := hx.2.symm.trans hy.2
    exact (ZMod.val_eq_zero x).mp (by exact_mod_cast this)
  cases P with
  | zero =>
    cases Q with
    | zero => rfl
    | some x y h => exact absurd (val_zero hQ.2 hP.2) (LCT.Secp256k1.no_y_zero h)
  | some x y h =>
    cases Q with
    | zero => exact absurd (val_zero hP.2 hQ.2) (LCT.Secp256k1.no_y_zero h)
    | some x' y' h' =>
      have h1 := val_inj hP.1 hQ.1
      have h2 := val_inj hP.2 hQ.2
      subst h1 h2; rfl

def highPoint : LCT.Secp256k1.E.Point := .some _ _ high_nonsingular

/-- C43 (negation): transactions do not record whether the abscissa of the nonce's point is `r` or `r + n`.  There is a private key and a
correct signature `(r, s) = (2, 1)` of the hash 1 by it, with parity 1, such that recovery with that parity does not find the signer. -/
theorem C43_high_x_violated (m : Build) (w : Nat) [DigitWidth w] : ∃ d, 0 < d ∧ d < Secp256k1.n ∧ SignedBy d 1 2 1 1 ∧
    ∀ (cp : Params) (xr xs : BInt), (secp256k1 w : Out Unit _) = .ok cp → Denotes w xr (2 : Nat) → Denotes w xs (1 : Nat) →
      ∃ keys, recover m w ⟨xr, xs, cp⟩ (octets 32 1) (RecoveryId.fromU8 1) = .ok keys ∧
        ∀ k ∈ keys, ¬ PointDenotes w k.data (d • LCT.Secp256k1.G) := by
  have hn2 : 2 < Secp256k1.n := by decide +kernel
  have hall : ∀ P : LCT.Secp256k1.E.Point, Secp256k1.n • P = 0 := by
    intro P
    rw [← LCT.Secp256k1.card_points]
    exact card_nsmul_eq_zero'
  have hrz : ((2 : Nat) : ZMod Secp256k1.n) ≠ 0 := cast_ne_zero_of_lt (by decide) hn2
  have hsz : ((1 : Nat) : ZMod Secp256k1.n) ≠ 0 := cast_ne_zero_of_lt (by decide) (by omega)
  have hver := verPoint_cand (LCT.Secp256k1.n_mul_G) (hall highPoint) (e := 1) hrz hsz
  obtain ⟨k, hk⟩ : ∃ k : Nat, k • LCT.Secp256k1.G = cand Secp256k1.n LCT.Secp256k1.G 1 2 1 highPoint :=
    AddSubmonoid.mem_multiples_iff .. |>.mp (mem_multiples_of_prime_card LCT.Secp256k1.card_points LCT.Secp256k1.G_ne_zero)
  have hxh : xCoord highPoint = Secp256k1.n + 2 := by
    show ((Secp256k1.n + 2 : Nat) : ZMod Secp256k1.p).val = _
    exact ZMod.val_cast_of_lt (by decide +kernel)
  have hyh : yCoord highPoint % 2 = 1 := by
    have : yCoord highPoint = highY := by
      show ((highY : Nat) : ZMod Secp256k1.p).val = _
      exact ZMod.val_cast_of_lt (by decide +kernel)
    rw [this]; decide
  have hdG : (k % Secp256k1.n) • LCT.Secp256k1.G = cand Secp256k1.n LCT.Secp256k1.G 1 2 1 highPoint := by
    rw [← hk]
    exact smul_congr LCT.Secp256k1.n_mul_G (ZMod.natCast_mod k Secp256k1.n)
  rw [← hdG] at hver
  have hpos : 0 < k % Secp256k1.n := by
    by_contra h0
    have h0 : k % Secp256k1.n = 0 := by omega
    rw [h0, zero_nsmul, verPoint, nsmul_zero, add_zero, Nat.cast_one, inv_one, mul_one, ZMod.val_one, one_nsmul] at hver
    have h1 : xCoord LCT.Secp256k1.G = Secp256k1.gx := gx_val
    rw [hver, hxh] at h1
    exact absurd h1 (by decide +kernel)
  have hlt : k % Secp256k1.n < Secp256k1.n := Nat.mod_lt _ LCT.Secp256k1.prime_n.pos
  generalize k % Secp256k1.n = d at *
  unfold verPoint at hver
  refine ⟨d, hpos, hlt, ⟨by decide, hn2, by decide, by omega, ⟨?_, ?_⟩, ?_⟩, ?_⟩
  · rw [hver]
    exact WeierstrassCurve.Affine.Point.some_ne_zero _
  · rw [hver, hxh, Nat.add_mod_left]
    exact Nat.mod_eq_of_lt hn2
  · rw [hver, hyh]
  · intro cp xr xs hcp hr hs
    obtain ⟨cp', e, hD, hcof⟩ := secp256k1_y (ε := Unit) w
    rw [hcp] at e
    injection e with e
    subst e
    have hbe : ofBE (octets 32 1) = 1 := by decide +kernel
    have hlen : (octets 32 1).length = 32 := by decide
    have hlead : leadingBits (bitLength Secp256k1.n) (octets 32 1) = 1 := by
      unfold leadingBits
      rw [bitLength_n, hlen, hbe]
      decide
    have hne : octets 32 1 ≠ [] := by intro h; rw [h] at hlen; cases hlen
    generalize octets 32 1 = hash at hlen hlead hne ⊢
    obtain ⟨keys, e, Qs, hf, -, hmem⟩ := C23_exact m w cp Secp256k1.p Secp256k1.n 0 7 LCT.Secp256k1.G hD (by rw [hcof]; decide)
      ⟨xr, xs, cp⟩ rfl 2 1 (by decide) hn2 (by decide) (by omega) hr hs hash (some .LowXOddY) .default (fun _ => by rw [bitLength_n]) hcof
      (by decide +kernel) hne (fun _ => by rw [bitLength_n, hlen]) (by rw [hlead]; decide)
    refine ⟨keys, e, fun pk hpk hpt => ?_⟩
    obtain ⟨i, hi, rfl⟩ := List.mem_iff_getElem.mp hpk
    have hi' := hi
    rw [hf.length_eq] at hi'
    have hkk := (List.forall₂_iff_get.mp hf).2 i hi hi'
    simp only [List.get_eq_getElem] at hkk
    have hin := (hmem _).mp (List.getElem_mem hi')
    have hid := (hin.2.2 _ rfl).1
    rw [denotes_inj hkk.2 hpt, hlead] at hid
    rw [hver, hxh, decide_eq_true (by omega)] at hid
    cases hid

end LCT.Props
