import Verif.Props.Accounts
import Verif.Props.Transactions

/-!
# The signed transaction published in EIP-155

The whole way from the fields of the transaction and the private key `0x4646…46` to the bytes printed in EIP-155, in the model: RLP, Keccak-256,
RFC 6979 with HMAC-SHA-256, ECDSA on secp256k1, and RLP again.  It shows that the hypotheses of the theorems about signing (C21, C22, C23, C26,
C27, C43) can be met on the built-in curve, and that the specifications used in them give the published numbers.
-/

namespace LCT.Props
open LCT.BigInt LCT.Rlp LCT.Spec LCT.Spec.Eth LCT.Out LCT.Modular LCT.Curve LCT.Crypto LCT.Hash LCT.Random LCT.Ethereum

namespace Published

/-- SHA-256, computed by the model where it is known to agree with the specification. -/
def sha (msg : List UInt8) : List UInt8 :=
  if msg.length < 2 ^ 61 then
    match (Sha2.Sha256.digest .release Sha2.Sha256.fresh msg : Out Unit _) with
    | .ok (d, _) => d
    | _ => Spec.Sha2.sha256 msg
  else Spec.Sha2.sha256 msg

theorem sha_eq : Spec.Sha2.sha256 = sha := by
  funext msg
  unfold sha
  split
  · rename_i h
    obtain ⟨st, e⟩ := Hash.Sha2.computes256.digest Unit .release Sha2.Sha256.fresh msg h
    rw [e]
  · rfl

/-- Keccak-256, computed by the model. -/
def kec (msg : List UInt8) : List UInt8 :=
  match (Sha3.Keccak256.digest .release Sha3.Keccak256.fresh msg : Out Unit _) with
  | .ok (d, _) => d
  | _ => Spec.Sha3.keccak256 msg

theorem kec_eq : Spec.Sha3.keccak256 = kec := by
  funext msg
  obtain ⟨st, e⟩ := keccak_digest (ε := Unit) .release Sha3.Keccak256.fresh msg
  rw [kec, e]

def d : Nat := 0x4646464646464646464646464646464646464646464646464646464646464646
def e : Nat := 0xdaf5a779ae972f972197303d7b574746c7ef83eadac0f2791ad23db92e4c8e53
def k : Nat := 0x4944e27076bf36f65cc600501d777cbdb93a740b2d1e12298414c5bad5cd3e56
def r : Nat := 18515461264373351373200002665853028612451056578545711640558177340181847433846
def s : Nat := 46948507304638947509940763649030358759909902576025900602547168820602576006531
def y : Nat := 73285556288664071238555727028190983323218054037766589474523176437300403878076

/-- The signing data printed in EIP-155. -/
def signingData : List UInt8 :=
  [0xec, 9, 0x85, 0x04, 0xa8, 0x17, 0xc8, 0x00, 0x82, 0x52, 0x08, 0x94] ++ List.replicate 20 0x35 ++
    [0x88, 0x0d, 0xe0, 0xb6, 0xb3, 0xa7, 0x64, 0, 0, 0x80, 1, 0x80, 0x80]

theorem preimage_eq : (Payload.eip155 exampleFields).preimage = signingData := by
  simp [Payload.preimage, exampleFields, Eip155.fields, num, minBE, rlp, rlpSeq, rlpBytes, rlpListOf, signingData]

set_option maxRecDepth 100000 in
theorem hash_eq : Sha3.keccak256 signingData = octets 32 e := by
  rw [kec_eq]
  decide +kernel

def K1 : List UInt8 := octets 32 0x0ae25522533263badf3073c43930ccc76c7ec981e2aac92174f4524bc5836c0b
def V1 : List UInt8 := octets 32 0x3e89f98478dd616d45208f119ba98717a564ab9f198694ee2b0b56bb0e5098b3
def K2 : List UInt8 := octets 32 0x94976b018e381c1c79ddd491307cbcd4a401ae18ec81ae86c48c311519968daf
def V2 : List UInt8 := octets 32 0xf95c0459af21475d03f158feb0ef0bf37a61def49acf59498b13605dd1f46815

set_option maxRecDepth 100000 in
theorem start_eq : Rfc6979.start (hmac sha 64) 32 (octets 32 d ++ octets 32 e) = ⟨K2, V2⟩ := by
  have h1 : hmac sha 64 (List.replicate 32 0) (List.replicate 32 1 ++ [0] ++ (octets 32 d ++ octets 32 e)) = K1 := by decide +kernel
  have h2 : hmac sha 64 K1 (List.replicate 32 1) = V1 := by decide +kernel
  have h3 : hmac sha 64 K1 (V1 ++ [1] ++ (octets 32 d ++ octets 32 e)) = K2 := by decide +kernel
  have h4 : hmac sha 64 K2 V1 = V2 := by decide +kernel
  simp only [Rfc6979.start]
  rw [h1, h2, h3, h4]

set_option maxRecDepth 100000 in
theorem T_eq : hmac sha 64 K2 V2 = octets 32 k := by decide +kernel

theorem ofBE_e : ofBE (octets 32 e) = e := by decide +kernel

theorem nonce (rand : Out RandomError (List UInt8)) : NonceOf Sha2.Sha256 Spec.Sha2.sha256 Secp256k1.n d (octets 32 e) false rand k := by
  have hseed : Rfc6979.seed Secp256k1.n d (octets 32 e) [] = octets 32 d ++ octets 32 e := by
    have h : Rfc6979.bits2int Secp256k1.n (octets 32 e) % Secp256k1.n = e := by decide +kernel
    have hl : (bitLength Secp256k1.n + 7) / 8 = 32 := by rw [bitLength_n]
    rw [Rfc6979.seed, Spec.Rfc6979.bits2octets, h, Spec.Rfc6979.int2octets, Spec.Rfc6979.int2octets, hl, List.append_nil]
  have hb : Rfc6979.blocks 32 Secp256k1.n = 1 := by rw [Rfc6979.blocks, bitLength_n]
  refine ⟨[], rfl, 0, ?_, by decide, by decide, fun j hj => absurd hj (Nat.not_lt_zero j)⟩
  rw [hseed, sha_eq]
  show Rfc6979.bits2int _ (Rfc6979.T (hmac sha 64) 32 _ (Rfc6979.start (hmac sha 64) 32 _)) = k
  rw [start_eq, Rfc6979.T, hb, show List.range 1 = [0] from rfl, List.flatMap_cons, List.flatMap_nil, List.append_nil]
  simp only [Rfc6979.chain]
  rw [T_eq]
  decide +kernel

theorem mul_k : Certify.Is (k • LCT.Secp256k1.G) (r, y) := by
  have h : Certify.mul Secp256k1.p 0 (Secp256k1.gx, Secp256k1.gy) 257 k = some (r, y) := by decide +kernel
  have hA : ((0 : Int) : ZMod Secp256k1.p) = ((0 : Nat) : ZMod Secp256k1.p) := by simp
  have hg : Certify.Is LCT.Secp256k1.G (Secp256k1.gx, Secp256k1.gy) := ⟨LCT.Secp256k1.base_nonsingular, rfl⟩
  exact Certify.mul_is hA hg 257 k (r, y) h

theorem coords_k : xCoord (k • LCT.Secp256k1.G) = r ∧ yCoord (k • LCT.Secp256k1.G) = y := by
  obtain ⟨h, e⟩ := mul_k
  rw [e]
  constructor
  · show ((r : Nat) : ZMod Secp256k1.p).val = r
    exact ZMod.val_cast_of_lt (by decide)
  · show ((y : Nat) : ZMod Secp256k1.p).val = y
    exact ZMod.val_cast_of_lt (by decide)

theorem r_eq : ecdsaR Secp256k1.n LCT.Secp256k1.G k = r := by
  rw [ecdsaR, coords_k.1]
  exact Nat.mod_eq_of_lt (by decide)

theorem s_cast : ((s : Nat) : ZMod Secp256k1.n) * (k : ZMod Secp256k1.n) = (e : ZMod Secp256k1.n) + (r : ZMod Secp256k1.n) * (d : ZMod Secp256k1.n) := by
  have h : (s * k) % Secp256k1.n = (e + r * d) % Secp256k1.n := by decide +kernel
  have := (ZMod.natCast_eq_natCast_iff' _ _ _).mpr h
  push_cast at this
  exact this

theorem k_ne : (k : ZMod Secp256k1.n) ≠ 0 := cast_ne_zero_of_lt (by decide) (by decide)
theorem s_ne : (s : ZMod Secp256k1.n) ≠ 0 := cast_ne_zero_of_lt (by decide) (by decide)

theorem s_eq : ecdsaS Secp256k1.n LCT.Secp256k1.G d e k = s := by
  rw [ecdsaS, r_eq, ← s_cast, mul_assoc, mul_inv_cancel₀ k_ne, mul_one]
  exact ZMod.val_cast_of_lt (by decide)

theorem point_eq : ((e : ZMod Secp256k1.n) * (s : ZMod Secp256k1.n)⁻¹).val • LCT.Secp256k1.G +
    ((r : ZMod Secp256k1.n) * (s : ZMod Secp256k1.n)⁻¹).val • d • LCT.Secp256k1.G = k • LCT.Secp256k1.G := by
  rw [smul_smul, ← add_smul]
  apply smul_congr LCT.Secp256k1.n_mul_G
  push_cast
  rw [ZMod.natCast_zmod_val, ZMod.natCast_zmod_val]
  have h1 := s_cast
  have h2 := s_ne
  field_simp
  linear_combination -h1

theorem parity_eq : yCoord (((e : ZMod Secp256k1.n) * (s : ZMod Secp256k1.n)⁻¹).val • LCT.Secp256k1.G +
    ((r : ZMod Secp256k1.n) * (s : ZMod Secp256k1.n)⁻¹).val • d • LCT.Secp256k1.G) % 2 = 0 := by
  rw [point_eq, coords_k.2]
  decide

/-- The signed transaction printed in EIP-155. -/
def transaction : List UInt8 :=
  [0xf8, 0x6c, 9, 0x85, 0x04, 0xa8, 0x17, 0xc8, 0x00, 0x82, 0x52, 0x08, 0x94] ++ List.replicate 20 0x35 ++
    [0x88, 0x0d, 0xe0, 0xb6, 0xb3, 0xa7, 0x64, 0, 0, 0x80, 0x25, 0xa0,
      0x28, 0xef, 0x61, 0x34, 0x0b, 0xd9, 0x39, 0xbc, 0x21, 0x95, 0xfe, 0x53, 0x75, 0x67, 0x86, 0x60,
      0x03, 0xe1, 0xa1, 0x5d, 0x3c, 0x71, 0xff, 0x63, 0xe1, 0x59, 0x06, 0x20, 0xaa, 0x63, 0x62, 0x76, 0xa0,
      0x67, 0xcb, 0xe9, 0xd8, 0x99, 0x7f, 0x76, 0x1a, 0xec, 0xb7, 0x03, 0x30, 0x4b, 0x38, 0x00, 0xcc,
      0xf5, 0x55, 0xc9, 0xf3, 0xdc, 0x64, 0x21, 0x4b, 0x29, 0x7f, 0xb1, 0x96, 0x6a, 0x3b, 0x6d, 0x83]

theorem transaction_eq : rlp (signedList exampleFields.fields 37 r s) = transaction := by
  simp [signedList, exampleFields, Eip155.fields, num, minBE, rlp, rlpSeq, rlpBytes, rlpListOf, transaction, r, s]

/-- C43: signing the example payload of EIP-155 with the private key `0x46…46`, without extra random data, gives the published
transaction, whose encoding is the published one. -/
theorem C43_published (m : Build) (w : Nat) [DigitWidth w] (key : PrivateKey) (hkey : (secp256k1 w : Out Unit _) = .ok key.params)
    (hd : Denotes w key.data d) (o : SigningOptions) (ho : o.employExtraRandomData = false) (rand : Nat → Out RandomError (List UInt8))
    (hrand : ∀ i bytes, rand i = .ok bytes → bytes.length = 32) (hpanic : ∀ i, rand i ≠ .panic) (x : PayloadEip155)
    (hx : Eip155Of w x exampleFields) :
    ∃ f0, ∀ fuel nonceFuel, f0 ≤ fuel → f0 ≤ nonceFuel → ∃ y, x.sign m w fuel nonceFuel rand key o = .ok y ∧ y.payload = x ∧
      Denotes w y.v (37 : Nat) ∧ Denotes w y.r r ∧ Denotes w y.s s ∧
      (encodeM (TransactionEip155.encodeTo m w) y : Out Unit _) = .ok transaction := by
  obtain ⟨cp, ecp, hD, hcof⟩ := secp256k1_y (ε := Unit) w
  have hkey' := hkey
  rw [ecp] at hkey'
  injection hkey' with hkey'
  have hlead : leadingBits (bitLength Secp256k1.n) (octets 32 e) = e := by decide +kernel
  have hlen : (octets 32 e).length = 32 := by decide
  have hne : octets 32 e ≠ [] := by intro h; rw [h] at hlen; cases hlen
  have hnon := nonce (rand 0)
  have hbe := ofBE_e
  have hpre : (Payload.eip155 exampleFields).preimage.length < 2 ^ 64 := by rw [preimage_eq]; decide
  have hout := fun fuel nf => C43_eip155_outcome m w d (by decide) (by decide) key hkey hd o rand hrand fuel nf x exampleFields hx hpre hpanic
  rw [preimage_eq, hash_eq] at hout
  generalize octets 32 e = hash at *
  have hl : ∀ i bytes, Drawn o.employExtraRandomData (rand i) bytes →
      Sha2.Sha256.blockLen + Sha2.Sha256.outLen + 1 + 2 * ((bitLength Secp256k1.n + 7) / 8) + bytes.length < 2 ^ 61 := by
    intro i bytes hb
    rw [ho] at hb
    cases (hb : bytes = [])
    rw [bitLength_n]
    decide
  obtain ⟨f0, hf⟩ := C27_progress m w cp Secp256k1.p Secp256k1.n 0 7 LCT.Secp256k1.G hD
    Sha2.Sha256 Spec.Sha2.sha256 (2 ^ 61) Hash.Sha2.computes256 (by decide) (by decide) d (by decide) (by decide) key hkey'.symm hd hash o
    (fun _ => by rw [bitLength_n]) rand hl hne (fun _ => by rw [bitLength_n, hlen]) (fun _ => by rw [hlead]; decide) 0 k
    (fun i hi => absurd hi (Nat.not_lt_zero i)) (by rw [ho]; exact hnon)
    (by rw [hlead, Unusable, r_eq, s_eq]; decide)
  refine ⟨f0, fun fuel nf h1 h2 => ?_⟩
  obtain ⟨sig, id, hok, hr, hs⟩ := hf fuel nf Sha2.Sha256.fresh h1 h2
  replace hok : signDefault m w fuel nf rand hash key o = .ok (sig, id) := hok
  have h := hout fuel nf
  rw [hok] at h
  obtain ⟨y, ey, h1, h2, h3, h4⟩ := h
  obtain ⟨r', s', hr', hs', hsig, -⟩ := signDefault_ok m w d (by decide) (by decide) key hkey hd o rand hrand fuel nf hash hlen sig id hok
  simp only at hs
  rw [r_eq] at hr
  rw [hlead] at hs
  have hs2 := s_eq
  generalize ecdsaS Secp256k1.n LCT.Secp256k1.G d e k = s'' at hs hs2
  subst hs2
  rw [if_neg (by rintro ⟨-, h⟩; exact absurd h (by decide))] at hs
  have er : r' = r := by have := hr'.2.symm.trans hr.2; exact_mod_cast this
  have es : s' = s := by have := hs'.2.symm.trans hs.2; exact_mod_cast this
  subst er es
  obtain ⟨-, -, -, -, -, hp⟩ := hsig
  rw [hbe, parity_eq] at hp
  have h37 : 35 + 2 * exampleFields.chainId + 0 = 37 := by simp only [exampleFields]
  have hv : Denotes w y.v (37 : Nat) := by rwa [hp, h37] at h4
  rw [← h2] at hr
  rw [← h3] at hs
  refine ⟨y, ey, h1, hv, hr, hs, ?_⟩
  rw [← h1] at hx
  rw [← transaction_eq]
  exact encodeM_eq (eip155_enc m hx hv hr hs) (by rw [transaction_eq]; decide)

end Published

end LCT.Props
