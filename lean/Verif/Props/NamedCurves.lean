import Verif.Lemmas.Crypto.NamedCurves
import Verif.Lemmas.Crypto.NamedDomain
import Verif.Lemmas.Crypto.P521
import Verif.Props.UserCurves

/-!
# C91: the other named curves of the test suite

The NIST and Brainpool curves that `/repo/tests/crypto/curves.rs` supplies for the conformance vectors.
-/

namespace LCT.Props
open LCT.BigInt LCT.Spec LCT.Out LCT.Modular LCT.Curve LCT.Crypto LCT.Hash LCT.Random LCT.Named
variable {ε : Type}

/-- The curves that the test suite supplies, beside those of secp256k1, P-256 and Curve25519. -/
inductive Supplied
  | secp224r1 | secp384r1 | secp521r1 | brainpoolP256r1 | brainpoolP320r1 | brainpoolP384r1 | brainpoolP512r1

namespace Supplied

/-- What the test suite passes to the library. -/
def code (w : Nat) : Supplied → Out ε Params
  | secp224r1 => Crypto.secp224r1 w
  | secp384r1 => Crypto.secp384r1 w
  | secp521r1 => Crypto.secp521r1 w
  | brainpoolP256r1 => Crypto.brainpoolP256r1 w
  | brainpoolP320r1 => Crypto.brainpoolP320r1 w
  | brainpoolP384r1 => Crypto.brainpoolP384r1 w
  | brainpoolP512r1 => Crypto.brainpoolP512r1 w

/-- What the standards print. -/
def standard : Supplied → NamedCurve
  | secp224r1 => .secp224r1
  | secp384r1 => .secp384r1
  | secp521r1 => .secp521r1
  | brainpoolP256r1 => .brainpoolP256r1
  | brainpoolP320r1 => .brainpoolP320r1
  | brainpoolP384r1 => .brainpoolP384r1
  | brainpoolP512r1 => .brainpoolP512r1

theorem checked : ∀ c : Supplied, Checked c.standard
  | secp224r1 => Named.secp224r1.checked
  | secp384r1 => Named.secp384r1.checked
  | secp521r1 => Named.secp521r1.checked
  | brainpoolP256r1 => Named.brainpoolP256r1.checked
  | brainpoolP320r1 => Named.brainpoolP320r1.checked
  | brainpoolP384r1 => Named.brainpoolP384r1.checked
  | brainpoolP512r1 => Named.brainpoolP512r1.checked

theorem code_y (w : Nat) [DigitWidth w] : ∀ c : Supplied, (c.code w : Out ε _).Yields fun cp => Stored w cp c.standard
  | secp224r1 => secp224r1_y w
  | secp384r1 => secp384r1_y w
  | secp521r1 => secp521r1_y w
  | brainpoolP256r1 => brainpoolP256r1_y w
  | brainpoolP320r1 => brainpoolP320r1_y w
  | brainpoolP384r1 => brainpoolP384r1_y w
  | brainpoolP512r1 => brainpoolP512r1_y w

instance (c : Supplied) : Fact c.standard.p.Prime := ⟨c.checked.prime_p⟩

theorem bits (c : Supplied) : (c ≠ secp521r1 → bitLength c.standard.n % 8 = 0) ∧ c.standard.p ≤ 2 * c.standard.n ∧
    bitLength c.standard.n ≤ 521 := by
  cases c
  case secp521r1 => exact ⟨fun h => absurd rfl h, by decide +kernel, by decide +kernel⟩
  all_goals exact ⟨fun _ => by decide +kernel, by decide +kernel, by decide +kernel⟩

end Supplied

/-- C91: the parameters in the test suite are those that the standards print, and these are valid: `p` and `n` are primes, the curve is not
singular, the base point is on it and has the order `n`, and the curve has exactly `n` points. -/
theorem C91_named (w : Nat) [DigitWidth w] (c : Supplied) : ∃ cp, (c.code w : Out ε _) = .ok cp ∧ cp.cofactor = 1 ∧
    Denotes w cp.curve.p c.standard.p ∧ Denotes w cp.curve.a c.standard.a ∧ Denotes w cp.curve.b c.standard.b ∧
    Denotes w cp.basePoint.x c.standard.gx ∧ Denotes w cp.basePoint.y c.standard.gy ∧ Denotes w cp.order c.standard.n ∧
    c.standard.Valid := by
  obtain ⟨cp, e, h⟩ := c.code_y (ε := ε) w
  exact ⟨cp, e, h.cofactor, h.p, h.a, h.b, h.gx, h.gy, h.n, c.checked.valid⟩

/-- C91: C88 for each of these curves and any hash function of the library that delivers at least one byte and at most a block.  Partial as C88
is: programs must not use values of other parameters; and P-521 is left out, because its order is not a whole number of bytes. -/
theorem C91_named_client_partial (m : Build) (w : Nat) [DigitWidth w] (c : Supplied) (hc8 : c ≠ .secp521r1) (H : Hasher)
    (h : List UInt8 → List UInt8) (limit : Nat)
    (hc : Computes H h limit) (ho : H.outLen ≤ H.blockLen) (ho0 : 0 < H.outLen) (hlim : H.blockLen + H.outLen + 197 < limit) (st : H.State) :
    ∃ cp, (c.code w : Out Unit _) = .ok cp ∧
    ∃ G : (curve ((c.standard.a : Int) : ZMod c.standard.p) ((c.standard.b : Int) : ZMod c.standard.p)).Point,
    xCoord G = c.standard.gx ∧ yCoord G = c.standard.gy ∧
    ∀ (env : Nat → Nat → Out RandomError (List UInt8)) (t : KeyClient),
    (∀ i j, env i j ≠ .panic) → (∀ i j bytes, env i j = .ok bytes → bytes.length ≤ 64) →
    (∀ rs (x : Holds c.standard.p c.standard.a c.standard.b), KeyRun H h c.standard.n G t env rs x → (t rs).Proper x) →
    ∀ k,
      (∀ f nf,
        (∃ rs xs x, keySession m w H f nf st cp env t k = .ok (rs, xs) ∧ rs.length = k ∧
          KeyRun H h c.standard.n G t env rs x ∧ KeyMatches w cp c.standard.n xs x) ∨
        (keySession m w H f nf st cp env t k = .panic ∧ ∃ rs x, rs.length < k ∧ KeyRun H h c.standard.n G t env rs x ∧
          KeyIdeal H h c.standard.n G (env rs.length) x (t rs) none) ∨
        (keySession m w H f nf st cp env t k = .hang ∧ ∃ rs x, rs.length < k ∧ KeyRun H h c.standard.n G t env rs x ∧
          ∃ i hash o, t rs = .sign i hash o)) ∧
      ((∀ rs (x : Holds c.standard.p c.standard.a c.standard.b), KeyRun H h c.standard.n G t env rs x → rs.length < k →
          ∃ an, KeyIdeal H h c.standard.n G (env rs.length) x (t rs) an) →
        ∃ f0, ∀ f nf, f0 ≤ f → f0 ≤ nf → keySession m w H f nf st cp env t k ≠ .hang) := by
  obtain ⟨cp, ecp, hS⟩ := c.code_y (ε := Unit) w
  obtain ⟨G, hD, hx, hy⟩ := hS.domain c.checked
  obtain ⟨h8, hpn, h512⟩ := c.bits
  have h8 := h8 hc8
  refine ⟨cp, ecp, G, hx, hy, fun env t henv hlen hfit k => ?_⟩
  have hl : ∀ i j bytes, env i j = .ok bytes →
      H.blockLen + H.outLen + 1 + 2 * ((bitLength c.standard.n + 7) / 8) + bytes.length < limit := by
    intro i j bytes hb
    have := hlen i j bytes hb
    omega
  have hl0 : H.blockLen + H.outLen + 1 + 2 * ((bitLength c.standard.n + 7) / 8) < limit := by omega
  exact ⟨fun f nf => C88_client_partial m w cp _ _ _ _ G hD hS.cofactor hpn h8 H h limit hc ho ho0 f nf st env henv hl hl0 t hfit k,
    C88_answered m w cp _ _ _ _ G hD hS.cofactor hpn h8 H h limit hc ho ho0 st env henv hl hl0 t hfit k⟩

/-- The hash functions that the test suite uses with these curves meet the hypotheses. -/
example : Computes Sha2.Sha512 Spec.Sha2.sha512 (2 ^ 61) ∧ Sha2.Sha512.outLen ≤ Sha2.Sha512.blockLen ∧ 0 < Sha2.Sha512.outLen ∧
    Sha2.Sha512.blockLen + Sha2.Sha512.outLen + 197 < 2 ^ 61 ∧ Sha2.Sha256.outLen ≤ Sha2.Sha256.blockLen ∧ 0 < Sha2.Sha256.outLen ∧
    Sha2.Sha256.blockLen + Sha2.Sha256.outLen + 197 < 2 ^ 61 :=
  ⟨Hash.Sha2.computes512, by decide, by decide, by decide, by decide, by decide, by decide⟩

/-- C91: what a key on one of these curves signs, verifies with its public key, also with hashes that are shorter or longer than the order. -/
theorem C91_named_sign_verify (m : Build) (w : Nat) [DigitWidth w] (c : Supplied) : ∃ cp, (c.code w : Out ε _) = .ok cp ∧
    ∀ (z : Int) (x : BInt) (key : PrivateKey), Denotes w x z → (PrivateKey.new m w x cp : Out ε _) = .ok (some key) →
    ∀ (hash : List UInt8) (low : Bool) (rand : Nat → Out RandomError (List UInt8)) (fuel nonceFuel : Nat) (st : Sha2.Sha256.State)
      (sig : Signature) (id : RecoveryId), leadingBits (bitLength c.standard.n) hash ≠ 0 →
      signWithOptions m w Sha2.Sha256 fuel nonceFuel st rand hash key ⟨low, false, false, false⟩ = .ok (sig, id) →
      ∃ pk, (key.publicKey m w : Out VerifyingError _) = .ok pk ∧
        verifyWithOptions m w hash sig pk { VerifyingOptions.default with strictHashByteLength := false, enforceLowS := low } = .ok true := by
  obtain ⟨cp, ecp, hS⟩ := c.code_y (ε := ε) w
  obtain ⟨G, hD, -⟩ := hS.domain c.checked
  obtain ⟨-, -, h512⟩ := c.bits
  refine ⟨cp, ecp, fun z x key hx hnew hash low rand fuel nf st sig id hz hok => ?_⟩
  obtain ⟨_, e, rfl⟩ := privateKeyNew_y (ε := ε) m hx hD.order
  rw [hnew] at e
  injection e with e
  split at e
  · rename_i hz'
    cases e
    obtain ⟨d, rfl⟩ : ∃ d : Nat, z = d := ⟨z.toNat, by omega⟩
    have hl : ∀ i bytes, Drawn false (rand i) bytes →
        Sha2.Sha256.blockLen + Sha2.Sha256.outLen + 1 + 2 * ((bitLength c.standard.n + 7) / 8) + bytes.length < 2 ^ 61 := by
      intro i bytes hb
      cases (hb : bytes = [])
      show 64 + 32 + 1 + _ + 0 < _
      omega
    obtain ⟨pk, epk, -, hv⟩ := C21_sign_then_verify m w cp _ _ _ _ G hD Sha2.Sha256 Spec.Sha2.sha256
      (2 ^ 61) Hash.Sha2.computes256 (by decide) (by decide) d (by omega) (by omega) ⟨x, cp⟩ rfl hx hash ⟨low, false, false, false⟩
      nofun rand hl fuel nf st sig id hok
      { VerifyingOptions.default with strictHashByteLength := false, enforceLowS := low } (fun h => h) nofun hz
    exact ⟨pk, epk, hv⟩
  · cases e

/-- Keys and hashes as in the hypotheses exist on each of the curves: the key one, and a hash of `0x80` followed by zeros. -/
example (m : Build) (w : Nat) [DigitWidth w] (c : Supplied) : ∃ cp x key, (c.code w : Out ε _) = .ok cp ∧ Denotes w x 1 ∧
    (PrivateKey.new m w x cp : Out ε _) = .ok (some key) ∧ leadingBits (bitLength c.standard.n) (128 :: List.replicate 31 0) ≠ 0 := by
  obtain ⟨cp, ecp, hS⟩ := c.code_y (ε := ε) w
  obtain ⟨x, -, hx⟩ := ofInt_y (ε := ε) w 1 (by norm_num) (by norm_num)
  obtain ⟨_, e, rfl⟩ := privateKeyNew_y (ε := ε) m hx hS.n
  have hn := c.checked.prime_n.one_lt
  rw [if_pos (by omega)] at e
  refine ⟨cp, x, _, ecp, hx, e, ?_⟩
  cases c <;> decide +kernel

end LCT.Props
