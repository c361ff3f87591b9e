import Verif.Props.KeyTests
import Verif.Props.Recovery
import Verif.Spec.SigningTests

/-!
# C96: the tests that sign published hashes and recover the keys
-/

namespace LCT.Props
open LCT.BigInt LCT.Spec LCT.Out LCT.Modular LCT.Curve LCT.Hash LCT.Crypto LCT.Codecs LCT.Random LCT.RandomTests LCT.TransactionTests LCT.KeyTests
open LCT.SigningTests LCT.Ethereum LCT.VectorTests

/-- The step does what the claim says, for sufficiently large bounds on the rounds of signing. -/
private def Settles {α : Type} (u : Nat → Nat → Out Unit α) (P : Prop) : Prop := ∃ f0, ∀ f nf, f0 ≤ f → f0 ≤ nf → Decides (u f nf) P

private theorem Settles.congr {α : Type} {u : Nat → Nat → Out Unit α} {P Q : Prop} (h : P ↔ Q) (hu : Settles u P) : Settles u Q := by
  obtain ⟨f0, hf⟩ := hu
  exact ⟨f0, fun f nf h1 h2 => (hf f nf h1 h2).congr h⟩

private theorem settles_reading {α β γ : Type} {x : Out Unit α} {R : α → β → Prop} {S : β → Prop} {u : Nat → Nat → α → Out Unit γ} {P : β → Prop}
    (h : Reading x R S) (hf : ∀ a b, S b → R a b → Settles (fun f nf => u f nf a) (P b)) : Settles (fun f nf => x >>= u f nf) (∃ b, S b ∧ P b) := by
  rcases h with ⟨a, b, rfl, hR, hS⟩ | ⟨rfl, hS⟩
  · refine (hf a b ((hS b).mpr rfl) hR).congr ⟨fun hp => ⟨b, (hS b).mpr rfl, hp⟩, ?_⟩
    rintro ⟨b', h1, h2⟩
    cases (hS b').mp h1
    exact h2
  · exact ⟨0, fun f nf _ _ => ⟨fun ⟨b, h, _⟩ => absurd h (hS b), fun _ => rfl⟩⟩

private theorem settles_yields {α β : Type} {x : Out Unit α} {Q : α → Prop} {u : Nat → Nat → α → Out Unit β} {P : Prop} (h : x.Yields Q)
    (hf : ∀ a, Q a → Settles (fun f nf => u f nf a) P) : Settles (fun f nf => x >>= u f nf) P := by
  obtain ⟨a, rfl, ha⟩ := h
  exact hf a ha

private theorem settles_panic {α : Type} {P : Prop} (h : ¬ P) : Settles (fun _ _ => (.panic : Out Unit α)) P := ⟨0, fun _ _ _ _ => decides_panic h⟩

open Classical in
/-- A file, from its entries. -/
private theorem settles_each {V : Type} {u : Nat → Nat → V → Out Unit Unit} {P : V → Prop} (vs : List V) (h : ∀ v ∈ vs, Settles (fun f nf => u f nf v) (P v)) :
    ∃ f0, ∀ f nf, f0 ≤ f → f0 ≤ nf → each (u f nf) vs = if ∀ v ∈ vs, P v then .ok () else .panic := by
  have key : ∃ f0, ∀ f nf, f0 ≤ f → f0 ≤ nf → ∀ v ∈ vs, Decides (u f nf v) (P v) := by
    induction vs with
    | nil => exact ⟨0, fun _ _ _ _ v hv => absurd hv List.not_mem_nil⟩
    | cons v vs ih =>
      obtain ⟨f1, h1⟩ := ih fun v hv => h v (List.mem_cons_of_mem _ hv)
      obtain ⟨f2, h2⟩ := h v List.mem_cons_self
      refine ⟨max f1 f2, fun f nf hf hnf v' hv => ?_⟩
      rcases List.mem_cons.mp hv with rfl | hv
      · exact h2 f nf (le_trans (le_max_right _ _) hf) (le_trans (le_max_right _ _) hnf)
      · exact h1 f nf (le_trans (le_max_left _ _) hf) (le_trans (le_max_left _ _) hnf) v' hv
  obtain ⟨f0, hf⟩ := key
  refine ⟨f0, fun f nf h1 h2 => ?_⟩
  have := decides_each vs (hf f nf h1 h2)
  split
  · rename_i hp
    exact (this.1 hp).choose_spec
  · rename_i hp
    exact this.2 hp

private theorem bytes_read (t : List UInt8) : Reading (unwrapped (hexToBytes t)) (fun x y => x = y) (fun bs => lower t = hexOf bs) := by
  rcases hexToBytes_returns t with ⟨bs, e⟩ | ⟨e', e⟩
  · refine .inl ⟨bs, bs, by rw [e]; rfl, rfl, fun bs' => ⟨fun h => ?_, ?_⟩⟩
    · have := VectorTests.hexToBytes_of h
      rw [e] at this
      exact (Out.ok.inj this).symm
    · rintro rfl
      exact ((C17_decode_ok_iff t bs').mp e).2.2
  · refine .inr ⟨by rw [e]; rfl, fun bs h => ?_⟩
    have := VectorTests.hexToBytes_of h
    rw [e] at this
    cases this

/-- As a number, the text of bytes is the number that the bytes stand for. -/
private theorem number_of_bytes {w : Nat} [hw : DigitWidth w] {t bs : List UInt8} (h : lower t = hexOf bs) :
    (unwrapped (BInt.fromHex w t) : Out Unit BInt).Yields (fun x => Denotes w x (ofBE bs : Nat)) := by
  have hlen : t.length = 2 * bs.length := by
    have := congrArg List.length h
    unfold lower at this
    rwa [List.length_map, Codecs.hexOf_length] at this
  cases bs with
  | nil =>
    cases List.length_eq_zero_iff.mp (show t.length = 0 by simpa using hlen)
    rcases number_reads (w := w) [] with ⟨x, z, e, hx, hz⟩ | ⟨-, hz⟩
    · have : (0 : Int) = z := (hz 0).mp (.inl ⟨rfl, rfl⟩)
      subst this
      exact ⟨x, e, hx⟩
    · exact absurd (.inl ⟨rfl, rfl⟩) (hz 0)
  | cons c bs =>
    rcases fromHex_fixed (w := w) hlen (by simp) with ⟨v, hv, h1, -, x, e, hx⟩ | ⟨⟨c', hc', hn⟩, -⟩
    · rw [h1] at h
      have := Codecs.hexOf_injective h
      refine ⟨x, by rw [e]; rfl, ?_⟩
      rw [← this, octets_eq, ofBE_toBEk, Nat.mod_eq_of_lt hv]
      exact hx
    · exact absurd (((C17_decode_ok_iff t _).mp (VectorTests.hexToBytes_of h)).2.1 c' hc') hn

section
variable (m : Build) (w : Nat) [hw : DigitWidth w] (cp : Params) (p n : Nat) [hpr : Fact p.Prime] (a b : Int)
  (G : (curve (a : ZMod p) (b : ZMod p)).Point) (hD : Domain w cp p n a b G) (rand : Nat → Out RandomError (List UInt8))

private theorem nonce_unique {d k k' : Nat} {hash : List UInt8} (h : UsableNonce n G d hash k) (h' : UsableNonce n G d hash k') : k = k' :=
  C26_unique _ _ _ _ _ _ _ _ _ h.1 h'.1

include hD

/-- Going on with a private key. -/
private theorem settles_key {β : Type} {x : BInt} {z : Int} (hx : Denotes w x z) {u : Nat → Nat → PrivateKey → Out Unit β} {P : Prop}
    (hf : 0 < z → z < n → Settles (fun f nf => u f nf ⟨x, cp⟩) P) :
    Settles (fun f nf => do let key ← unwrap (← PrivateKey.new m w x cp); u f nf key) ((0 < z ∧ z < n) ∧ P) := by
  obtain ⟨o, e, ho⟩ := privateKeyNew_y (ε := Unit) m hx hD.order
  simp only [e, bind_ok, ho]
  by_cases h : 0 < z ∧ z < n
  · simp only [if_pos h]
    exact (hf h.1 h.2).congr ⟨fun hp => ⟨h, hp⟩, fun hp => hp.2⟩
  · simp only [if_neg h]
    exact settles_panic fun hp => h hp.1

/-- Signing without extra random data: the complaint, or the signature of RFC 6979. -/
private theorem signs (o : SigningOptions) (hex : o.employExtraRandomData = false) (h8 : o.strictHashByteLength = true → bitLength n % 8 = 0)
    (hbits : bitLength n < 2 ^ 60) (d : Nat) (hd0 : 0 < d) (hdn : d < n) (x : BInt) (hx : Denotes w x d) (hash : List UInt8) :
    (∀ e, signingComplaint n hash o = some e → ∀ f nf, signDefault m w f nf rand hash ⟨x, cp⟩ o = .err e) ∧
    (signingComplaint n hash o = none → ∀ k, UsableNonce n G d hash k → ∃ f0, ∀ f nf, f0 ≤ f → f0 ≤ nf → ∃ sig id,
      signDefault m w f nf rand hash ⟨x, cp⟩ o = .ok (sig, id) ∧ sig.params = cp ∧ Denotes w sig.r (ecdsaR n G k : Nat) ∧
        Denotes w sig.s (lowS o.enforceLowS n (ecdsaS n G d (leadingBits (bitLength n) hash) k) : Nat)) := by
  have hl : ∀ i bytes, Drawn o.employExtraRandomData (rand i) bytes →
      Sha2.Sha256.blockLen + Sha2.Sha256.outLen + 1 + 2 * ((bitLength n + 7) / 8) + bytes.length < 2 ^ 61 := by
    intro i bytes hb
    rw [hex] at hb
    cases (hb : bytes = [])
    show 64 + 32 + 1 + 2 * ((bitLength n + 7) / 8) + 0 < _
    omega
  constructor
  · intro e he f nf
    have hs := C25_sign m w cp p n a b G hD Sha2.Sha256 Spec.Sha2.sha256 (2 ^ 61) Hash.Sha2.computes256 (by decide)
      (by decide) d hdn ⟨x, cp⟩ rfl hx hash o h8 rand hl f nf Hash.Sha2.Sha256.fresh _ rfl
    unfold signingComplaint at he
    unfold signDefault
    split at he
    · rename_i h
      cases he
      rw [if_pos h] at hs
      exact hs
    rename_i h1
    rw [if_neg h1] at hs
    split at he
    · rename_i h
      cases he
      rw [if_pos h] at hs
      exact hs
    rename_i h2
    rw [if_neg h2] at hs
    split at he
    · rename_i h
      cases he
      rw [if_pos h] at hs
      exact hs
    · cases he
  · intro he k hk
    unfold signingComplaint at he
    split at he
    · cases he
    rename_i h1
    split at he
    · cases he
    rename_i h2
    split at he
    · cases he
    rename_i h3
    have hk' : NonceOf Sha2.Sha256 Spec.Sha2.sha256 n d hash o.employExtraRandomData (rand 0) k := by
      obtain ⟨bytes, h, h'⟩ := hk.1
      cases (h : bytes = [])
      exact ⟨[], by rw [hex]; rfl, h'⟩
    obtain ⟨f0, hf0⟩ := C27_progress m w cp p n a b G hD Sha2.Sha256 Spec.Sha2.sha256 (2 ^ 61) Hash.Sha2.computes256
      (by decide) (by decide) d hd0 hdn ⟨x, cp⟩ rfl hx hash o h8 rand hl h1 (fun hs => by by_contra hc; exact h2 ⟨hs, hc⟩)
      (fun hs hc => h3 ⟨hs, hc⟩) 0 k (fun i hi => absurd hi (Nat.not_lt_zero i)) hk' hk.2
    refine ⟨f0, fun f nf h1 h2 => ?_⟩
    obtain ⟨sig, id, es, hr, hs⟩ := hf0 f nf Hash.Sha2.Sha256.fresh h1 h2
    obtain ⟨-, -, -, -, -, -, -, -, -, ⟨hp, -⟩, -⟩ := sign_ok m w cp p n a b G hD Sha2.Sha256 Spec.Sha2.sha256 (2 ^ 61) Hash.Sha2.computes256
      (by decide) (by decide) d hd0 hdn ⟨x, cp⟩ rfl hx hash o h8 rand hl f nf _ sig id es
    exact ⟨sig, id, es, hp, hr, hs⟩

private theorem nonce_bounds {d k : Nat} {low : Bool} {hash : List UInt8} (h : UsableNonce n G d hash k) :
    0 < ecdsaR n G k ∧ ecdsaR n G k < n ∧ 0 < lowS low n (ecdsaS n G d (leadingBits (bitLength n) hash) k) ∧
      lowS low n (ecdsaS n G d (leadingBits (bitLength n) hash) k) < n := by
  have hnp : Fact n.Prime := ⟨hD.n_prime⟩
  have h1 := h.2
  unfold Unusable at h1
  rw [not_or] at h1
  have hslt : ecdsaS n G d (leadingBits (bitLength n) hash) k < n := ZMod.val_lt _
  have hrlt : ecdsaR n G k < n := Nat.mod_lt _ hD.n_prime.pos
  unfold lowS
  refine ⟨by omega, hrlt, ?_, ?_⟩ <;> split <;> omega

open Classical in
/-- C96: for any valid domain parameters and options without extra random data, the test of signing passes exactly if every entry consists of a
private key, a hash that is not refused and the signature that RFC 6979 prescribes, in the form of P1363; an assertion fails otherwise. -/
theorem C96_signing (o : SigningOptions) (hex : o.employExtraRandomData = false) (h8 : o.strictHashByteLength = true → bitLength n % 8 = 0)
    (hbits : bitLength n < 2 ^ 60) (vs : List Signing) (hv : ∀ v ∈ vs, HasNonce n G o v.d v.hash) :
    ∃ f0, ∀ f nf, f0 ≤ f → f0 ≤ nf → each (signing m w f nf rand o cp) vs = if ∀ v ∈ vs, SigningClaim n G o v then .ok () else .panic := by
  refine settles_each vs fun v hv' => ?_
  unfold signing SigningClaim
  refine Settles.congr ?_ (settles_reading (P := fun z : Int => (0 < z ∧ z < n) ∧ ∃ hash, lower v.hash = hexOf hash ∧ signingComplaint n hash o = none ∧
    ∃ k, UsableNonce n G z.toNat hash k ∧
      v.signature = p1363Text n (ecdsaR n G k) (lowS o.enforceLowS n (ecdsaS n G z.toNat (leadingBits (bitLength n) hash) k)))
    (number_reads v.d) fun x z hz hx => settles_key m w cp p n a b G hD hx fun h0 hn => settles_reading (bytes_read v.hash) fun hash hash' hh e => ?_)
  · constructor
    · rintro ⟨z, h1, ⟨h2, h3⟩, hash, h4, h5, k, h6, h7⟩
      obtain ⟨d, rfl⟩ := Int.eq_ofNat_of_zero_le h2.le
      exact ⟨d, hash, k, ⟨h1, by omega, by omega, h4, h5⟩, h6, h7⟩
    · rintro ⟨d, hash, k, ⟨h1, h2, h3, h4, h5⟩, h6, h7⟩
      exact ⟨d, h1, ⟨by omega, by omega⟩, hash, h4, h5, k, h6, h7⟩
  · subst e
    obtain ⟨d, rfl⟩ := Int.eq_ofNat_of_zero_le h0.le
    obtain ⟨c1, c2⟩ := signs m w cp p n a b G hD rand o hex h8 hbits d (by omega) (by omega) x hx hash
    cases hc : signingComplaint n hash o with
    | some e =>
      simp only [c1 e hc]
      exact settles_panic fun h => by cases h.1
    | none =>
      obtain ⟨k, hk⟩ := hv v hv' d hash ⟨hz, by omega, by omega, hh, hc⟩
      obtain ⟨f0, hf0⟩ := c2 hc k hk
      refine ⟨f0, fun f nf h1 h2 => ?_⟩
      obtain ⟨sig, id, es, hp, hr, hs⟩ := hf0 f nf h1 h2
      obtain ⟨b1, b2, b3, b4⟩ := nonce_bounds (low := o.enforceLowS) w cp p n a b G hD hk
      simp only [es, unwrapped, bind_ok]
      rw [toP1363Hex_y m (by rw [hp]; exact hD.order) hr hs b1 b2 b3 b4, bind_ok]
      refine decides_assert ⟨fun h => ⟨trivial, k, hk, (eq_of_beq h).symm⟩, ?_⟩
      rintro ⟨-, k', hk', h'⟩
      rw [nonce_unique p n a b G hk' hk] at h'
      exact beq_iff_eq.mpr h'.symm

open Classical in
/-- C96: the test of hashes that must not be signed passes exactly if in every entry the number is not a private key or the hash is refused: it is
empty, zero or has another length than the order. -/
theorem C96_invalid_signing (h8 : bitLength n % 8 = 0) (hbits : bitLength n < 2 ^ 60) (vs : List (List UInt8 × List UInt8))
    (hv : ∀ v ∈ vs, HasNonce n G { SigningOptions.default with employExtraRandomData := false } v.1 v.2) :
    ∃ f0, ∀ f nf, f0 ≤ f → f0 ≤ nf → each (invalidSigning m w f nf rand cp) vs = if ∀ v ∈ vs, RefusalClaim n v then .ok () else .panic := by
  refine settles_each vs fun v hv' => ?_
  unfold invalidSigning RefusalClaim
  refine settles_reading (number_reads v.1) fun x z hz hx => settles_yields (privateKeyNew_y (ε := Unit) m hx hD.order) fun o ho => ?_
  subst ho
  by_cases h : 0 < z ∧ z < n
  swap
  · rw [if_neg h]
    exact ⟨0, fun _ _ _ _ => ⟨fun _ => ⟨(), rfl⟩, fun hn => absurd (.inl h) hn⟩⟩
  rw [if_pos h]
  unfold refusedBy
  refine Settles.congr ?_ (settles_reading (P := fun hash => signingComplaint n hash { SigningOptions.default with employExtraRandomData := false } ≠ none)
    (bytes_read v.2) fun hash hash' hh e => ?_)
  · simp only [h, and_self, not_true_eq_false, false_or]
  · subst e
    obtain ⟨d, rfl⟩ := Int.eq_ofNat_of_zero_le h.1.le
    obtain ⟨c1, c2⟩ := signs m w cp p n a b G hD rand { SigningOptions.default with employExtraRandomData := false } rfl (fun _ => h8) hbits d
      (by omega) (by omega) x hx hash
    cases hc : signingComplaint n hash { SigningOptions.default with employExtraRandomData := false } with
    | some e =>
      simp only [c1 e hc]
      exact ⟨0, fun _ _ _ _ => ⟨fun _ => ⟨(), rfl⟩, fun hn => absurd (by simp) hn⟩⟩
    | none =>
      obtain ⟨k, hk⟩ := hv v hv' d hash ⟨hz, by omega, by omega, hh, hc⟩
      obtain ⟨f0, hf0⟩ := c2 hc k hk
      refine ⟨f0, fun f nf h1 h2 => ?_⟩
      obtain ⟨sig, id, es, -⟩ := hf0 f nf h1 h2
      simp only [es]
      exact decides_panic fun hn => hn rfl

/-- `contains` finds the key if it is there. -/
private theorem contains_y {key : PublicKey} (hkey : key.params = cp) {P : (curve (a : ZMod p) (b : ZMod p)).Point} (hP : PointDenotes w key.data P)
    {keys : List PublicKey} {Qs : List (curve (a : ZMod p) (b : ZMod p)).Point}
    (h : List.Forall₂ (fun pk Q => pk.params = cp ∧ PointDenotes w pk.data Q) keys Qs) : Answers (contains m key keys) (P ∈ Qs) := by
  induction h with
  | nil => exact ⟨false, rfl, by simp⟩
  | cons h1 _ ih =>
    obtain ⟨o, e, ho⟩ := beq_public (m := m) hD h1.1 hkey h1.2 hP
    obtain ⟨o', e', ho'⟩ := ih
    unfold contains
    rw [e, bind_ok]
    cases o
    · refine ⟨o', e', ?_⟩
      rw [ho', List.mem_cons]
      exact ⟨.inr, fun h => h.resolve_left fun h => by have := ho.mpr h; cases this⟩
    · exact ⟨true, rfl, ⟨fun _ => List.mem_cons.mpr (.inl (ho.mp rfl)), fun _ => rfl⟩⟩

open Classical in
/-- C96: on a curve of prime order, the test of recovery passes exactly if every entry has a hash that is zero, or a private key and a hash that is not
refused, and some other public key accepts the signature, too: the recovered keys always contain the right one, with and without the recovery id,
but the test demands that there are more without it. -/
theorem C96_recovery (hcof : cp.cofactor = 1) (hpn : p ≤ 2 * n) (h8 : bitLength n % 8 = 0) (hbits : bitLength n < 2 ^ 60) (low : Bool)
    (vs : List (List UInt8 × List UInt8))
    (hv : ∀ v ∈ vs, HasNonce n G { SigningOptions.default with enforceLowS := low, employExtraRandomData := false } v.1 v.2) :
    ∃ f0, ∀ f nf, f0 ≤ f → f0 ≤ nf → each (recovery m w f nf rand low cp) vs = if ∀ v ∈ vs, RecoveryClaim n G low v then .ok () else .panic := by
  have hnp : Fact n.Prime := ⟨hD.n_prime⟩
  refine settles_each vs fun v hv' => ?_
  unfold recovery RecoveryClaim
  refine settles_reading (bytes_read v.2) fun hash hash' hh e => ?_
  subst e
  refine settles_yields (number_of_bytes hh) fun x hx => settles_yields (isZero_y m hx) fun z hz => ?_
  subst hz
  by_cases h0 : ofBE hash = 0
  · rw [decide_eq_true (by exact_mod_cast h0)]
    exact ⟨0, fun _ _ _ _ => ⟨fun _ => ⟨(), rfl⟩, fun hn => absurd (.inl h0) hn⟩⟩
  rw [decide_eq_false (by exact_mod_cast h0)]
  simp only [Bool.false_eq_true, if_false, pure_bind]
  unfold recovers
  let o : SigningOptions := { SigningOptions.default with enforceLowS := low, employExtraRandomData := false }
  refine Settles.congr ?_ (settles_reading (P := fun z : Int => (0 < z ∧ z < n) ∧ signingComplaint n hash o = none ∧
    ∃ k, UsableNonce n G z.toNat hash k ∧ ∃ Q : (curve (a : ZMod p) (b : ZMod p)).Point, Q ≠ 0 ∧ Q ≠ z.toNat • G ∧
      EcdsaVerifies n G Q (leadingBits (bitLength n) hash) (ecdsaR n G k) (lowS low n (ecdsaS n G z.toNat (leadingBits (bitLength n) hash) k)))
    (number_reads v.1) fun x z hz hx => settles_key m w cp p n a b G hD hx fun h0 hn => ?_)
  · constructor
    · rintro ⟨z, h1, ⟨h2, h3⟩, h4, k, h5, h6⟩
      obtain ⟨d, rfl⟩ := Int.eq_ofNat_of_zero_le h2.le
      exact .inr ⟨d, k, ⟨h1, by omega, by omega, hh, h4⟩, h5, h6⟩
    · rintro (h | ⟨d, k, ⟨h1, h2, h3, -, h4⟩, h5, h6⟩)
      · exact absurd h h0
      · exact ⟨d, h1, ⟨by omega, by omega⟩, h4, k, h5, h6⟩
  · obtain ⟨d, rfl⟩ := Int.eq_ofNat_of_zero_le h0.le
    have hd0 : 0 < d := by omega
    have hdn : d < n := by omega
    refine settles_yields (publicKey_y (ε := Unit) m hD (key := ⟨x, cp⟩) rfl hx (cast_ne_zero_of_lt hd0 hdn)) fun pk hpk => ?_
    obtain ⟨c1, c2⟩ := signs m w cp p n a b G hD rand o rfl (fun _ => h8) hbits d hd0 hdn x hx hash
    cases hc : signingComplaint n hash o with
    | some e =>
      have := c1 e hc
      simp only [o] at this
      simp only [this]
      exact settles_panic fun h => by cases h.1
    | none =>
      obtain ⟨k, hk⟩ := hv v hv' d hash ⟨hz, hd0, hdn, hh, hc⟩
      obtain ⟨f0, hf0⟩ := c2 hc k hk
      refine ⟨f0, fun f nf h1 h2 => ?_⟩
      obtain ⟨sig, id, es, hp, hr, hs⟩ := hf0 f nf h1 h2
      obtain ⟨b1, b2, b3, b4⟩ := nonce_bounds (low := low) w cp p n a b G hD hk
      have hl : ∀ i bytes, Drawn o.employExtraRandomData (rand i) bytes →
          Sha2.Sha256.blockLen + Sha2.Sha256.outLen + 1 + 2 * ((bitLength n + 7) / 8) + bytes.length < 2 ^ 61 := by
        intro i bytes hb
        cases (hb : bytes = [])
        show 64 + 32 + 1 + 2 * ((bitLength n + 7) / 8) + 0 < _
        omega
      obtain ⟨hne, r, s, -, hr', hs', -, -, -, -, -, hver, hid⟩ := signed m w cp p n a b G hD Sha2.Sha256 Spec.Sha2.sha256 (2 ^ 61)
        Hash.Sha2.computes256 (by decide) (by decide) d hd0 hdn ⟨x, cp⟩ rfl hx hash o (fun _ => h8) rand hl f nf Hash.Sha2.Sha256.fresh sig id es
      have er : r = ecdsaR n G k := by
        have := hr'.2.symm.trans hr.2
        omega
      have es' : s = lowS low n (ecdsaS n G d (leadingBits (bitLength n) hash) k) := by
        have := hs'.2.symm.trans hs.2
        exact_mod_cast this
      subst er es'
      have hcomp : hash.length * 8 = bitLength n ∧ leadingBits (bitLength n) hash ≠ 0 := by
        unfold signingComplaint at hc
        split at hc
        · cases hc
        split at hc
        · cases hc
        rename_i g1
        split at hc
        · cases hc
        rename_i g2
        exact ⟨by by_contra g; exact g1 ⟨rfl, g⟩, fun g => g2 ⟨rfl, g⟩⟩
      have hcof2 : cp.cofactor < 2 ^ 32 := by rw [hcof]; decide
      have hdG : d • G ≠ 0 := smul_ne_zero' hD.G_ne hD.G_order (cast_ne_zero_of_lt hd0 hdn)
      obtain ⟨pk', e1, hp1, hq1⟩ := C23_unique m w cp p n a b G hD hcof2 sig hp _ _ b1 b2 b3 b4 hr hs hash (some id) .default (fun _ => h8) hcof hpn hne
        (fun _ => hcomp.1) hcomp.2 _ hdG hver id rfl hid
      obtain ⟨keys, e2, Qs, hf, hnd, hmem⟩ := C23_exact m w cp p n a b G hD hcof2 sig hp _ _ b1 b2 b3 b4 hr hs hash none .default (fun _ => h8) hcof hpn
        hne (fun _ => hcomp.1) hcomp.2
      obtain ⟨o1, g1, g1'⟩ := contains_y m w cp p n a b G hD hpk.1 hpk.2 (keys := [pk']) (Qs := [d • G]) (.cons ⟨hp1, hq1⟩ .nil)
      obtain ⟨o2, g2, g2'⟩ := contains_y m w cp p n a b G hD hpk.1 hpk.2 hf
      have hin : d • G ∈ Qs := (hmem _).mpr ⟨hdG, hver, fun i h => by cases h⟩
      cases g1'.mpr (List.mem_singleton_self _)
      cases g2'.mpr hin
      simp only [o] at es
      simp only [es, unwrapped, bind_ok, recover, e1, e2, g1, g2]
      refine decides_assert (decide_eq_true_iff.trans ?_)
      rw [hf.length_eq]
      constructor
      · intro hlen
        refine ⟨trivial, k, hk, ?_⟩
        by_contra hno
        have hall : ∀ Q ∈ Qs, Q = d • G := by
          intro Q hQ
          by_contra hne
          obtain ⟨q1, q2, -⟩ := (hmem Q).mp hQ
          exact hno ⟨Q, q1, hne, q2⟩
        have hrep : Qs = List.replicate Qs.length (d • G) := List.eq_replicate_of_mem hall
        rw [hrep, List.nodup_replicate] at hnd
        simp only [List.length_singleton] at hlen
        omega
      · rintro ⟨-, k', hk', Q, q1, q2, q3⟩
        rw [nonce_unique p n a b G hk' hk] at q3
        have hQ : Q ∈ Qs := (hmem Q).mpr ⟨q1, q3, fun i h => by cases h⟩
        match Qs, hin, hQ with
        | [R], hin, hQ =>
          rw [List.mem_singleton] at hin hQ
          exact absurd (hQ.trans hin.symm) q2
        | _ :: _ :: _, _, _ => simp

/-- A list that contains the key, as `contains` sees it. -/
private theorem contains_of {key : PublicKey} (hkey : key.params = cp) {P : (curve (a : ZMod p) (b : ZMod p)).Point} (hP : PointDenotes w key.data P)
    {keys : List PublicKey} (h : ∀ pk ∈ keys, pk.params = cp ∧ ∃ Q : (curve (a : ZMod p) (b : ZMod p)).Point, PointDenotes w pk.data Q)
    (hin : ∃ pk ∈ keys, pk.params = cp ∧ PointDenotes w pk.data P) : contains m key keys = .ok true := by
  induction keys with
  | nil => obtain ⟨pk, hpk, -⟩ := hin; cases hpk
  | cons pk keys ih =>
    obtain ⟨h1, Q, hQ⟩ := h pk List.mem_cons_self
    obtain ⟨o, e, ho⟩ := beq_public (m := m) hD h1 hkey hQ hP
    unfold contains
    rw [e, bind_ok]
    cases o
    · refine ih (fun pk hpk => h pk (List.mem_cons_of_mem _ hpk)) ?_
      obtain ⟨pk', hpk', h2, h3⟩ := hin
      rcases List.mem_cons.mp hpk' with rfl | hpk'
      · obtain ⟨o', e', ho'⟩ := beq_public (m := m) hD h1 hkey h3 hP
        rw [e] at e'
        cases e'
        cases ho'.mpr rfl
      · exact ⟨pk', hpk', h2, h3⟩
    · rfl

open Classical in
/-- C96: the test of recovery on random keys and messages passes exactly if the key that is drawn is between zero and the order, and the leading bits of the
hash are not all zero.  If the cofactor is even, recovery from this signature must not panic (see C23). -/
theorem C96_curve (hcof : cp.cofactor < 2 ^ 32) (hpn : p ≤ (cp.cofactor + 1) * n) (hbits : bitLength n < 2 ^ 60) (low : Bool) (bs msg : List UInt8)
    (hmsg : msg.length < 2 ^ 61)
    (hk : 0 < ofBE bs → ofBE bs < n → leadingBits (bitLength n) (Spec.Sha2.sha256 msg) ≠ 0 → ∃ k, UsableNonce n G (ofBE bs) (Spec.Sha2.sha256 msg) k)
    (hodd : cp.cofactor % 2 = 1 ∨ ∀ k, UsableNonce n G (ofBE bs) (Spec.Sha2.sha256 msg) k → ∀ sig : Signature, sig.params = cp →
      Denotes w sig.r (ecdsaR n G k : Nat) →
      Denotes w sig.s (lowS low n (ecdsaS n G (ofBE bs) (leadingBits (bitLength n) (Spec.Sha2.sha256 msg)) k) : Nat) →
      ∀ id, recoverWithOptions m w sig (Spec.Sha2.sha256 msg) id ⟨false⟩ ≠ .panic) :
    ∃ f0, ∀ f nf, f0 ≤ f → f0 ≤ nf → curveRecovery m w f nf rand low cp (.ok bs) (.ok msg) =
      if 0 < ofBE bs ∧ ofBE bs < n ∧ leadingBits (bitLength n) (Spec.Sha2.sha256 msg) ≠ 0 then .ok () else .panic := by
  have hnp : Fact n.Prime := ⟨hD.n_prime⟩
  suffices h : Settles (fun f nf => curveRecovery m w f nf rand low cp (.ok bs) (.ok msg))
      (0 < ofBE bs ∧ ofBE bs < n ∧ leadingBits (bitLength n) (Spec.Sha2.sha256 msg) ≠ 0) by
    obtain ⟨f0, h⟩ := h
    refine ⟨f0, fun f nf h1 h2 => ?_⟩
    split
    · rename_i hp
      exact ((h f nf h1 h2).1 hp).choose_spec
    · rename_i hp
      exact (h f nf h1 h2).2 hp
  unfold curveRecovery
  simp only [unwrapped, bind_ok, Codecs.bytesToLowerHex_eq]
  refine settles_yields (number_of_bytes (lower_hexOf bs)) fun x hx => ?_
  let o : SigningOptions := { SigningOptions.default with enforceLowS := low, strictHashByteLength := false, employExtraRandomData := false }
  obtain ⟨st, est⟩ := Hash.Sha2.computes256.digest Unit m Hash.Sha2.Sha256.fresh msg hmsg
  have hlen32 := Hash.Sha2.computes256.length msg
  generalize hh : Spec.Sha2.sha256 msg = hash at hk hodd est hlen32
  have hne : hash ≠ [] := by
    rintro rfl
    cases hlen32
  refine Settles.congr ?_ (settles_key m w cp p n a b G hD hx (P := leadingBits (bitLength n) hash ≠ 0) fun h0 hn => ?_)
  · rw [and_assoc]
    exact and_congr (by omega) (and_congr (by omega) Iff.rfl)
  have hd0 : 0 < ofBE bs := by omega
  have hdn : ofBE bs < n := by omega
  refine settles_yields (publicKey_y (ε := Unit) m hD (key := ⟨x, cp⟩) rfl hx (cast_ne_zero_of_lt hd0 hdn)) fun pk hpk => ?_
  simp only [est, bind_ok]
  obtain ⟨c1, c2⟩ := signs m w cp p n a b G hD rand o rfl nofun hbits (ofBE bs) hd0 hdn x hx hash
  have hcomp : signingComplaint n hash o = if leadingBits (bitLength n) hash = 0 then some .ZeroHashNotAllowed else none := by
    unfold signingComplaint
    rw [if_neg hne, if_neg (fun h => by cases h.1)]
    by_cases hz : leadingBits (bitLength n) hash = 0
    · rw [if_pos ⟨rfl, hz⟩, if_pos hz]
    · rw [if_neg fun h => hz h.2, if_neg hz]
  by_cases hz : leadingBits (bitLength n) hash = 0
  · have := c1 .ZeroHashNotAllowed (by rw [hcomp, if_pos hz])
    simp only [o] at this
    simp only [this]
    exact settles_panic fun h => h hz
  obtain ⟨k, hk⟩ := hk hd0 hdn hz
  obtain ⟨f0, hf0⟩ := c2 (by rw [hcomp, if_neg hz]) k hk
  refine ⟨f0, fun f nf h1 h2 => ?_⟩
  obtain ⟨sig, id, es, hp, hr1, hs1⟩ := hf0 f nf h1 h2
  have hl : ∀ i bytes, Drawn o.employExtraRandomData (rand i) bytes →
      Sha2.Sha256.blockLen + Sha2.Sha256.outLen + 1 + 2 * ((bitLength n + 7) / 8) + bytes.length < 2 ^ 61 := by
    intro i bytes hb
    cases (hb : bytes = [])
    show 64 + 32 + 1 + 2 * ((bitLength n + 7) / 8) + 0 < _
    omega
  obtain ⟨-, r, s, -, hr, hs, hr0, hrn, hs0, hsn, -, hver, hid⟩ := signed m w cp p n a b G hD Sha2.Sha256 Spec.Sha2.sha256 (2 ^ 61)
    Hash.Sha2.computes256 (by decide) (by decide) _ hd0 hdn ⟨x, cp⟩ rfl hx hash o nofun rand hl f nf Hash.Sha2.Sha256.fresh sig id es
  have hdG : ofBE bs • G ≠ 0 := smul_ne_zero' hD.G_ne hD.G_order (cast_ne_zero_of_lt hd0 hdn)
  have found : ∀ id', (∀ i, id' = some i → IdDescribes n G (ofBE bs • G) (leadingBits (bitLength n) hash) r s i) →
      ∃ keys, recoverWithOptions m w sig hash id' ⟨false⟩ = .ok keys ∧ contains m pk keys = .ok true := by
    intro id' hid'
    obtain ⟨keys, e, hin⟩ := C23_complete m w cp p n a b G hD hcof sig hp r s hr0 hrn hs0 hsn hr hs hash id' ⟨false⟩ nofun
      (hodd.imp_right fun h => h k hk sig hp hr1 hs1 id') hpn hne nofun hz _ hdG (smul_smul_zero hD.G_order _) hver hid'
    refine ⟨keys, e, contains_of m w cp p n a b G hD hpk.1 hpk.2 (fun pk' hpk' => ?_) hin⟩
    obtain ⟨L, e', Rs, hL, -, -⟩ := ((recoverWithOptions_s m hD hcof hp hr hs hr0 hrn hs0 hsn hash id' ⟨false⟩ nofun).2.2.2 hne nofun hz).resolve_right
      fun h => by rw [h.2] at e; cases e
    rw [e] at e'
    cases e'
    obtain ⟨i, hi, rfl⟩ := List.mem_iff_getElem.mp hpk'
    have hk := (List.forall₂_iff_get.mp hL).2 i hi (by rw [← hL.length_eq]; exact hi)
    exact ⟨hk.1, _, hk.2⟩
  obtain ⟨keys, e1, g1⟩ := found (some id) fun i h => by cases h; exact hid
  obtain ⟨keys', e2, g2⟩ := found none nofun
  simp only [o] at es
  simp only [es, unwrapped, bind_ok, e1, e2, g1, g2]
  exact ⟨fun _ => ⟨(), rfl⟩, fun h => absurd hz h⟩

end

end LCT.Props
