import Verif.Lemmas.KeyTests
import Verif.Props.Accounts
import Verif.Props.TransactionTests

/-!
# C95: the tests with published keys, points and addresses pass exactly for right entries
-/

namespace LCT.Props
open LCT.BigInt LCT.Spec LCT.Out LCT.Modular LCT.Curve LCT.Crypto LCT.Codecs LCT.RandomTests LCT.TransactionTests LCT.KeyTests LCT.Ethereum LCT.VectorTests

private theorem decides_yields {α β : Type} {x : Out Unit α} {Q : α → Prop} {f : α → Out Unit β} {P : Prop} (h : x.Yields Q)
    (hf : ∀ a, Q a → Decides (f a) P) : Decides (x >>= f) P := by
  obtain ⟨a, rfl, ha⟩ := h
  exact hf a ha

private theorem outcome {u : Out Unit Unit} {P : Prop} [Decidable P] (h : Decides u P) : u = if P then .ok () else .panic := by
  split
  · rename_i hp
    obtain ⟨a, e⟩ := h.1 hp
    exact e
  · rename_i hp
    exact h.2 hp

private theorem hash_reads (t : List UInt8) : Reading (unwrapped (hexToBytes t)) (fun x y => x = y) (fun bs => lower t = hexOf bs) := by
  rcases hexToBytes_returns t with ⟨bs, e⟩ | ⟨e', e⟩
  · refine .inl ⟨bs, bs, by rw [e]; rfl, rfl, fun bs' => ⟨fun h => ?_, ?_⟩⟩
    · have := VectorTests.hexToBytes_of h
      rw [e] at this
      exact (Out.ok.inj this).symm
    · rintro rfl
      exact ((C17_decode_ok_iff t bs').mp e).2.2
  · refine .inr ⟨by rw [e]; rfl, fun bs h => ?_⟩
    have := VectorTests.hexToBytes_of h
    rw [e] at this
    cases this

section
variable (m : Build) (w : Nat) [hw : DigitWidth w] (cp : Params) (p n : Nat) [hpr : Fact p.Prime] (a b : Int)
  (G : (curve (a : ZMod p) (b : ZMod p)).Point) (hD : Domain w cp p n a b G)
include hD

/-- Going on with a private key. -/
private theorem decides_key {β : Type} {x : BInt} {z : Int} (hx : Denotes w x z) {f : PrivateKey → Out Unit β} {P : Prop}
    (hf : 0 < z → z < n → Decides (f ⟨x, cp⟩) P) : Decides (do let key ← unwrap (← PrivateKey.new m w x cp); f key) ((0 < z ∧ z < n) ∧ P) := by
  obtain ⟨o, e, ho⟩ := privateKeyNew_y (ε := Unit) m hx hD.order
  rw [e, bind_ok, ho]
  by_cases h : 0 < z ∧ z < n
  · rw [if_pos h]
    exact (hf h.1 h.2).congr ⟨fun hp => ⟨h, hp⟩, fun hp => hp.2⟩
  · rw [if_neg h]
    exact decides_panic fun hp => h hp.1

open Classical in
/-- C95: the test of private keys passes exactly if every entry has the text of a number, and the right answer. -/
theorem C95_is_private (vs : List (List UInt8 × Bool)) :
    each (isPrivate m w cp) vs = if ∀ v ∈ vs, IsPrivateClaim n v then .ok () else .panic := by
  refine outcome (decides_each vs fun v _ => ?_)
  unfold isPrivate IsPrivateClaim
  refine decides_reading (number_reads v.1) fun x z _ hx => decides_yields (privateKeyNew_y (ε := Unit) m hx hD.order) fun o ho => ?_
  subst ho
  refine decides_assert ?_
  by_cases h : 0 < z ∧ z < n
  · rw [if_pos h]; cases v.2 <;> simp [h]
  · rw [if_neg h]; cases v.2 <;> simp [h]

open Classical in
/-- C95: the test of sums of private keys passes exactly if every entry consists of a private key, a number and the sum. -/
theorem C95_private_add (h256 : n < 256 ^ 32) (vs : List Sum) :
    each (privateAdd m w cp) vs = if ∀ v ∈ vs, SumClaim n v then .ok () else .panic := by
  have hn0 := hD.n_prime.pos
  refine outcome (decides_each vs fun v _ => ?_)
  unfold privateAdd SumClaim
  refine Decides.congr ?_ (decides_reading (P := fun z : Int => (0 < z ∧ z < n) ∧ ∃ z', NumberText v.tweak z' ∧
    v.expected = if 0 ≤ z + z' ∧ (z + z') % n ≠ 0 then some (fixedHex 32 ((z + z') % n).toNat) else none) (number_reads v.d) fun x z _ hx =>
    decides_key m w cp p n a b G hD hx fun _ _ => decides_reading (number_reads v.tweak) fun x' z' _ hx' =>
      decides_yields (add_y m hx hx') fun s hs => decides_yields (rem_y m hs hD.order (by omega)) fun c hc =>
        decides_yields (privateKeyNew_y (ε := Unit) m hc hD.order) fun o ho => ?_)
  · constructor
    · rintro ⟨z, h1, ⟨h2, h3⟩, z', h4, h5⟩
      exact ⟨z, z', h1, h2, h3, h4, h5⟩
    · rintro ⟨z, z', h1, h2, h3, h4, h5⟩
      exact ⟨z, h1, ⟨h2, h3⟩, z', h4, h5⟩
  · subst ho
    have hlt : (z + z').tmod n < n := Int.tmod_lt_of_pos _ (by omega)
    by_cases h : 0 ≤ z + z' ∧ (z + z') % n ≠ 0
    · have e : (z + z').tmod n = (z + z') % n := Int.tmod_eq_emod_of_nonneg h.1
      have h0 : 0 < (z + z').tmod n := by
        have := Int.emod_nonneg (z + z') (show (n : Int) ≠ 0 by omega)
        rw [e]
        omega
      rw [if_pos ⟨h0, hlt⟩, if_pos h, ← e]
      exact checkSum_some hc h0 hlt h256 v.expected
    · have h0 : ¬ (0 < (z + z').tmod n ∧ (z + z').tmod n < n) := by
        rintro ⟨h1, -⟩
        by_cases h2 : 0 ≤ z + z'
        · rw [Int.tmod_eq_emod_of_nonneg h2] at h1
          exact h ⟨h2, by omega⟩
        · have := Int.tmod_nonneg (a := -(z + z')) n (by omega)
          rw [Int.neg_tmod] at this
          omega
      rw [if_neg h0, if_neg h]
      refine decides_assert ?_
      cases v.expected <;> simp

open Classical in
/-- C95: the test of negation, for numbers below the order, passes exactly if every entry has the text of a number and the 64 digits of the
difference of the order and the number. -/
theorem C95_negate (h256 : n < 256 ^ 32) (vs : List (List UInt8 × List UInt8)) (hr : ∀ v ∈ vs, ∀ z, NumberText v.1 z → 0 ≤ z ∧ z < n) :
    each (KeyTests.negate m w cp) vs = if ∀ v ∈ vs, NegateClaim n v then .ok () else .panic := by
  refine outcome (decides_each vs fun v hv => ?_)
  unfold KeyTests.negate NegateClaim
  refine decides_reading (number_reads v.1) fun x z hz hx => decides_yields (sub_y m hD.order hx) fun d hd => ?_
  obtain ⟨h0, hn⟩ := hr v hv z hz
  have e : (d.toLowerHex m w : Out Unit _) = .ok (hexText (n - z)) := by
    obtain ⟨k, hk, rfl⟩ := hw.bytes
    exact C07_print m k d _ hd
  obtain ⟨u, hu⟩ := Int.eq_ofNat_of_zero_le (show 0 ≤ (n : Int) - z by omega)
  have hun : u ≤ n := by omega
  have hu0 : 0 < u := by omega
  rw [e, bind_ok, hu, pad_text hu0 (lt_of_le_of_lt hun h256) rfl, Int.toNat_natCast]
  generalize fixedHex 32 u = t
  exact decides_assert ⟨fun h => (eq_of_beq h).symm, fun h => beq_iff_eq.mpr h.symm⟩

open Classical in
/-- C95: the test of public keys passes exactly if every line consists of a private key and the abscissa of its public key. -/
theorem C95_public_of_private (vs : List (List UInt8)) :
    each (publicOfPrivate m w cp) vs = if ∀ v ∈ vs, PublicClaim n G v then .ok () else .panic := by
  have hnp : Fact n.Prime := ⟨hD.n_prime⟩
  refine outcome (decides_each vs fun v _ => ?_)
  unfold publicOfPrivate PublicClaim
  refine Decides.congr ?_ (decides_reading (P := fun ab : List UInt8 × List UInt8 => ∃ z, DecimalText ab.1 z ∧ ∃ y, NumberText ab.2 y ∧
    ((0 < z ∧ z < n) ∧ y = xCoord (z.toNat • G))) (pieces_read v) fun ab ab' _ hab => ?_)
  · constructor
    · rintro ⟨⟨s, t⟩, h1, z, h2, y, h3, ⟨h4, h5⟩, rfl⟩
      obtain ⟨d, rfl⟩ := Int.eq_ofNat_of_zero_le h4.le
      exact ⟨s, t, h1, d, h2, by omega, by omega, h3⟩
    · rintro ⟨s, t, h1, d, h2, h3, h4, h5⟩
      exact ⟨(s, t), h1, d, h2, _, h5, ⟨by omega, by omega⟩, rfl⟩
  · subst hab
    obtain ⟨s, t⟩ := ab
    refine decides_reading (decimal_reads s) fun x z _ hx => decides_reading (number_reads t) fun x' y _ hx' =>
      decides_key m w cp p n a b G hD hx fun h0 hn => ?_
    obtain ⟨d, rfl⟩ := Int.eq_ofNat_of_zero_le h0.le
    refine decides_yields (publicKey_y (ε := Unit) m hD (key := ⟨x, cp⟩) rfl hx (cast_ne_zero_of_lt (by omega) (by omega))) fun pk hpk => ?_
    refine decides_yields (beq_y m (point_x hpk.2).1 hx') fun o ho => ?_
    subst ho
    exact decides_assert (decide_eq_true_iff.trans ⟨fun h => h.symm, fun h => h.symm⟩)

open Classical in
/-- C95: the test of points passes exactly if every entry has the right answer. -/
theorem C95_is_point (hodd : cp.cofactor % 2 = 1) (vs : List (List UInt8 × Bool)) :
    each (isPoint m w cp) vs =
      if ∀ v ∈ vs, (v.2 = true ↔ ∃ P : (curve (a : ZMod p) (b : ZMod p)).Point, PointText n v.1 P) then .ok () else .panic := by
  refine outcome (decides_each vs fun v _ => ?_)
  unfold isPoint
  rcases point_cases (m := m) hD hodd v.1 with ⟨P, pk, hP, e, -⟩ | ⟨hno, e', e⟩
  · rw [e]
    refine decides_assert ?_
    have : ∃ P : (curve (a : ZMod p) (b : ZMod p)).Point, PointText n v.1 P := ⟨P, hP⟩
    cases v.2 <;> simp [this]
  · rw [e]
    refine decides_assert ?_
    cases v.2 <;> simp [hno]

open Classical in
/-- C95: the test of points from scalars passes exactly if every entry consists of a private key and a text of its public key. -/
theorem C95_point_from_scalar (hodd : cp.cofactor % 2 = 1) (vs : List (List UInt8 × List UInt8)) :
    each (pointFromScalar m w cp) vs = if ∀ v ∈ vs, ScalarClaim n G v then .ok () else .panic := by
  have hnp : Fact n.Prime := ⟨hD.n_prime⟩
  refine outcome (decides_each vs fun v _ => ?_)
  unfold pointFromScalar ScalarClaim
  refine Decides.congr ?_ (decides_reading (P := fun z : Int => (0 < z ∧ z < n) ∧ ∃ P : (curve (a : ZMod p) (b : ZMod p)).Point,
    PointText n v.2 P ∧ P = z.toNat • G) (number_reads v.1) fun x z _ hx => decides_key m w cp p n a b G hD hx fun h0 hn => ?_)
  · constructor
    · rintro ⟨z, h1, ⟨h2, h3⟩, P, h4, rfl⟩
      obtain ⟨d, rfl⟩ := Int.eq_ofNat_of_zero_le h2.le
      exact ⟨d, h1, by omega, by omega, h4⟩
    · rintro ⟨d, h1, h2, h3, h4⟩
      exact ⟨d, h1, ⟨by omega, by omega⟩, _, h4, rfl⟩
  · obtain ⟨d, rfl⟩ := Int.eq_ofNat_of_zero_le h0.le
    refine decides_yields (publicKey_y (ε := Unit) m hD (key := ⟨x, cp⟩) rfl hx (cast_ne_zero_of_lt (by omega) (by omega))) fun pk hpk => ?_
    refine decides_reading (point_reads hD hodd v.2) fun pk' P _ hpk' => ?_
    obtain ⟨o, eo, ho⟩ := beq_public (m := m) hD hpk.1 hpk'.1 hpk.2 hpk'.2
    rw [eo, bind_ok]
    exact decides_assert ho

open Classical in
/-- C95: the test of encodings passes exactly if every entry consists of a text of a point and its standard text in the form asked for; but if a
coordinate of the point is zero or not below the order, it fails whatever the entry expects (C19). -/
theorem C95_point_compress (hodd : cp.cofactor % 2 = 1) (vs : List Encoded) :
    each (pointCompress m w cp) vs = if ∀ v ∈ vs, EncodedClaim n (curve (a : ZMod p) (b : ZMod p)) v then .ok () else .panic := by
  refine outcome (decides_each vs fun v _ => ?_)
  unfold pointCompress EncodedClaim
  refine decides_reading (point_reads hD hodd v.p) fun pk P hP hpk => ?_
  by_cases h : 0 < xCoord P ∧ xCoord P < n ∧ 0 < yCoord P ∧ yCoord P < n
  · rw [(C19_round_trip_partial (ε := Unit) m w cp p n a b G hD pk hpk.1 P hpk.2 hP.1 hP.2.1 h.1 h.2.1 h.2.2.1 h.2.2.2 v.compressed).1, bind_ok]
    exact decides_assert ⟨fun e => ⟨h, (eq_of_beq e).symm⟩, fun e => beq_iff_eq.mpr e.2.symm⟩
  · rw [(C19_panics (ε := Unit) m w cp p n a b G hD pk hpk.1 P hpk.2 v.compressed).mpr h]
    exact decides_panic fun h' => h h'.1

open Classical in
/-- C95: the test of invalid signatures passes exactly if every entry is refused for one of the listed reasons.  So it fails for a
signature that is merely wrong. -/
theorem C95_invalid_verify (hodd : cp.cofactor % 2 = 1) (h8 : bitLength n % 8 = 0) (vs : List BadSignature) :
    each (invalidVerify m w cp) vs = if ∀ v ∈ vs, RefusedClaim n (curve (a : ZMod p) (b : ZMod p)) v then .ok () else .panic := by
  refine outcome (decides_each vs fun v _ => ?_)
  unfold invalidVerify RefusedClaim
  rcases point_cases (m := m) hD hodd v.key with ⟨P, pk, hP, e, hp1, hp2, -⟩ | ⟨hno, e', e⟩
  swap
  · rw [e]
    exact ⟨fun _ => ⟨(), rfl⟩, fun h => absurd (.inl hno) h⟩
  rw [e]
  have hkey : ∃ P : (curve (a : ZMod p) (b : ZMod p)).Point, PointText n v.key P := ⟨P, hP⟩
  rcases signature_cases (m := m) hD v.signature with ⟨r, s, sig, hs, e2, hs1, hr, hs2, uniq⟩ | ⟨hno, e', e2⟩
  swap
  · rw [e2]
    exact ⟨fun _ => ⟨(), rfl⟩, fun h => absurd (.inr (.inl hno)) h⟩
  rw [e2]
  have hsig : ∃ r s, SignatureText n v.signature r s := ⟨r, s, hs⟩
  have hhigh : (∃ r s, SignatureText n v.signature r s ∧ n / 2 < s) ↔ n / 2 < s := by
    constructor
    · rintro ⟨r', s', h1, h2⟩
      rw [← (uniq r' s' h1).2]
      exact h2
    · exact fun h => ⟨r, s, hs, h⟩
  refine Decides.congr ?_ (decides_reading (P := fun hash => hash = [] ∨ (v.strict = true ∧ n / 2 < s) ∨ hash.length * 8 ≠ bitLength n ∨
    leadingBits (bitLength n) hash = 0) (hash_reads v.hash) fun hash hash' _ hh => ?_)
  · simp only [hkey, hsig, not_true_eq_false, false_or, hhigh]
  · subst hh
    have hv := C25_verify m w cp p n a b G hD sig hs1 r s hs.1 hs.2.2.1 hs.2.2.2.1 hr hs2 pk hp1 P hp2 hP.2.1 hash
      { VerifyingOptions.default with enforceLowS := v.strict } (fun _ => h8) _ rfl
    generalize verifyWithOptions m w hash sig pk { VerifyingOptions.default with enforceLowS := v.strict } = res at hv ⊢
    simp only [VerifyingOptions.default, true_and] at hv
    split at hv
    · rw [hv]; rename_i h
      exact decides_assert ⟨fun _ => .inl h, fun _ => rfl⟩
    split at hv
    · rw [hv]; rename_i h
      exact decides_assert ⟨fun _ => .inr (.inl h), fun _ => rfl⟩
    split at hv
    · rw [hv]; rename_i h
      exact decides_assert ⟨fun _ => .inr (.inr (.inl h)), fun _ => rfl⟩
    split at hv
    · rw [hv]; rename_i h
      exact decides_assert ⟨fun _ => .inr (.inr (.inr h)), fun _ => rfl⟩
    rename_i h1 h2 h3 h4
    have hout : ¬ (hash = [] ∨ (v.strict = true ∧ n / 2 < s) ∨ hash.length * 8 ≠ bitLength n ∨ leadingBits (bitLength n) hash = 0) := by
      rintro (h | h | h | h)
      · exact h1 h
      · exact h2 h
      · exact h3 h
      · exact h4 h
    have : ∃ o, res = .ok o := by
      by_cases hE : EcdsaVerifies n G P (leadingBits (bitLength n) hash) r s
      · exact ⟨_, hv.1 hE⟩
      · exact ⟨_, hv.2 hE⟩
    obtain ⟨o, rfl⟩ := this
    exact decides_panic hout

end

open Classical in
/-- C95: the test of addresses passes exactly if every account that has a private key has the checksummed text of its address, and there
are more than 1000 of them. -/
theorem C95_accounts (m : Build) (w : Nat) [DigitWidth w] (vs : List Account) :
    accounts m w vs = if Eth.RightFile (fun v : Account => v.privateKey = none) AccountClaim 1000 vs then .ok () else .panic := by
  suffices hone : ∀ v, (v.privateKey = none → account m w v = .ok false) ∧ (¬ v.privateKey = none → AccountClaim v → account m w v = .ok true) ∧
      (¬ v.privateKey = none → ¬ AccountClaim v → account m w v = .panic) by
    obtain ⟨f0, h⟩ := file_runs (fun _ _ => account m w) (fun v : Account => v.privateKey = none) AccountClaim 1000 vs
      fun v _ => ⟨0, fun _ _ _ _ => hone v⟩
    exact h f0 f0 le_rfl le_rfl
  rintro ⟨_ | t, ck⟩
  · exact ⟨fun _ => rfl, fun h => absurd rfl h, fun h => absurd rfl h⟩
  have key : ((AccountClaim ⟨some t, ck⟩ → account m w ⟨some t, ck⟩ = .ok true) ∧ (¬ AccountClaim ⟨some t, ck⟩ → account m w ⟨some t, ck⟩ = .panic)) := by
    cases ck with
    | none => exact ⟨fun ⟨_, _, _, _, _, _, _, h⟩ => (by cases h), fun _ => rfl⟩
    | some c =>
      unfold account AccountClaim
      simp only [unwrap, bind_ok]
      rcases data_reads t with ⟨bs, _, e, rfl, hS⟩ | ⟨e, hS⟩
      swap
      · rw [e]
        refine ⟨?_, fun _ => rfl⟩
        rintro ⟨t', key, ht, hk, -⟩
        cases ht
        exact absurd hk (hS key)
      simp only [e, bind_ok]
      by_cases len : bs.length = 32
      swap
      · rw [dif_neg len]
        refine ⟨?_, fun _ => rfl⟩
        rintro ⟨t', key, ht, hk, hl, -⟩
        cases ht
        cases (hS key).mp hk
        exact absurd hl len
      rw [dif_pos len]
      obtain ⟨k, ek, hsome, -⟩ := C47_private_key (ε := Unit) m w bs len
      simp only [ek, bind_ok]
      cases k with
      | none =>
        refine ⟨?_, fun _ => rfl⟩
        rintro ⟨t', key, ht, hk, hl, h0, hn, -⟩
        cases ht
        cases (hS key).mp hk
        exact absurd (hsome.mpr ⟨h0, hn⟩) (by decide)
      | some k =>
        obtain ⟨pk, a, e1, e2, ha⟩ := C47_address (ε := Unit) m w bs len k ek
        obtain ⟨h0, hn⟩ := hsome.mp rfl
        simp only [unwrap, bind_ok, e1, e2, address_display, ha]
        have claim : (∃ t' key, some t = some t' ∧ Eth.DataText t' key ∧ key.length = 32 ∧ 0 < ofBE key ∧ ofBE key < Secp256k1.n ∧
            some c = some (Eth.addressText (Eth.addressOf Sha3.keccak256 (xCoord (ofBE key • LCT.Secp256k1.G)) (yCoord (ofBE key • LCT.Secp256k1.G))))) ↔
            c = Eth.addressText (Eth.addressOf Sha3.keccak256 (xCoord (ofBE bs • LCT.Secp256k1.G)) (yCoord (ofBE bs • LCT.Secp256k1.G))) := by
          constructor
          · rintro ⟨t', key, ht, hk, -, -, -, hc⟩
            cases ht
            cases (hS key).mp hk
            exact Option.some.inj hc
          · exact fun hc => ⟨t, bs, rfl, (hS bs).mpr rfl, len, h0, hn, by rw [hc]⟩
        rw [claim]
        generalize Eth.addressText _ = text
        by_cases hc : c = text
        · rw [beq_iff_eq.mpr hc.symm]
          exact ⟨fun _ => rfl, fun h => absurd hc h⟩
        · rw [beq_eq_false_iff_ne.mpr (Ne.symm hc)]
          exact ⟨fun h => absurd h hc, fun _ => rfl⟩
  exact ⟨fun h => (by cases h), fun _ => key.1, fun _ => key.2⟩

section
variable (m : Build) (w : Nat) [DigitWidth w]

private theorem secp_bits : bitLength Secp256k1.n = 256 := by decide +kernel
private theorem secp_256 : Secp256k1.n < 256 ^ 32 := by decide +kernel

/-- C95: the tests of the repository use secp256k1; for it there are no further conditions, but for negation. -/
theorem C95_secp256k1 : ∃ cp, (secp256k1 w : Out Unit _) = .ok cp ∧
    (∀ vs, each (isPrivate m w cp) vs = .ok () ↔ ∀ v ∈ vs, IsPrivateClaim Secp256k1.n v) ∧
    (∀ vs, each (privateAdd m w cp) vs = .ok () ↔ ∀ v ∈ vs, SumClaim Secp256k1.n v) ∧
    (∀ vs : List (List UInt8 × List UInt8), (∀ v ∈ vs, ∀ z, NumberText v.1 z → 0 ≤ z ∧ z < Secp256k1.n) →
      (each (KeyTests.negate m w cp) vs = .ok () ↔ ∀ v ∈ vs, NegateClaim Secp256k1.n v)) ∧
    (∀ vs, each (publicOfPrivate m w cp) vs = .ok () ↔ ∀ v ∈ vs, PublicClaim Secp256k1.n LCT.Secp256k1.G v) ∧
    (∀ vs, each (isPoint m w cp) vs = .ok () ↔
      ∀ v ∈ vs, (v.2 = true ↔ ∃ P : (curve ((0 : Int) : ZMod Secp256k1.p) ((7 : Int) : ZMod Secp256k1.p)).Point, PointText Secp256k1.n v.1 P)) ∧
    (∀ vs, each (pointFromScalar m w cp) vs = .ok () ↔ ∀ v ∈ vs, ScalarClaim Secp256k1.n LCT.Secp256k1.G v) ∧
    (∀ vs, each (pointCompress m w cp) vs = .ok () ↔
      ∀ v ∈ vs, EncodedClaim Secp256k1.n (curve ((0 : Int) : ZMod Secp256k1.p) ((7 : Int) : ZMod Secp256k1.p)) v) ∧
    (∀ vs, each (invalidVerify m w cp) vs = .ok () ↔
      ∀ v ∈ vs, RefusedClaim Secp256k1.n (curve ((0 : Int) : ZMod Secp256k1.p) ((7 : Int) : ZMod Secp256k1.p)) v) := by
  classical
  obtain ⟨cp, ecp, hD, hcof⟩ := secp256k1_y (ε := Unit) w
  have hodd : cp.cofactor % 2 = 1 := by rw [hcof]
  have passes : ∀ {P : Prop} [Decidable P], ((if P then .ok () else .panic : Out Unit Unit) = .ok ()) ↔ P := by
    intro P _
    by_cases h : P
    · simp [h]
    · simp [h]
  refine ⟨cp, ecp, fun vs => ?_, fun vs => ?_, fun vs hr => ?_, fun vs => ?_, fun vs => ?_, fun vs => ?_, fun vs => ?_, fun vs => ?_⟩
  · rw [C95_is_private m w cp _ _ _ _ _ hD]; exact passes
  · rw [C95_private_add m w cp _ _ _ _ _ hD secp_256]; exact passes
  · rw [C95_negate m w cp _ _ _ _ _ hD secp_256 vs hr]; exact passes
  · rw [C95_public_of_private m w cp _ _ _ _ _ hD]; exact passes
  · rw [C95_is_point m w cp _ _ _ _ _ hD hodd]; exact passes
  · rw [C95_point_from_scalar m w cp _ _ _ _ _ hD hodd]; exact passes
  · rw [C95_point_compress m w cp _ _ _ _ _ hD hodd]; exact passes
  · rw [C95_invalid_verify m w cp _ _ _ _ _ hD hodd (by rw [secp_bits])]; exact passes

private theorem number (len v : Nat) (hl : 0 < len) (hv : v < 256 ^ len) : NumberText (fixedHex len v) v := .inr (fixedHex_numeral hl hv)

private theorem number_unique {t : List UInt8} {z z' : Int} (h : NumberText t z) (h' : NumberText t z') : z = z' := by
  haveI : DigitWidth (8 * 1) := ⟨1, le_rfl, rfl⟩
  rcases number_reads (w := 8 * 1) t with ⟨_, b, -, -, hS⟩ | ⟨-, hS⟩
  · exact ((hS z).mp h).trans ((hS z').mp h').symm
  · exact absurd h (hS z)

private theorem point_G : PointText Secp256k1.n (compressedText Secp256k1.n LCT.Secp256k1.G) LCT.Secp256k1.G := by
  have hx : xCoord LCT.Secp256k1.G = Secp256k1.gx := gx_val
  refine ⟨LCT.Secp256k1.G_ne_zero, LCT.Secp256k1.n_mul_G, .inr ⟨_, rfl, by rw [fixedHex_length], fixedHex_numeral (by decide +kernel) ?_⟩⟩
  rw [hx]
  exact lt_octets_len (by decide +kernel)

/-- Right entries pass and wrong ones do not: one is a private key, zero and the order are not; the sum of the largest private key and one is no
key; the negation of one is the largest private key; the public key of one is the base point. -/
example : ∃ cp, (secp256k1 w : Out Unit _) = .ok cp ∧
    each (isPrivate m w cp) [(fixedHex 1 1, true), (fixedHex 1 0, false), (fixedHex 32 Secp256k1.n, false)] = .ok () ∧
    each (isPrivate m w cp) [(fixedHex 1 1, true), (fixedHex 1 0, true)] ≠ .ok () ∧
    each (privateAdd m w cp) [⟨fixedHex 32 (Secp256k1.n - 1), fixedHex 1 1, none⟩, ⟨fixedHex 1 1, fixedHex 1 1, some (fixedHex 32 2)⟩] = .ok () ∧
    each (KeyTests.negate m w cp) [(fixedHex 1 1, fixedHex 32 (Secp256k1.n - 1))] = .ok () ∧
    each (publicOfPrivate m w cp) [49 :: 58 :: fixedHex 32 Secp256k1.gx] = .ok () ∧
    each (isPoint m w cp) [(compressedText Secp256k1.n LCT.Secp256k1.G, true)] = .ok () ∧
    each (isPoint m w cp) [(compressedText Secp256k1.n LCT.Secp256k1.G, false)] ≠ .ok () ∧
    each (pointFromScalar m w cp) [(fixedHex 1 1, compressedText Secp256k1.n LCT.Secp256k1.G)] = .ok () ∧
    each (pointCompress m w cp) [⟨compressedText Secp256k1.n LCT.Secp256k1.G, false, uncompressedText Secp256k1.n LCT.Secp256k1.G⟩] = .ok () := by
  obtain ⟨cp, e, h1, h2, h3, h4, h5, h6, h7, -⟩ := C95_secp256k1 m w
  have hx : xCoord LCT.Secp256k1.G = Secp256k1.gx := gx_val
  have hy : yCoord LCT.Secp256k1.G = Secp256k1.gy := gy_val
  have one := number 1 1 (by decide) (by decide)
  have zero := number 1 0 (by decide) (by decide)
  have top := number 32 Secp256k1.n (by decide) secp_256
  have last := number 32 (Secp256k1.n - 1) (by decide) (by decide +kernel)
  have abscissa := number 32 Secp256k1.gx (by decide) (by decide +kernel)
  refine ⟨cp, e, (h1 _).mpr ?_, fun h => ?_, (h2 _).mpr ?_, (h3 _ ?_).mpr ?_, (h4 _).mpr ?_, (h5 _).mpr ?_, fun h => ?_, (h6 _).mpr ?_, (h7 _).mpr ?_⟩
  · simp only [List.forall_mem_cons]
    refine ⟨⟨_, one, by decide +kernel⟩, ⟨_, zero, by decide +kernel⟩, ⟨_, top, by decide +kernel⟩, ?_⟩
    simp
  · obtain ⟨z, hz, hiff⟩ := (h1 _).mp h (fixedHex 1 0, true) (by simp)
    have := number_unique hz zero
    have := (hiff.mp rfl).1
    simp_all
  · simp only [List.forall_mem_cons]
    refine ⟨⟨_, _, last, by decide +kernel, by decide +kernel, one, ?_⟩,
      ⟨_, _, one, by decide +kernel, by decide +kernel, one, ?_⟩, by simp⟩
    · rw [if_neg (by decide +kernel)]
    · rw [if_pos (by decide +kernel)]
      exact congrArg (fun k => some (fixedHex 32 k)) (by decide +kernel)
  · intro v hv z hz
    rw [List.mem_singleton.mp hv] at hz
    rw [number_unique hz one]
    decide +kernel
  · intro v hv
    rw [List.mem_singleton.mp hv]
    refine ⟨_, one, ?_⟩
    rw [show ((Secp256k1.n : Int) - (1 : Nat)).toNat = Secp256k1.n - 1 by decide +kernel]
  · intro v hv
    rw [List.mem_singleton.mp hv]
    refine ⟨[49], fixedHex 32 Secp256k1.gx, ⟨by decide, ?_, .inl rfl⟩, 1, .inr ⟨[], [49], [1], 1, rfl, .none, ⟨by decide, by decide, by decide⟩, by decide⟩,
      by decide, by decide +kernel, ?_⟩
    · decide +kernel
    · rw [one_smul, hx]
      exact abscissa
  · intro v hv
    rw [List.mem_singleton.mp hv]
    exact ⟨fun _ => ⟨_, point_G⟩, fun _ => rfl⟩
  · exact absurd (((h5 _).mp h _ (List.mem_singleton_self _)).mpr ⟨_, point_G⟩) (by decide)
  · intro v hv
    rw [List.mem_singleton.mp hv]
    exact ⟨1, one, by decide, by decide +kernel, by rw [one_smul]; exact point_G⟩
  · intro v hv
    rw [List.mem_singleton.mp hv]
    refine ⟨_, point_G, ?_, rfl⟩
    rw [hx, hy]
    decide +kernel

/-- C95: the test of invalid signatures cannot pass for one that is merely wrong: for every public key, signature with a small `s` and hash of 32 bytes
that is not zero it fails, whether or not the signature is right. -/
theorem C95_wrong_signature : ∃ cp, (secp256k1 w : Out Unit _) = .ok cp ∧
    ∀ (key sig hash : List UInt8) (P : (curve ((0 : Int) : ZMod Secp256k1.p) ((7 : Int) : ZMod Secp256k1.p)).Point) (r s : Nat) (strict : Bool),
      PointText Secp256k1.n key P → SignatureText Secp256k1.n sig r s → s ≤ Secp256k1.n / 2 → hash.length = 32 → ofBE hash ≠ 0 →
        each (invalidVerify m w cp) [⟨key, hexOf hash, sig, strict⟩] = .panic := by
  classical
  obtain ⟨cp, ecp, hD, hcof⟩ := secp256k1_y (ε := Unit) w
  refine ⟨cp, ecp, fun key sig hash P r s strict hk hs hlow hl hz => ?_⟩
  rw [C95_invalid_verify m w cp _ _ _ _ _ hD (by rw [hcof]) (by rw [secp_bits]), if_neg]
  intro hall
  rcases hall _ (List.mem_singleton_self _) with h | h | ⟨hash', hh, h⟩
  · exact h ⟨P, hk⟩
  · exact h ⟨r, s, hs⟩
  · have hh' : lower (hexOf hash) = hexOf hash' := hh
    unfold lower at hh'
    rw [lower_hexOf] at hh'
    obtain rfl := Codecs.hexOf_injective hh'
    rcases h with rfl | ⟨-, r', s', h1, h2⟩ | h | h
    · cases hl
    · rcases signature_cases (m := m) hD sig with ⟨r0, s0, _, _, _, _, _, _, uniq⟩ | ⟨hno, -⟩
      · rw [(uniq r' s' h1).2, ← (uniq r s hs).2] at h2
        omega
      · exact hno ⟨r, s, hs⟩
    · rw [secp_bits, hl] at h
      exact h rfl
    · rw [secp_bits] at h
      unfold leadingBits at h
      rw [hl] at h
      exact hz (by simpa using h)

/-- Such a key, signature and hash exist. -/
example : PointText Secp256k1.n (compressedText Secp256k1.n LCT.Secp256k1.G) LCT.Secp256k1.G ∧
    SignatureText Secp256k1.n (p1363Text Secp256k1.n 1 1) 1 1 ∧ 1 ≤ Secp256k1.n / 2 ∧ (octets 32 1).length = 32 ∧ ofBE (octets 32 1) ≠ 0 :=
  ⟨point_G, ⟨by decide, by decide +kernel, by decide, by decide +kernel, by decide +kernel⟩, by decide +kernel, by decide +kernel, by decide +kernel⟩

/-- An account with the private key one: 1001 times it passes, 1000 times it does not. -/
example :
    let one : Account := ⟨some (48 :: 120 :: fixedHex 32 1), some (Eth.addressText (Eth.addressOf Sha3.keccak256 Secp256k1.gx Secp256k1.gy))⟩
    accounts m w (⟨none, none⟩ :: List.replicate 1001 one) = .ok () ∧ accounts m w (⟨none, none⟩ :: List.replicate 1000 one) = .panic := by
  classical
  intro one
  have hx : xCoord LCT.Secp256k1.G = Secp256k1.gx := gx_val
  have hy : yCoord LCT.Secp256k1.G = Secp256k1.gy := gy_val
  have hone : AccountClaim one := by
    refine ⟨_, octets 32 1, rfl, ?_, by decide +kernel, by decide +kernel, by decide +kernel, ?_⟩
    · exact ⟨48, 120, _, rfl, by decide +kernel, by decide +kernel, by decide +kernel⟩
    · rw [show ofBE (octets 32 1) = 1 by decide +kernel, one_smul, hx, hy]
  have key : ∀ k, Eth.RightFile (fun v : Account => v.privateKey = none) AccountClaim 1000 (⟨none, none⟩ :: List.replicate k one) ↔ 1000 < k := by
    intro k
    unfold Eth.RightFile
    rw [List.countP_cons_of_neg (by simp), List.countP_replicate, if_pos (by simp [one])]
    constructor
    · rintro ⟨-, h⟩
      exact h
    · intro h
      refine ⟨fun v hv hne => ?_, h⟩
      rcases List.mem_cons.mp hv with rfl | hv
      · exact absurd rfl hne
      · rw [(List.mem_replicate.mp hv).2]
        exact hone
  rw [C95_accounts, C95_accounts, if_pos ((key _).mpr (by decide)), if_neg fun h => absurd ((key _).mp h) (by decide)]
  exact ⟨rfl, rfl⟩

end

end LCT.Props
