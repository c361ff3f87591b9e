import Verif.Lemmas.RandomTests
import Verif.Lemmas.Crypto.Binding
import Verif.Lemmas.Crypto.Secp256k1Params
import Verif.Props.Signing
import Verif.Props.Encoding
import Verif.Props.Rlp

/-!
# The project's random tests of signing, point encoding and RLP decoding (C86)
-/

namespace LCT.Props
open LCT.Spec LCT.Out LCT.BigInt LCT.RandomTests LCT.Crypto
variable {ε : Type} (m : Build) (w : Nat) [hw : DigitWidth w]

/-- A signature with `r ≥ p - n` that verifies for `e` verifies for `e + 1` exactly if `2·(e + r·d) + 1` is a multiple of the order. -/
private theorem next_hash {cp : Params} {p n : Nat} [Fact p.Prime] {a b : Int} {G : (curve (a : ZMod p) (b : ZMod p)).Point}
    (hD : Domain w cp p n a b G) (hpn : p ≤ 2 * n) {d e r s : Nat} (hs : (s : ZMod n) ≠ 0) (hr : p ≤ r + n)
    (hv : EcdsaVerifies n G (d • G) e r s) : EcdsaVerifies n G (d • G) (e + 1) r s ↔ (2 * (e + r * d) + 1) % n = 0 := by
  haveI := Fact.mk hD.n_prime
  rw [← Nat.dvd_iff_mod_eq_zero, ← ZMod.natCast_eq_zero_iff]
  have hQ := smul_smul_zero hD.G_order d
  constructor
  · intro hv'
    have h1 : verifierPoint n G (d • G) e r s ≠ 0 ∧ xCoord (verifierPoint n G (d • G) e r s) % n = r := hv
    have h2 : verifierPoint n G (d • G) (e + 1) r s ≠ 0 ∧ xCoord (verifierPoint n G (d • G) (e + 1) r s) % n = r := hv'
    have e1 := smul_verifierPoint hD.G_order hQ (e := e) (r := r) hs
    have e2 := smul_verifierPoint hD.G_order hQ (e := e + 1) (r := r) hs
    rcases same_or_opposite hpn h1.1 h2.1 (h1.2.trans h2.2.symm)
      (iff_of_false (low_of_large hr h1.2 h1.1) (low_of_large hr h2.2 h2.1)) with h | h
    · rw [h, e1] at e2
      have e3 := smul_inj hD.G_ne hD.G_order (add_right_cancel e2)
      push_cast at e3
      exact absurd (by linear_combination -e3 : (1 : ZMod n) = 0) one_ne_zero
    · rw [h, neg_nsmul, e1] at e2
      have e3 : (2 * (e + r * d) + 1) • G = 0 • G := by
        rw [zero_nsmul, show 2 * (e + r * d) + 1 = (e + d * r) + ((e + 1) + d * r) by ring, add_nsmul,
          add_nsmul G (e + 1) (d * r), add_nsmul G e (d * r), mul_nsmul, ← e2, add_neg_cancel]
      have := smul_inj hD.G_ne hD.G_order e3
      simpa using this
  · intro h
    refine second_hash hD hv ?_
    push_cast at h ⊢
    linear_combination h

/-- C86: `sign_and_verify`, whatever numbers are drawn for the hash, the private key and the nonce (the two latter below the order; texts as
short as those drawn give numbers below `2^64`, see `C86_drawn_below`).  The test passes if the key or the nonce is zero.  Otherwise it
panics exactly if the textbook `r` or `s` is zero; if not, and if `r ≥ p - n`, it passes exactly if `2·(hash + r·d) + 1` is not a multiple of
the order.  Missing for "passes whatever is drawn": those exceptions, and the `r` below `p - n < 2^129`, for which the test
still returns. -/
theorem C86_sign_partial (hHex dHex kHex : List UInt8) (hh : DrawnHex hHex) (hd : DrawnHex dHex) (hk : DrawnHex kHex)
    (hhl : drawnValue hHex + 1 < 2 ^ 256) (hdn : drawnValue dHex < Secp256k1.n) (hkn : drawnValue kHex < Secp256k1.n) :
    let r := ecdsaR Secp256k1.n LCT.Secp256k1.G (drawnValue kHex)
    let s := ecdsaS Secp256k1.n LCT.Secp256k1.G (drawnValue dHex) (drawnValue hHex) (drawnValue kHex)
    (drawnValue dHex = 0 ∨ drawnValue kHex = 0 → (signAndVerify m w hHex dHex kHex : Out ε _) = .ok true) ∧
    (0 < drawnValue dHex → 0 < drawnValue kHex →
      ((signAndVerify m w hHex dHex kHex : Out ε _) = .panic ↔ r = 0 ∨ s = 0) ∧
      (r ≠ 0 → s ≠ 0 → (∃ passes, (signAndVerify m w hHex dHex kHex : Out ε _) = .ok passes) ∧
        (Secp256k1.p ≤ r + Secp256k1.n → (signAndVerify m w hHex dHex kHex : Out ε _) =
          .ok (decide ((2 * (drawnValue hHex + r * drawnValue dHex) + 1) % Secp256k1.n ≠ 0))))) := by
  intro r s
  obtain ⟨cp, ecp, hD, hcof⟩ := secp256k1_y (ε := ε) w
  obtain ⟨xh, eh, xhh⟩ := fromHex_y (ε := ε) (w := w) (numeral_of_hex hh)
  obtain ⟨xd, ed, xdd⟩ := fromHex_y (ε := ε) (w := w) (numeral_of_hex hd)
  obtain ⟨xk, ek, xkk⟩ := fromHex_y (ε := ε) (w := w) (numeral_of_hex hk)
  obtain ⟨_, ez, rfl⟩ := isZero_y (ε := ε) m xdd
  obtain ⟨_, ezk, rfl⟩ := isZero_y (ε := ε) m xkk
  by_cases d0 : drawnValue dHex = 0
  · refine ⟨fun _ => ?_, fun h => by omega⟩
    simp only [signAndVerify, ecp, eh, ed, ez, Out.bind_ok, d0, Nat.cast_zero, decide_true, if_true]
    rfl
  obtain ⟨_, ekey, rfl⟩ := privateKeyNew_y (ε := ε) m xdd hD.order
  rw [if_pos (by omega)] at ekey
  obtain ⟨pk, epk, hpk1, hpk2⟩ := publicKey_y (ε := ε) m hD (key := ⟨xd, cp⟩) rfl xdd (cast_ne_zero_of_lt (by omega) hdn)
  have start : (signAndVerify m w hHex dHex kHex : Out ε _) = if decide ((drawnValue kHex : Int) = 0) then pure true else do
      let r ← PrivateKey.sign m w ⟨xd, cp⟩ xh xk
      let (sig, _) ← unwrap r
      let success ← pk.verify m w xh sig
      let one ← BInt.one w
      let hash1 ← BInt.add m w xh one
      let failure ← pk.verify m w hash1 sig
      return success && !failure := by
    have hnz : ¬ ((drawnValue dHex : Int) = 0) := by omega
    simp only [signAndVerify, ecp, eh, ed, ez, ekey, epk, ek, ezk, Out.bind_ok, decide_eq_false hnz, Bool.false_eq_true, if_false, unwrap]
  rw [start]
  by_cases k0 : drawnValue kHex = 0
  · refine ⟨fun _ => ?_, fun _ h => by omega⟩
    rw [k0]
    rfl
  refine ⟨fun h => by omega, fun _ _ => ?_⟩
  rw [decide_eq_false (by omega), if_neg Bool.false_ne_true]
  have hel : bitLength (drawnValue hHex) ≤ bitLength Secp256k1.n := by rw [show bitLength Secp256k1.n = 256 by decide +kernel, bitLength_le_iff]; omega
  have hel' : bitLength (drawnValue hHex + 1) ≤ bitLength Secp256k1.n := by rw [show bitLength Secp256k1.n = 256 by decide +kernel, bitLength_le_iff]; omega
  obtain ⟨res, er, hr⟩ := sign_y (ε := ε) m hD (key := ⟨xd, cp⟩) rfl xdd xhh hel xkk (by omega) hkn
  rw [er, Out.bind_ok]
  rcases hr with ⟨h1, rfl⟩ | ⟨h1, h2, sig, id, rfl, h3, h4, h5, -⟩
  · refine ⟨iff_of_true rfl h1, fun h h' => ?_⟩
    rcases h1 with h1 | h1
    · exact absurd h1 h
    · exact absurd h1 h'
  haveI := Fact.mk hD.n_prime
  have hslt : s < Secp256k1.n := ZMod.val_lt _
  have hs0 : ((s : Nat) : ZMod Secp256k1.n) ≠ 0 := cast_ne_zero_of_lt (Nat.pos_of_ne_zero h2) hslt
  have hver := sign_verifies (d := drawnValue dHex) hD.G_ne hD.G_order (cast_ne_zero_of_lt (Nat.pos_of_ne_zero k0) hkn) h2
  have hQn := smul_smul_zero hD.G_order (drawnValue dHex)
  obtain ⟨v, ev, hv⟩ := verify_y (ε := ε) m hD hpk1 hpk2 hQn xhh hel h4 h5 (Nat.pos_of_ne_zero h1) hs0
  rw [hv.mpr hver] at ev
  obtain ⟨one, eone, hone⟩ := one_y (ε := ε) w
  obtain ⟨x1, e1, hx1⟩ := add_y (ε := ε) m xhh hone
  obtain ⟨v', ev', hv'⟩ := verify_y (ε := ε) m hD hpk1 hpk2 hQn (e := drawnValue hHex + 1) (by exact_mod_cast hx1) hel' h4 h5
    (Nat.pos_of_ne_zero h1) hs0
  simp only [unwrap, Out.bind_ok, ev, eone, e1, ev']
  refine ⟨⟨fun h => (nomatch h), fun h => absurd h (not_or.mpr ⟨h1, h2⟩)⟩, fun _ _ => ⟨⟨_, rfl⟩, fun hp => ?_⟩⟩
  have key := next_hash w hD (by decide) hs0 hp hver
  rw [key] at hv'
  have hfin : (true && !v') = decide ((2 * (drawnValue hHex + r * drawnValue dHex) + 1) % Secp256k1.n ≠ 0) := by
    by_cases hm : (2 * (drawnValue hHex + r * drawnValue dHex) + 1) % Secp256k1.n = 0
    · rw [hv'.mpr hm, decide_eq_false (not_not.mpr hm)]
      rfl
    · rw [decide_eq_true hm, Bool.eq_false_iff.mpr fun h => hm (hv'.mp h)]
      rfl
  exact congrArg Out.ok hfin

/-- The random tests of signing and of point encoding draw at most 16 digits (`GEN_SIZE`, `/repo/src/crypto/ecdsa/ecdsa_core.rs:356`,
`/repo/src/crypto/sec1.rs:503`); such texts stand for numbers below `2^64`. -/
theorem C86_drawn_below (s : List UInt8) (h : DrawnHex s) (hl : s.length ≤ 16) : drawnValue s < 2 ^ 64 := by
  have key : ∀ (t : List UInt8) (acc : Nat), (∀ c ∈ t, IsHexDigit c) →
      t.foldl (fun acc c => acc * 16 + (hexVal c).getD 0) acc < (acc + 1) * 16 ^ t.length := by
    intro t
    induction t with
    | nil => intro acc _; simp
    | cons c t ih =>
      intro acc ht
      have h1 := ih (acc * 16 + (hexVal c).getD 0) fun c hc => ht c (List.mem_cons_of_mem _ hc)
      have h2 := (digit_of_hex (ht c List.mem_cons_self)).2
      rw [List.foldl_cons, List.length_cons, Nat.pow_succ]
      calc _ < _ := h1
        _ ≤ (acc + 1) * 16 * 16 ^ t.length := Nat.mul_le_mul_right _ (by omega)
        _ = _ := by ring
  have h3 := key s 0 h.2.2
  rw [Nat.zero_add, Nat.one_mul] at h3
  calc drawnValue s < 16 ^ s.length := h3
    _ ≤ 16 ^ 16 := Nat.pow_le_pow_right (by decide) hl
    _ = 2 ^ 64 := by decide

/-- Every number below `2^256` is drawn as some text of 64 digits. -/
private theorem drawn_text (v : Nat) (hv : v < 2 ^ 256) : DrawnHex (fixedHex 32 v) ∧ drawnValue (fixedHex 32 v) = v := by
  have hl := fixedHex_length 32 v
  have hd : DrawnHex (fixedHex 32 v) := ⟨fun h => (by rw [h] at hl; simp at hl), by rw [hl], hexOf_digits _⟩
  refine ⟨hd, ?_⟩
  have := numeral_unique (numeral_of_hex hd) (fixedHex_numeral (len := 32) (v := v) (by decide) (by norm_num at hv ⊢; exact hv))
  exact_mod_cast this

/-- C86, what is missing in `C86_sign_partial` is not empty: with longer draws than the test makes, there are a hash and a private key for
which the correct code fails `sign_and_verify` (with private key 1, nonce 1 and a hash such that `2·(hash + r) + 1` is a multiple of the
order, the signature also verifies for the hash plus one). -/
theorem C86_sign_violated : ∃ hHex dHex kHex, DrawnHex hHex ∧ DrawnHex dHex ∧ DrawnHex kHex ∧ hHex.length = 64 ∧
    drawnValue dHex = 1 ∧ drawnValue kHex = 1 ∧ (signAndVerify m w hHex dHex kHex : Out ε _) = .ok false := by
  have hgx : xCoord LCT.Secp256k1.G = Secp256k1.gx := by
    show ((Secp256k1.gx : Nat) : ZMod Secp256k1.p).val = _
    exact ZMod.val_cast_of_lt (by decide +kernel)
  have hr : ecdsaR Secp256k1.n LCT.Secp256k1.G 1 = Secp256k1.gx := by
    unfold ecdsaR
    rw [one_nsmul, hgx]
    decide +kernel
  obtain ⟨h1, h2⟩ := drawn_text ((Secp256k1.n - 1) / 2 - Secp256k1.gx) (by decide +kernel)
  obtain ⟨d1, d2⟩ : DrawnHex [48, 49] ∧ drawnValue [48, 49] = 1 := ⟨⟨by decide, by decide, by decide⟩, by decide⟩
  refine ⟨_, [48, 49], [48, 49], h1, d1, d1, fixedHex_length 32 _, d2, d2, ?_⟩
  obtain ⟨-, h⟩ := C86_sign_partial (ε := ε) m w _ _ _ h1 d1 d1 (by rw [h2]; decide +kernel) (by rw [d2]; decide +kernel)
    (by rw [d2]; decide +kernel)
  rw [h2, d2, hr] at h
  have hs : ecdsaS Secp256k1.n LCT.Secp256k1.G 1 ((Secp256k1.n - 1) / 2 - Secp256k1.gx) 1 ≠ 0 := by
    haveI := Fact.mk LCT.Secp256k1.prime_n
    unfold ecdsaS
    rw [hr]
    intro h0
    rw [ZMod.val_eq_zero] at h0
    have h3 : (((Secp256k1.n - 1) / 2 : Nat) : ZMod Secp256k1.n) = 0 := by
      have e : (Secp256k1.n - 1) / 2 - Secp256k1.gx + Secp256k1.gx * 1 = (Secp256k1.n - 1) / 2 := by decide +kernel
      rw [← e, Nat.cast_add, Nat.cast_mul]
      rwa [Nat.cast_one, inv_one, mul_one, ← Nat.cast_one (R := ZMod Secp256k1.n)] at h0
    exact cast_ne_zero_of_lt (by decide +kernel) (by decide +kernel) h3
  have := ((h (by decide) (by decide)).2 (by decide +kernel) hs).2 (by decide +kernel)
  rw [this]
  exact congrArg Out.ok (by decide +kernel)

/-- C86: `point_to_hex_double_conversion`, whatever is drawn.  The test passes for zero, panics for the other multiples of the order, and
otherwise passes exactly if both coordinates of the public key lie in `[1, n-1]`, and panics if not.  Missing for "passes whatever is drawn":
those keys (see `C86_sec1_violated`). -/
theorem C86_sec1_partial (dHex : List UInt8) (hd : DrawnHex dHex) :
    let Q := (drawnValue dHex % Secp256k1.n) • LCT.Secp256k1.G
    (drawnValue dHex = 0 → (sec1DoubleConversion m w dHex : Out ε _) = .ok true) ∧
    (drawnValue dHex ≠ 0 → drawnValue dHex % Secp256k1.n = 0 → (sec1DoubleConversion m w dHex : Out ε _) = .panic) ∧
    (drawnValue dHex % Secp256k1.n ≠ 0 → (sec1DoubleConversion m w dHex : Out ε _) =
      if 0 < xCoord Q ∧ xCoord Q < Secp256k1.n ∧ 0 < yCoord Q ∧ yCoord Q < Secp256k1.n then .ok true else .panic) := by
  intro Q
  obtain ⟨cp, ecp, hD, hcof⟩ := secp256k1_y (ε := ε) w
  obtain ⟨xd, ed, xdd⟩ := fromHex_y (ε := ε) (w := w) (numeral_of_hex hd)
  obtain ⟨_, ez, rfl⟩ := isZero_y (ε := ε) m xdd
  have hn0 : 0 < Secp256k1.n := hD.n_prime.pos
  obtain ⟨xr, er, xrr⟩ := rem_y (ε := ε) m xdd hD.order (by omega)
  rw [show Int.tmod (drawnValue dHex : Int) (Secp256k1.n : Int) = ((drawnValue dHex % Secp256k1.n : Nat) : Int) from rfl] at xrr
  obtain ⟨_, ekey, rfl⟩ := privateKeyNew_y (ε := ε) m xrr hD.order
  by_cases d0 : drawnValue dHex = 0
  · refine ⟨fun _ => ?_, fun h => absurd d0 h, fun h => absurd (by rw [d0]; rfl) h⟩
    simp only [sec1DoubleConversion, ed, ez, Out.bind_ok, d0, Nat.cast_zero, decide_true, if_true]
    rfl
  have hnz : ¬ ((drawnValue dHex : Int) = 0) := by omega
  have hlt : drawnValue dHex % Secp256k1.n < Secp256k1.n := Nat.mod_lt _ hn0
  refine ⟨fun h => absurd h d0, fun _ h0 => ?_, fun h0 => ?_⟩
  · rw [if_neg (by omega)] at ekey
    simp only [sec1DoubleConversion, ecp, ed, ez, er, ekey, Out.bind_ok, decide_eq_false hnz, Bool.false_eq_true, if_false, unwrap]
    rfl
  · rw [if_pos (by omega)] at ekey
    obtain ⟨pk, epk, hpk1, hpk2⟩ := publicKey_y (ε := ε) m hD (key := ⟨xr, cp⟩) rfl xrr (cast_ne_zero_of_lt (by omega) hlt)
    simp only [sec1DoubleConversion, ecp, ed, ez, er, ekey, epk, Out.bind_ok, decide_eq_false hnz, Bool.false_eq_true, if_false, unwrap]
    have hQ0 : Q ≠ 0 := by
      intro h
      haveI := Fact.mk hD.n_prime
      have := smul_inj hD.G_ne hD.G_order (h.trans (zero_nsmul _).symm)
      exact cast_ne_zero_of_lt (by omega) hlt (by simpa using this)
    by_cases hx : 0 < xCoord Q ∧ xCoord Q < Secp256k1.n ∧ 0 < yCoord Q ∧ yCoord Q < Secp256k1.n
    · rw [if_pos hx]
      have rt := fun {ε : Type} (pk : PublicKey) (hp : pk.params = cp) (hP : PointDenotes w pk.data Q) =>
        C19_round_trip_partial (ε := ε) m w cp _ _ 0 7 _ hD pk hp Q hP hQ0 (smul_smul_zero hD.G_order _) hx.1 hx.2.1 hx.2.2.1 hx.2.2.2 true
      obtain ⟨e1, pk', e2, hp', hP'⟩ := rt (ε := ε) pk hpk1 hpk2
      obtain ⟨e3, -⟩ := rt (ε := ε) pk' hp' hP'
      simp only [if_true] at e1 e2 e3
      simp only [e1, e2, e3, Out.bind_ok, unwrapped, beq_self_eq_true]
      rfl
    · rw [if_neg hx, (C19_panics m w cp _ _ 0 7 _ hD pk hpk1 Q hpk2 true).mpr hx]
      rfl

/-- C86 is violated for `point_to_hex_double_conversion` with draws longer than the test makes: there are a private key in `[1, n-1]` and a
text of 64 digits for it with which the test panics; and it panics for the text of the order. -/
theorem C86_sec1_violated :
    (∃ dHex, DrawnHex dHex ∧ dHex.length = 64 ∧ 0 < drawnValue dHex ∧ drawnValue dHex < Secp256k1.n ∧
      (sec1DoubleConversion m w dHex : Out ε _) = .panic) ∧
    ∃ dHex, DrawnHex dHex ∧ drawnValue dHex = Secp256k1.n ∧ (sec1DoubleConversion m w dHex : Out ε _) = .panic := by
  constructor
  · haveI := Fact.mk LCT.Secp256k1.prime_n
    obtain ⟨k, hk⟩ : ∃ k : Nat, k • LCT.Secp256k1.G = WeierstrassCurve.Affine.Point.some _ _ big_nonsingular :=
      AddSubmonoid.mem_multiples_iff .. |>.mp (mem_multiples_of_prime_card LCT.Secp256k1.card_points LCT.Secp256k1.G_ne_zero)
    have hlt : k % Secp256k1.n < Secp256k1.n := Nat.mod_lt _ LCT.Secp256k1.prime_n.pos
    have hk' : (k % Secp256k1.n) • LCT.Secp256k1.G = WeierstrassCurve.Affine.Point.some _ _ big_nonsingular := by
      rw [← hk]
      exact smul_congr LCT.Secp256k1.n_mul_G (by simp)
    have h0 : k % Secp256k1.n ≠ 0 := by
      intro h
      rw [h, zero_nsmul] at hk'
      exact WeierstrassCurve.Affine.Point.some_ne_zero _ hk'.symm
    obtain ⟨h1, h2⟩ := drawn_text (k % Secp256k1.n) (hlt.trans (by decide))
    refine ⟨_, h1, fixedHex_length 32 _, by omega, by omega, ?_⟩
    have := (C86_sec1_partial (ε := ε) m w _ h1).2.2
    rw [h2, Nat.mod_mod] at this
    rw [this h0, if_neg]
    rintro ⟨-, h, -⟩
    rw [hk'] at h
    change ((bigX : Nat) : ZMod Secp256k1.p).val < _ at h
    rw [bigX_val] at h
    exact absurd h (by decide)
  · obtain ⟨h1, h2⟩ := drawn_text Secp256k1.n (by decide)
    refine ⟨_, h1, h2, (C86_sec1_partial (ε := ε) m w _ h1).2.1 ?_ ?_⟩
    · rw [h2]; decide
    · rw [h2]; decide

/-- C86: `test_decoding_random_data_will_not_panic`, whatever is drawn: the test passes exactly if the data neither begin (in builds with
overflow checks) with a header that declares a length of `2^64 - 9` or more, nor consist of well-formed items followed by such a header;
otherwise it panics.  Missing for "passes whatever is drawn": those data (see `C86_rlp_violated`). -/
theorem C86_rlp_partial (data : List UInt8) (hlen : data.length < 2 ^ 64) :
    let bad := (m = .debug ∧ DeclaresHugeLength data) ∨
      ∃ items before rest, data = before ++ rest ∧ RelaxedSeq items before ∧ DeclaresHugeLength rest
    (¬ bad → (decodingWillNotPanic m data : Out ε _) = .ok true) ∧ (bad → (decodingWillNotPanic m data : Out ε _) = .panic) := by
  intro bad
  have e1 := C36_decode_data_partial m data
  have e2 := C36_list_panics_iff_partial m data hlen
  have e3 := (C36_decode_list_partial m data).2
  have both : (decodingWillNotPanic m data : Out ε _) = (do dropped (Rlp.decodeData m data); dropped (Rlp.decodeListPayload m data); return true) := rfl
  rw [both]
  constructor
  · intro hb
    have h1 : (Rlp.decodeData m data).Returns := Classical.byContradiction fun h => hb (.inl (e1.1.mp h))
    have h2 : Rlp.decodeListPayload m data ≠ .panic := fun h => hb (.inr (e2.mp h))
    revert h1 h2 e3
    cases Rlp.decodeData m data <;> cases Rlp.decodeListPayload m data <;> intro e3 h1 h2 <;>
      first | rfl | exact absurd rfl h2 | exact absurd rfl e3 | exact absurd h1 (by simp [Out.Returns])
  · intro hb
    have h1 := e1.2
    have h2 : ¬ (Rlp.decodeData m data).Returns ∨ Rlp.decodeListPayload m data = .panic := hb.imp e1.1.mpr e2.mpr
    revert h1 h2 e3
    cases Rlp.decodeData m data <;> cases Rlp.decodeListPayload m data <;> intro e3 h1 h2 <;>
      first | rfl | exact absurd rfl h1 | exact absurd rfl e3 | (exfalso; simp [Out.Returns] at h2)

/-- C86 is violated for `test_decoding_random_data_will_not_panic`: it panics on these nine bytes, in every build. -/
theorem C86_rlp_violated :
    (decodingWillNotPanic m [0xbf, 0xff, 0xff, 0xff, 0xff, 0xff, 0xff, 0xff, 0xff] : Out ε _) = .panic :=
  (C86_rlp_partial m _ (by decide)).2 (.inr ⟨[], [], _, rfl, .nil, by decide⟩)

-- Non-vacuity: texts that the tests draw, and data on which the RLP test passes.
example : DrawnHex [48, 55] ∧ drawnValue [48, 55] + 1 < 2 ^ 256 ∧ drawnValue [48, 55] < Secp256k1.n ∧ 0 < drawnValue [48, 55] :=
  ⟨⟨by decide, by decide, by decide⟩, by decide, by decide, by decide⟩
example : (decodingWillNotPanic m [0x83, 1, 2, 3, 0xc0] : Out Unit _) = .ok true := by cases m <;> decide

end LCT.Props
