import Verif.Props.TestingTools

/-!
# C93: the benchmarks
-/

namespace LCT.Props
open LCT.Spec LCT.Out LCT.BigInt LCT.RandomTests LCT.TestingTools LCT.Crypto LCT.Ethereum LCT.Random LCT.Hash
variable {ε : Type} (m : Build) (w : Nat) [hw : DigitWidth w]

omit hw in
private theorem drawn {n : Nat} (hn : 0 < n) (h2 : n % 2 = 0) {g : Gen} {s : List UInt8} (h : (randomHex n g : Out ε _) = .ok s) :
    DrawnHex s ∧ s.length = n := by
  obtain ⟨h1, h3⟩ := ((C93_random_hex n).2 s).mp ⟨g, h⟩
  exact ⟨⟨List.length_pos_iff.mp (by omega), by omega, fun c hc => (h3 c hc).1⟩, h1⟩

/-- C93: the benchmark of division, for any size in whole bytes, whatever is drawn: it panics exactly if the divisor drawn is zero, that is if all its
digits are `0`, and otherwise it runs through.  Missing for "never fails": the draw of zero. -/
theorem C93_bench_division_partial (bits : Nat) (hb : 0 < bits) (h8 : bits % 8 = 0) (g g' : Gen) (b : List UInt8)
    (hdraw : (randomHex (bits / 4) g' : Out ε _) = .ok b) :
    (divRemBench m w bits g g' : Out ε _) = if hexNumber b = 0 then .panic else .ok () := by
  obtain ⟨a, ea⟩ := (C93_random_hex (ε := ε) (bits / 4 * 2)).1 g
  obtain ⟨ha, -⟩ := drawn (by omega) (by omega) ea
  obtain ⟨hbd, -⟩ := drawn (by omega) (by omega) hdraw
  obtain ⟨xa, exa, hxa⟩ := fromHex_y (ε := ε) (w := w) (numeral_of_hex ha)
  obtain ⟨xb, exb, hxb⟩ := fromHex_y (ε := ε) (w := w) (numeral_of_hex hbd)
  unfold divRemBench
  simp only [ea, exa, hdraw, exb, bind_ok]
  split
  · rename_i h0
    obtain ⟨k, hk, rfl⟩ := hw.bytes
    rw [drawnValue, h0] at hxb
    rw [(C03_zero_divisor (ε := ε) m k xa xb _ hxa hxb).1]
    rfl
  · rename_i h0
    obtain ⟨q, eq, -⟩ := div_y (ε := ε) m hxa hxb (by rw [drawnValue]; omega)
    rw [eq]
    rfl

/-- C93: the benchmark of public keys panics exactly if the number drawn is no private key: zero, or not below the order. -/
theorem C93_bench_public_key_partial (g : Gen) (t : List UInt8) (hdraw : (randomHex 64 g : Out ε _) = .ok t) :
    (publicKeyBench m w g : Out ε _) = if 0 < hexNumber t ∧ hexNumber t < Secp256k1.n then .ok () else .panic := by
  obtain ⟨ht, -⟩ := drawn (by decide) (by decide) hdraw
  obtain ⟨cp, ecp, hD, -⟩ := secp256k1_y (ε := ε) w
  obtain ⟨x, ex, hx⟩ := fromHex_y (ε := ε) (w := w) (numeral_of_hex ht)
  rw [drawnValue] at hx
  obtain ⟨_, ek, rfl⟩ := privateKeyNew_y (ε := ε) m hx hD.order
  unfold publicKeyBench
  simp only [ecp, hdraw, ex, ek, bind_ok]
  by_cases hc : 0 < hexNumber t ∧ hexNumber t < Secp256k1.n
  · rw [if_pos hc, if_pos (by omega)]
    obtain ⟨pk, epk, -⟩ := publicKey_y (ε := ε) m hD (key := ⟨x, cp⟩) rfl hx (cast_ne_zero_of_lt hc.1 hc.2)
    simp only [unwrap, bind_ok, epk]
    rfl
  · rw [if_neg hc, if_neg (by omega)]
    rfl

omit hw in
private theorem hashOf {t : List UInt8} (h : DrawnHex t) (hl : t.length = 64) :
    ∃ hash, (unwrapped (Codecs.hexToBytes t) : Out ε _) = .ok hash ∧ hash.length = 32 ∧ ofBE hash = hexNumber t := by
  obtain ⟨h1, h2⟩ := digits_of_hex h
  obtain ⟨bs, e⟩ := hexToBytes_of_digitText h1 h.2.1
  obtain ⟨-, ds, hd, -, hv⟩ := hexToBytes_digits h.1 e
  have hd' : ds = t.map fun c => (hexVal c).getD 0 := by
    have := hd.2.1.symm.trans h1.2.1
    exact List.map_injective_iff.mpr (Option.some_injective _) this
  obtain ⟨-, -, e3⟩ := (C17_decode_ok_iff t bs).mp e
  have := congrArg List.length e3
  rw [List.length_map, Codecs.hexOf_length] at this
  exact ⟨bs, by rw [e]; rfl, by omega, by rw [← hv, hd', h2]⟩

/-- C93: the benchmark of signing and verifying panics exactly if the number drawn is no private key or the hash drawn is zero.  Otherwise it runs
through, provided that signing finds a nonce (C27). -/
theorem C93_bench_signing_partial (f nf : Nat) (rand : Nat → Out RandomError (List UInt8)) (g g' : Gen) (t t' : List UInt8)
    (hdraw : (randomHex 64 g : Out ε _) = .ok t) (hdraw' : (randomHex 64 g' : Out ε _) = .ok t') :
    (¬ (0 < hexNumber t ∧ hexNumber t < Secp256k1.n ∧ hexNumber t' ≠ 0) → (signBench m w f nf rand g g' : Out ε _) = .panic) ∧
    (0 < hexNumber t → hexNumber t < Secp256k1.n → hexNumber t' ≠ 0 → (∀ i, rand i ≠ .panic) →
      (signBench m w f nf rand g g' : Out ε _) = .ok () ∨ (signBench m w f nf rand g g' : Out ε _) = .hang) := by
  obtain ⟨ht, -⟩ := drawn (by decide) (by decide) hdraw
  obtain ⟨ht', htl⟩ := drawn (by decide) (by decide) hdraw'
  obtain ⟨cp, ecp, hD, -⟩ := secp256k1_y (ε := ε) w
  obtain ⟨x, ex, hx⟩ := fromHex_y (ε := ε) (w := w) (numeral_of_hex ht)
  rw [drawnValue] at hx
  obtain ⟨_, ek, rfl⟩ := privateKeyNew_y (ε := ε) m hx hD.order
  obtain ⟨hash, eh, hhl, hhv⟩ := hashOf (ε := ε) ht' htl
  have hlead : leadingBits (bitLength Secp256k1.n) hash = ofBE hash := by
    unfold leadingBits
    rw [bitLength_n, hhl, show 32 * 8 - 256 = 0 from rfl, Nat.pow_zero, Nat.div_one]
  have hne : hash ≠ [] := by rintro rfl; cases hhl
  by_cases hc : 0 < hexNumber t ∧ hexNumber t < Secp256k1.n
  · obtain ⟨pk, epk, hpk1, hpk2⟩ := publicKey_y (ε := ε) m hD (key := ⟨x, cp⟩) rfl hx (cast_ne_zero_of_lt hc.1 hc.2)
    have start : (signBench m w f nf rand g g' : Out ε _) = (do
        let (signature, _) ← unwrapped (signDefault m w f nf rand hash ⟨x, cp⟩ { SigningOptions.default with employExtraRandomData := false })
        let result ← unwrapped (verify m w hash signature pk)
        if result then return () else Out.panic) := by
      unfold signBench
      simp only [ecp, hdraw, ex, ek, bind_ok, if_pos (show 0 < (hexNumber t : Int) ∧ (hexNumber t : Int) < Secp256k1.n by omega), unwrap, epk, hdraw', eh]
    have hl : ∀ i bytes, Drawn false (rand i) bytes →
        Sha2.Sha256.blockLen + Sha2.Sha256.outLen + 1 + 2 * ((bitLength Secp256k1.n + 7) / 8) + bytes.length < 2 ^ 61 := by
      intro i bytes hb
      cases (hb : bytes = [])
      rw [bitLength_n]
      decide
    have h8 : bitLength Secp256k1.n % 8 = 0 := by rw [bitLength_n]
    rw [start]
    constructor
    · intro hno
      have h0 : leadingBits (bitLength Secp256k1.n) hash = 0 := by
        rw [hlead, hhv]
        by_contra h
        exact hno ⟨hc.1, hc.2, h⟩
      have := C25_sign m w cp Secp256k1.p Secp256k1.n 0 7 LCT.Secp256k1.G hD Sha2.Sha256 Sha2.sha256 (2 ^ 61) Hash.Sha2.computes256 (by decide)
        (by decide) _ hc.2 ⟨x, cp⟩ rfl hx hash { SigningOptions.default with employExtraRandomData := false } (fun _ => h8) rand hl f nf
        Hash.Sha2.Sha256.fresh _ rfl
      rw [if_neg hne, if_neg (fun h => h.2 (by rw [bitLength_n, hhl])), if_pos ⟨rfl, h0⟩] at this
      rw [signDefault, this]
      rfl
    · intro _ _ hz hrand
      have hz' : leadingBits (bitLength Secp256k1.n) hash ≠ 0 := by rw [hlead, hhv]; exact hz
      cases hs : signDefault m w f nf rand hash ⟨x, cp⟩ { SigningOptions.default with employExtraRandomData := false } with
      | hang => exact .inr rfl
      | panic =>
        exact absurd hs (C27_no_panic m w cp Secp256k1.p Secp256k1.n 0 7 LCT.Secp256k1.G hD Sha2.Sha256 Sha2.sha256 (2 ^ 61) Hash.Sha2.computes256
          (by decide) (by decide) _ hc.1 hc.2 ⟨x, cp⟩ rfl hx hash _ (fun _ => h8) rand hl hrand f nf _)
      | err e =>
        have := (C27_error_source m w cp Secp256k1.p Secp256k1.n 0 7 LCT.Secp256k1.G hD Sha2.Sha256 Sha2.sha256 (2 ^ 61)
          Hash.Sha2.computes256 (by decide) (by decide) _ hc.1 hc.2 ⟨x, cp⟩ rfl hx hash _ (fun _ => h8) rand hl
          hne (fun _ => by rw [bitLength_n, hhl]) (fun _ => hz') f nf _ e hs).1
        cases this
      | ok v =>
        obtain ⟨sig, id⟩ := v
        obtain ⟨-, r, s, hp, hr, hs, hr0, hrn, hs0, hsn, -, hver, -⟩ := signed m w cp Secp256k1.p Secp256k1.n 0 7 LCT.Secp256k1.G hD
          Sha2.Sha256 Sha2.sha256 (2 ^ 61) Hash.Sha2.computes256 (by decide) (by decide) _ hc.1 hc.2 ⟨x, cp⟩ rfl hx hash _ (fun _ => h8) rand hl f nf _
          sig id hs
        obtain ⟨v, ev, hv⟩ := (verifyWithOptions_eq m hD hpk1 hpk2 (smul_smul_zero hD.G_order _) hp hr hs hr0 hs0 hsn hash .default
          (fun _ => h8)).2.2.2.2 hne (fun h => by cases h) (fun _ => by rw [bitLength_n, hhl]) hz'
        rw [hv.mpr hver] at ev
        refine .inl ?_
        simp only [unwrapped, bind_ok]
        rw [show verify m w hash sig pk = .ok true from ev]
        rfl
  · refine ⟨fun _ => ?_, fun h1 h2 => absurd ⟨h1, h2⟩ hc⟩
    unfold signBench
    simp only [ecp, hdraw, ex, ek, bind_ok, if_neg (show ¬ (0 < (hexNumber t : Int) ∧ (hexNumber t : Int) < Secp256k1.n) by omega), unwrap]
    rfl

/-- C93 is violated: the benchmarks draw the numbers that they cannot use, and then they panic. -/
theorem C93_violated (f nf : Nat) (rand : Nat → Out RandomError (List UInt8)) :
    ∃ g : Gen, (∀ bits, 0 < bits → bits % 8 = 0 → (divRemBench m w bits g g : Out ε _) = .panic) ∧ (publicKeyBench m w g : Out ε _) = .panic ∧
      (signBench m w f nf rand g g : Out ε _) = .panic := by
  have zeros : ∀ n, (randomHex n (fun _ => 0) : Out ε _) = .ok (List.replicate n 48) := by
    intro n
    have : ∀ n, (chooseMany lowerHexChars n (fun _ => 0) : Out ε _) = .ok (List.replicate n 48, fun _ => 0) := by
      intro n
      induction n with
      | zero => rfl
      | succ n ih =>
        show (chooseMany lowerHexChars n (fun _ => 0) >>= fun x => _) = _
        rw [ih]
        rfl
    unfold randomHex
    rw [this]
    refine utf8_ascii fun c hc => ?_
    rw [List.eq_of_mem_replicate hc]
    decide
  have zero : ∀ n, hexNumber (List.replicate n 48) = 0 := by
    intro n
    induction n with
    | zero => rfl
    | succ n ih => exact ih
  refine ⟨fun _ => 0, fun bits hb h8 => ?_, ?_, ?_⟩
  · rw [C93_bench_division_partial m w bits hb h8 _ _ _ (zeros _), if_pos (zero _)]
  · rw [C93_bench_public_key_partial m w _ _ (zeros _), if_neg (by rw [zero]; decide)]
  · exact (C93_bench_signing_partial m w f nf rand _ _ _ _ (zeros _) (zeros _)).1 (by rw [zero]; exact fun h => absurd h.1 (by decide))

end LCT.Props
