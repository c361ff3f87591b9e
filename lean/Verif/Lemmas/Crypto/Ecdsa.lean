import Verif.Lemmas.Crypto.EcdsaMath
import Verif.Lemmas.Crypto.Params

/-!
# Keys, signing with a given nonce and verification refine the specification
-/

namespace LCT.Crypto
open LCT.Spec LCT.Out LCT.BigInt LCT.Modular LCT.Curve
open WeierstrassCurve.Affine (Point.some Point.zero)
variable {ε : Type} {w : Nat} [hw : DigitWidth w] {p n : Nat} [hpr : Fact p.Prime] {cp : Params} {a b : Int}
  {G : (curve (a : ZMod p) (b : ZMod p)).Point} (m : Build)

omit hw hpr in
theorem point_x {W : WeierstrassCurve.Affine (ZMod p)} {pt : Point} {P : W.Point} (h : PointDenotes w pt P) :
    Denotes w pt.x (xCoord P : Nat) ∧ Denotes w pt.y (yCoord P : Nat) := by
  cases P with
  | zero => exact h
  | some x y hn => exact h

omit hpr in
theorem inOrderRange_y {x xn : BInt} {z : Int} (hx : Denotes w x z) (hn : Denotes w xn (n : Int)) :
    (inOrderRange m w x xn : Out ε _).Yields (· = decide (0 < z ∧ z < n)) := by
  unfold inOrderRange
  run (zero_y w) with o ho
  run (gt_y m hx ho) with _ rfl
  by_cases h : z > 0
  · rw [if_pos (decide_eq_true h)]
    exact (lt_y m hx hn).mono (by rintro _ rfl; simp [h])
  · rw [if_neg (by simpa using h)]
    exact .pure (by simp only [gt_iff_lt] at h; simp [h])

omit hpr in
theorem privateKeyNew_y {x : BInt} {d : Int} (hx : Denotes w x d) (hn : Denotes w cp.order (n : Int)) :
    (PrivateKey.new m w x cp : Out ε _).Yields (· = if 0 < d ∧ d < n then some ⟨x, cp⟩ else none) := by
  unfold PrivateKey.new
  run (inOrderRange_y m hx hn) with _ rfl
  refine .pure ?_
  by_cases h : 0 < d ∧ d < n <;> simp [h]

theorem publicKeyNew_z (hD : Domain w cp p n a b G) {pt : Point} {x y : Int} (hx : Denotes w pt.x x) (hy : Denotes w pt.y y)
    (hclear : Clear w n cp (curve (a : ZMod p) (b : ZMod p)) pt) :
    (PublicKey.new m w pt cp : Out ε _).Yields (fun o => (ValidPoint w n (W := curve (a : ZMod p) (b : ZMod p)) pt ∧ o = some ⟨pt, cp⟩) ∨
      (¬ ValidPoint w n (W := curve (a : ZMod p) (b : ZMod p)) pt ∧ o = none)) := by
  unfold PublicKey.new
  run (validatePoint_z m hD hx hy hclear) with r hr
  refine .pure ?_
  cases r
  · exact Or.inr ⟨fun h => absurd (hr.mpr h) (by decide), rfl⟩
  · exact Or.inl ⟨hr.mp rfl, rfl⟩

theorem publicKeyNew_y (hD : Domain w cp p n a b G) (hodd : cp.cofactor % 2 = 1) {pt : Point} {x y : Int} (hx : Denotes w pt.x x)
    (hy : Denotes w pt.y y) :
    (PublicKey.new m w pt cp : Out ε _).Yields (fun o => (ValidPoint w n (W := curve (a : ZMod p) (b : ZMod p)) pt ∧ o = some ⟨pt, cp⟩) ∨
      (¬ ValidPoint w n (W := curve (a : ZMod p) (b : ZMod p)) pt ∧ o = none)) :=
  publicKeyNew_z m hD hx hy (clear_odd hD hodd pt)

theorem publicKeyNew_zero (hc : CurveDenotes w cp.curve p a b) {pt : Point} (hx : Denotes w pt.x 0) (hy : Denotes w pt.y 0) :
    (PublicKey.new m w pt cp : Out ε _) = .ok none := by
  suffices h : (cp.validatePoint m w pt : Out ε _).Yields (· = false) by
    obtain ⟨_, e, rfl⟩ := h
    unfold PublicKey.new
    rw [e]
    rfl
  have hp : (0 : Int) < p := by exact_mod_cast hpr.out.pos
  unfold Params.validatePoint
  run (anyNegative_y m hx hy) with _ rfl
  rw [if_neg (by simp)]
  run (anyTooLarge_y m hx hy hc.p) with _ rfl
  rw [if_neg (by simp [hpr.out.ne_zero])]
  run (mul_y m hy hy) with l hl
  run (modulo_z m hl hc.p) with l' hl'
  run (rhs_y m hc.a hc.b hx) with r hr
  run (modulo_z m hr hc.p) with r' hr'
  run (beq_z m hl' hr') with _ rfl
  split
  · exact .pure rfl
  · run (isIdentity_y m (res_of_int (p := p) hx (by omega) hp) (res_of_int (p := p) hy (by omega) hp)) with _ rfl
    rw [if_pos (by simp)]
    exact .pure rfl

/-- The public key of a private key is a multiple of the base point. -/
theorem publicKey_y (hD : Domain w cp p n a b G) {key : PrivateKey} (hkey : key.params = cp) {d : Nat} (hd : Denotes w key.data d)
    (hd0 : (d : ZMod n) ≠ 0) : (key.publicKey m w : Out ε _).Yields (fun pk => pk.params = cp ∧ PointDenotes w pk.data (d • G)) := by
  have hnp : Fact n.Prime := ⟨hD.n_prime⟩
  subst hkey
  unfold PrivateKey.publicKey
  run (hD.mul m hD.base hD.G_order hd) with q hq
  obtain ⟨hx, hy⟩ := point_x hq
  run (publicKeyNew_z m hD hx hy (clear_sub hD hq (smul_smul_zero hD.G_order d))) with o ho
  rcases ho with ⟨-, rfl⟩ | ⟨h, -⟩
  · exact .pure ⟨rfl, hq⟩
  · exact absurd ⟨d • G, hq, smul_ne_zero' hD.G_ne hD.G_order hd0, smul_smul_zero hD.G_order d⟩ h

omit hpr in
theorem signatureNew_y {xr xs : BInt} {r s : Int} (hr : Denotes w xr r) (hs : Denotes w xs s) (hn : Denotes w cp.order (n : Int)) :
    (Signature.new m w xr xs cp : Out ε _).Yields (· = if 0 < r ∧ r < n ∧ 0 < s ∧ s < n then some ⟨xr, xs, cp⟩ else none) := by
  unfold Signature.new Signature.isValid
  simp only
  have : (do
      let b ← inOrderRange m w xr cp.order
      if b then inOrderRange m w xs cp.order else return false : Out ε Bool).Yields (· = decide (0 < r ∧ r < n ∧ 0 < s ∧ s < n)) := by
    run (inOrderRange_y m hr hn) with _ rfl
    by_cases h : 0 < r ∧ r < n
    · rw [if_pos (decide_eq_true h)]
      exact (inOrderRange_y m hs hn).mono (by rintro _ rfl; simp [h])
    · rw [if_neg (by simpa using h)]
      refine .pure ?_
      symm
      rw [decide_eq_false_iff_not]
      exact fun h' => h ⟨h'.1, h'.2.1⟩
  run this with _ rfl
  refine .pure ?_
  by_cases h : 0 < r ∧ r < n ∧ 0 < s ∧ s < n <;> simp [h]

omit hpr in
theorem isLowS_y {sig : Signature} {s : Nat} (hs : Denotes w sig.s (s : Int)) (hn : Denotes w sig.params.order (n : Int)) (hodd : n % 2 = 1) :
    (sig.isLowS m w : Out ε _).Yields (· = decide (s ≤ n / 2)) := by
  unfold Signature.isLowS
  run (dassertM_y m (isOdd_y hn |>.mono (by rintro _ rfl; apply decide_eq_true; omega))) with - -
  run (shr_y m hn 1) with half hh
  refine (le_y m hs hh).mono ?_
  rintro _ rfl
  apply decide_eq_decide.mpr
  rw [Int.tdiv_eq_ediv_of_nonneg (by omega)]
  omega

/-- The recovery id built from the two comparisons. -/
theorem recoveryId_eq (high odd : Bool) : ∃ id, RecoveryId.fromU8 (boolU8 high <<< 1 ||| boolU8 odd) = some id ∧
    idHigh id = high ∧ idOdd id = odd := by
  cases high <;> cases odd <;> exact ⟨_, rfl, rfl, rfl⟩

/-- What signing returns. -/
def SignResult (w n : Nat) {W : WeierstrassCurve.Affine (ZMod p)} (cp : Params) (G : W.Point) (d e k : Nat)
    (o : Option (Signature × RecoveryId)) : Prop :=
  ((ecdsaR n G k = 0 ∨ ecdsaS n G d e k = 0) ∧ o = none) ∨
  (ecdsaR n G k ≠ 0 ∧ ecdsaS n G d e k ≠ 0 ∧ ∃ sig id, o = some (sig, id) ∧ sig.params = cp ∧
    Denotes w sig.r (ecdsaR n G k : Nat) ∧ Denotes w sig.s (ecdsaS n G d e k : Nat) ∧
    idHigh id = decide (n ≤ xCoord (k • G)) ∧ idOdd id = decide (yCoord (k • G) % 2 = 1))

theorem sign_y (hD : Domain w cp p n a b G) {key : PrivateKey} (hkey : key.params = cp) {d e k : Nat} (hd : Denotes w key.data d)
    {xe xk : BInt} (he : Denotes w xe e) (hel : bitLength e ≤ bitLength n) (hk : Denotes w xk k) (hk0 : 0 < k) (hkn : k < n) :
    (key.sign m w xe xk : Out ε _).Yields (SignResult w n cp G d e k) := by
  have hnp : Fact n.Prime := ⟨hD.n_prime⟩
  subst hkey
  unfold PrivateKey.sign
  run (bitLen_y m he) with _ rfl
  run (bitLen_y m hD.order) with _ rfl
  run (Yields.rassert (decide_eq_true (by simpa using hel))) with - -
  run (inOrderRange_y m hk hD.order) with _ rfl
  run (Yields.rassert (decide_eq_true (by omega))) with - -
  run (hD.mul m hD.base hD.G_order hk) with kg hkg
  obtain ⟨hx, hy⟩ := point_x hkg
  run (modulo_z m hx hD.order) with r hr
  have hrv : (((xCoord (k • G) : Nat) : Int) : ZMod n).val = ecdsaR n G k := by
    rw [Int.cast_natCast, ZMod.val_natCast]; rfl
  have hr' : Denotes w r (ecdsaR n G k : Nat) := by rw [← hrv]; exact hr
  run (isZero_y m hr') with _ rfl
  by_cases hrz : ((ecdsaR n G k : Nat) : Int) = 0
  · rw [if_pos (decide_eq_true hrz)]
    exact .pure (Or.inl ⟨Or.inl (by omega), rfl⟩)
  rw [if_neg (by rw [decide_eq_false hrz]; decide)]
  have hkz : ((k : Int) : ZMod n) ≠ 0 := by
    rw [Int.cast_natCast]; exact cast_ne_zero_of_lt hk0 hkn
  run (mul_y m hr' hd) with rd hrd
  run (add_y m he hrd) with t ht
  run (invertUnwrap_y m hk hD.order hkz) with ki hki
  run (mul_y m ht hki) with s hs
  run (modulo_z m hs hD.order) with s' hs'
  have hsv : ((((e : Int) + (ecdsaR n G k : Nat) * (d : Nat)) * ((((k : Int) : ZMod n)⁻¹).val : Int) : Int) : ZMod n).val =
      ecdsaS n G d e k := by
    unfold ecdsaS
    congr 1
    push_cast
    rw [ZMod.natCast_zmod_val]
  have hs'' : Denotes w s' (ecdsaS n G d e k : Nat) := by rw [← hsv]; exact hs'
  run (isZero_y m hs'') with _ rfl
  by_cases hsz : ((ecdsaS n G d e k : Nat) : Int) = 0
  · rw [if_pos (decide_eq_true hsz)]
    exact .pure (Or.inl ⟨Or.inr (by omega), rfl⟩)
  rw [if_neg (by rw [decide_eq_false hsz]; decide)]
  run (beq_y m hx hr') with _ rfl
  run (isOdd_y hy) with _ rfl
  obtain ⟨id, hid, hh, ho⟩ := recoveryId_eq (!decide (((xCoord (k • G) : Nat) : Int) = (ecdsaR n G k : Nat)))
    (decide (¬ 2 ∣ ((yCoord (k • G) : Nat) : Int)))
  rw [hid]
  run (Yields.of_eq (Q := fun z => id = z) (unwrap_some id) rfl) with _ rfl
  run (signatureNew_y m hr' hs'' hD.order) with _ rfl
  have hrlt : ecdsaR n G k < n := Nat.mod_lt _ hD.n_prime.pos
  have hslt : ecdsaS n G d e k < n := ZMod.val_lt _
  rw [if_pos (by omega)]
  run (Yields.of_eq (Q := fun z => _ = z) (unwrap_some _) rfl) with _ rfl
  refine .pure (Or.inr ⟨by omega, by omega, _, id, rfl, rfl, hr', hs'', ?_, ?_⟩)
  · rw [hh, ← decide_not]
    apply decide_eq_decide.mpr
    have hdef : ecdsaR n G k = xCoord (k • G) % n := rfl
    rw [hdef]
    constructor
    · intro h
      by_contra hlt
      exact h (by rw [Nat.mod_eq_of_lt (by omega)])
    · intro h h'
      have := Nat.mod_lt (xCoord (k • G)) hD.n_prime.pos
      omega
  · rw [ho]
    apply decide_eq_decide.mpr
    omega

theorem verify_y (hD : Domain w cp p n a b G) {pk : PublicKey} (hpk : pk.params = cp) {Q : (curve (a : ZMod p) (b : ZMod p)).Point}
    (hQ : PointDenotes w pk.data Q) (hQn : n • Q = 0) {sig : Signature} {e r s : Nat} {xe : BInt} (he : Denotes w xe e) (hel : bitLength e ≤ bitLength n)
    (hr : Denotes w sig.r r) (hs : Denotes w sig.s s) (hr0 : 0 < r) (hs0 : (s : ZMod n) ≠ 0) :
    (pk.verify m w xe sig : Out ε _).Yields (fun o => o = true ↔ EcdsaVerifies n G Q e r s) := by
  have hnp : Fact n.Prime := ⟨hD.n_prime⟩
  subst hpk
  unfold PublicKey.verify
  run (bitLen_y m he) with _ rfl
  run (bitLen_y m hD.order) with _ rfl
  run (Yields.rassert (decide_eq_true (by simpa using hel))) with - -
  have hs0' : ((s : Int) : ZMod n) ≠ 0 := by rwa [Int.cast_natCast]
  run (invertUnwrap_y m hs hD.order hs0') with wi hwi
  run (mul_y m hwi he) with u hu
  run (modulo_z m hu hD.order) with u' hu'
  run (mul_y m hwi hr) with v hv
  run (modulo_z m hv hD.order) with v' hv'
  have hz : ∀ z : Nat, ((((((s : Int) : ZMod n)⁻¹).val : Int) * (z : Int) : Int) : ZMod n) = (z : ZMod n) * (s : ZMod n)⁻¹ := by
    intro z
    push_cast
    rw [ZMod.natCast_zmod_val, mul_comm]
  rw [hz] at hu' hv'
  run (hD.mul m hD.base hD.G_order hu') with ug hug
  run (hD.mul m hQ hQn hv') with vp hvp
  run (hD.add m hug hvp fun _ => hD.double (smul_smul_zero hD.G_order _)) with q hq
  obtain ⟨hx, -⟩ := point_x hq
  run (modulo_y m hx hD.order (by have := hD.n_prime.pos; omega)) with qx hqx
  refine (beq_y m hqx hr).mono ?_
  rintro _ rfl
  rw [decide_eq_true_iff]
  unfold EcdsaVerifies
  constructor
  · intro h
    refine ⟨?_, by exact_mod_cast h⟩
    intro h0
    rw [h0] at h
    have : (0 : Int) % n = r := h
    rw [Int.zero_emod] at this
    omega
  · rintro ⟨-, h⟩
    exact_mod_cast h

omit hpr in
/-- The hash converted to a number: its leading bits. -/
theorem fromBeBytesMaxBits_y {bytes : List UInt8} (h : bytes ≠ []) {bits : Nat} (hb : 0 < bits) :
    (fromBeBytesMaxBits m w bytes bits : Out ε _).Yields (fun x => Denotes w x (leadingBits bits bytes : Nat)) := by
  unfold fromBeBytesMaxBits
  run (Yields.dassert (decide_eq_true hb)) with - -
  split
  · rename_i hle
    refine (fromBeBytes_y w bytes h).mono fun x hx => ?_
    unfold leadingBits
    rw [Nat.sub_eq_zero_of_le hle, Nat.pow_zero, Nat.div_one]
    exact hx
  · rename_i hgt
    have hlen : ∀ k, k ≤ bytes.length → ofBE (bytes.take k) = ofBE bytes / 2 ^ ((bytes.length - k) * 8) := by
      intro k hk
      conv_rhs => rw [← List.take_append_drop k bytes]
      rw [ofBE_append, List.length_drop, List.length_append, List.length_take, List.length_drop]
      have h1 : min k bytes.length + (bytes.length - k) - k = bytes.length - k := by omega
      have hlt := ofBE_lt (bytes.drop k)
      rw [List.length_drop] at hlt
      rw [h1, Nat.mul_comm _ 8, Nat.pow_mul, show 2 ^ 8 = 256 from rfl, Nat.add_comm, Nat.add_mul_div_right _ _ (Nat.pow_pos (by decide)),
        Nat.div_eq_of_lt hlt, Nat.zero_add]
    simp only
    split
    · rename_i h0
      refine (fromBeBytes_y w _ (by
        intro h'
        have := congrArg List.length h'
        rw [List.length_take, List.length_nil] at this
        omega)).mono fun x hx => ?_
      rw [hlen _ (by omega)] at hx
      unfold leadingBits
      have : (bytes.length - bits / 8) * 8 = bytes.length * 8 - bits := by omega
      rwa [this] at hx
    · rename_i h0
      run (fromBeBytes_y w (bytes.take (bits / 8 + 1)) (by
        intro h'
        have := congrArg List.length h'
        rw [List.length_take, List.length_nil] at this
        omega)) with x hx
      rw [hlen _ (by omega)] at hx
      refine (shr_y m hx (8 - bits % 8)).mono fun y hy => ?_
      unfold leadingBits
      rw [Int.tdiv_eq_ediv_of_nonneg (Int.natCast_nonneg _)] at hy
      have e1 : (((ofBE bytes / 2 ^ ((bytes.length - (bits / 8 + 1)) * 8) : Nat) : Int)) / 2 ^ (8 - bits % 8) =
          ((ofBE bytes / 2 ^ ((bytes.length - (bits / 8 + 1)) * 8) / 2 ^ (8 - bits % 8) : Nat) : Int) := by push_cast; rfl
      rw [e1, Nat.div_div_eq_div_mul, ← Nat.pow_add] at hy
      have e2 : (bytes.length - (bits / 8 + 1)) * 8 + (8 - bits % 8) = bytes.length * 8 - bits := by omega
      rwa [e2] at hy

omit hpr in
theorem hashLengthMatches_y {len : Nat} (hn : Denotes w cp.order (n : Int)) (h8 : bitLength n % 8 = 0) :
    (hashLengthMatches m w len cp : Out ε _).Yields (· = decide (len * 8 = bitLength n)) := by
  unfold hashLengthMatches
  run (dassertM_y m (by
    run (bitLen_y m hn) with _ rfl
    exact .pure (by simpa using h8))) with - -
  run (bitLen_y m hn) with _ rfl
  exact .pure (by simp [Bool.beq_eq_decide_eq])

omit hpr hw in
theorem bitLength_le_iff (x k : Nat) : bitLength x ≤ k ↔ x < 2 ^ k := by
  unfold bitLength
  split
  · rename_i h
    subst h
    simp
  · rename_i h
    rw [Nat.succ_le_iff, Nat.log2_lt h]

omit hpr hw in
theorem bitLength_leadingBits (hash : List UInt8) (bits : Nat) : bitLength (leadingBits bits hash) ≤ bits := by
  rw [bitLength_le_iff]
  unfold leadingBits
  apply Nat.div_lt_of_lt_mul
  rw [← Nat.pow_add]
  refine Nat.lt_of_lt_of_le (ofBE_lt hash) ?_
  rw [show 256 = 2 ^ 8 from rfl, ← Nat.pow_mul]
  exact Nat.pow_le_pow_right (by decide) (by omega)

omit hpr hw in
theorem bitLength_pos (hn : 0 < n) : 0 < bitLength n := by
  unfold bitLength
  split <;> omega

theorem verifyWithOptions_eq (hD : Domain w cp p n a b G) {pk : PublicKey} (hpk : pk.params = cp)
    {Q : (curve (a : ZMod p) (b : ZMod p)).Point} (hQ : PointDenotes w pk.data Q) (hQn : n • Q = 0) {sig : Signature} (hsig : sig.params = cp) {r s : Nat}
    (hr : Denotes w sig.r r) (hs : Denotes w sig.s s) (hr0 : 0 < r) (hs0 : 0 < s) (hsn : s < n) (hash : List UInt8)
    (o : VerifyingOptions) (h8 : o.strictHashByteLength = true → bitLength n % 8 = 0) :
    (hash = [] → verifyWithOptions m w hash sig pk o = .err .EmptyHashNotAllowed) ∧
    (hash ≠ [] → o.enforceLowS = true → ¬ s ≤ n / 2 → verifyWithOptions m w hash sig pk o = .err .StrictHighSFound) ∧
    (hash ≠ [] → (o.enforceLowS = true → s ≤ n / 2) → o.strictHashByteLength = true → hash.length * 8 ≠ bitLength n →
      verifyWithOptions m w hash sig pk o = .err .HashBitLengthDoesNotMatchBasePointOrder) ∧
    (hash ≠ [] → (o.enforceLowS = true → s ≤ n / 2) → (o.strictHashByteLength = true → hash.length * 8 = bitLength n) →
      leadingBits (bitLength n) hash = 0 → verifyWithOptions m w hash sig pk o = .err .ZeroHashNotAllowed) ∧
    (hash ≠ [] → (o.enforceLowS = true → s ≤ n / 2) → (o.strictHashByteLength = true → hash.length * 8 = bitLength n) →
      leadingBits (bitLength n) hash ≠ 0 → (verifyWithOptions m w hash sig pk o).Yields
        (fun v => v = true ↔ EcdsaVerifies n G Q (leadingBits (bitLength n) hash) r s)) := by
  subst hpk
  have hnp : Fact n.Prime := ⟨hD.n_prime⟩
  have hlow : ((if o.enforceLowS then sig.isLowS m w else pure true : Out VerifyingError Bool)).Yields
      (fun low => low = true ↔ (o.enforceLowS = true → s ≤ n / 2)) := by
    cases he : o.enforceLowS
    · exact .pure (by simp)
    · exact (isLowS_y m hs (hsig ▸ hD.order) hD.n_odd).mono (by rintro _ rfl; simp)
  have hlen : ((if o.strictHashByteLength then hashLengthMatches m w hash.length pk.params else pure true : Out VerifyingError Bool)).Yields
      (fun len => len = true ↔ (o.strictHashByteLength = true → hash.length * 8 = bitLength n)) := by
    cases he : o.strictHashByteLength
    · exact .pure (by simp)
    · exact (hashLengthMatches_y m hD.order (h8 he)).mono (by rintro _ rfl; simp)
  obtain ⟨low, elow, hlow⟩ := hlow
  obtain ⟨len, elen, hlen⟩ := hlen
  unfold verifyWithOptions
  rw [elow, elen]
  by_cases he : hash = []
  · subst he
    refine ⟨fun _ => rfl, fun h => absurd rfl h, fun h => absurd rfl h, fun h => absurd rfl h, fun h => absurd rfl h⟩
  have h1 : failIf VerifyingError.EmptyHashNotAllowed hash.isEmpty = .ok () := by
    cases hash with
    | nil => exact absurd rfl he
    | cons _ _ => rfl
  rw [h1]
  simp only [bind_ok]
  refine ⟨fun h => absurd h he, ?_, ?_, ?_, ?_⟩
  · intro _ h h'
    have : low = false := by rw [← Bool.not_eq_true, hlow]; exact fun h'' => h' (h'' h)
    rw [this]; rfl
  · intro _ h h' h''
    rw [hlow.mpr h]
    have : len = false := by rw [← Bool.not_eq_true, hlen]; exact fun h3 => h'' (h3 h')
    rw [this]; rfl
  all_goals
    intro _ h h' h''
    rw [hlow.mpr h, hlen.mpr h']
    obtain ⟨nl, e1, rfl⟩ := bitLen_y (ε := VerifyingError) m hD.order
    obtain ⟨hn, e2, hhn⟩ := fromBeBytesMaxBits_y (ε := VerifyingError) (w := w) m he (bitLength_pos hD.n_prime.pos)
    obtain ⟨z, e3, rfl⟩ := isZero_y (ε := VerifyingError) m hhn
    have e2' : (fromBeBytesMaxBits m w hash (bitLength (n : Int).natAbs) : Out VerifyingError BInt) = .ok hn := e2
    rw [e1]
    simp only [bind_ok, e2', e3]
    simp only [failIf, Bool.not_true, Bool.false_eq_true, if_false, bind_ok, decide_eq_true_iff]
  · rw [if_pos (by omega)]; rfl
  · rw [if_neg (by omega)]
    exact verify_y m hD rfl hQ hQn hhn (bitLength_leadingBits hash _) hr hs hr0 (cast_ne_zero_of_lt hs0 hsn)

end LCT.Crypto
