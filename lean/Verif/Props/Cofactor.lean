import Verif.Props.Recovery
import Verif.Props.Encoding
import Verif.Props.Keys
import Verif.Props.Curve
import Verif.Lemmas.Crypto.ToyCofactor

/-!
# Curves with a cofactor: C16, C20, C23, C24

The domain parameters of the library carry a cofactor, which may be any number.  Multiplication of a point panics exactly if doubling reaches
a point of order two on the way.  Hence on every curve with an even cofactor there are texts and coordinates on which decoding and
constructing a public key panic, and recovery can panic; and on a curve with a cofactor recovery can return several keys although the
recovery id is given.
-/

namespace LCT.Props
open LCT.BigInt LCT.Spec LCT.Out LCT.Modular LCT.Curve LCT.Crypto LCT.Hash LCT.Random
open WeierstrassCurve.Affine (Point.some Point.zero)
variable {ε : Type}

/-- C16: what multiplication does for every point of every curve: it panics exactly if one of the doublings `P, 2•P, 4•P, …`, as many as the
scalar has bits, is that of a point of order two; otherwise it returns `n • P`. -/
theorem C16_mul_point_exact (m : Build) (w : Nat) [DigitWidth w] (p : Nat) [Fact p.Prime] (hp2 : p ≠ 2) (a b : Int)
    (hb : (b : ZMod p) ≠ 0) (c : Curve.Curve) (hc : CurveDenotes w c p a b) (pt : Curve.Point)
    (P : (curve (a : ZMod p) (b : ZMod p)).Point) (hpt : PointDenotes w pt P) (n : Nat) (xn : BInt) (hn : Denotes w xn n) :
    ((∃ i < bitLength n, 2 ^ i • P ≠ 0 ∧ 2 ^ (i + 1) • P = 0) → (mulPoint m w c pt xn : Out ε _) = .panic) ∧
    ((¬ ∃ i < bitLength n, 2 ^ i • P ≠ 0 ∧ 2 ^ (i + 1) • P = 0) →
      ∃ r, (mulPoint m w c pt xn : Out ε _) = .ok r ∧ PointDenotes w r (n • P)) :=
  ⟨mulPoint_panic m hp2 hc hb (invert_zero m hc) hpt hn, mulPoint_z m hp2 hc hb hpt hn⟩

/-- On the curve of the example, one times the point `(24, 0)` panics, since the point is doubled after its last use as well. -/
example : (mulPoint .release 8 Toy.params2.curve ⟨Toy.byte 24, Toy.byte 0⟩ (Toy.byte 1) : Out Unit _).bind (fun _ => .ok ()) = .panic := by decide +kernel

example : ∃ i < bitLength 1, 2 ^ i • (Point.some 24 0 Toy.two_nonsingular : Toy.E2.Point) ≠ 0 ∧
    2 ^ (i + 1) • (Point.some 24 0 Toy.two_nonsingular : Toy.E2.Point) = 0 := by
  refine ⟨0, by decide, ?_, ?_⟩
  · rw [pow_zero, one_nsmul]; exact WeierstrassCurve.Affine.Point.some_ne_zero _
  · rw [pow_one, two_nsmul]
    exact WeierstrassCurve.Affine.Point.add_of_Y_eq rfl (by simp [WeierstrassCurve.Affine.negY])

/-! ## Decoding -/

/-- C20 fails: decoding panics on every compressed text whose abscissa makes the right-hand side of the curve equation vanish. -/
theorem C20_root_panics (m : Build) (w : Nat) [DigitWidth w] (cp : Params) (p n : Nat) (a b : Int) (hc : CurveDenotes w cp.curve p a b)
    (hn : Denotes w cp.order n) (hn0 : 0 < n) (hodd : p % 2 = 1) (hp : 2 < p) (pre u : List UInt8) (hpre : pre = [48, 50] ∨ pre = [48, 51])
    (x : Int) (hu : HexNumeral u x) (hlen : 2 * byteLength n ≤ u.length) (hx : (x ^ 3 + a * x + b) % p = 0) :
    PublicKey.fromSec1Hex m w (pre ++ u) cp = .panic := by
  obtain ⟨xx, ex, hxx⟩ : (BInt.fromHex w u).Yields (Denotes w · x) := by
    obtain ⟨k, hk, rfl⟩ := ‹DigitWidth w›
    obtain ⟨y, e, hy⟩ := (fromHex_iff hk u x).mpr (Or.inr hu)
    exact ⟨y, e, hy⟩
  obtain ⟨_, e0, rfl⟩ := byteLen_y (ε := PointDecodingError) m hn
  obtain ⟨y2, e1, hy2⟩ := rhs_y (ε := PointDecodingError) m hc.a hc.b hxx
  obtain ⟨y2', e2, hy2'⟩ := modulo_y (ε := PointDecodingError) m hy2 hc.p (by omega)
  have hz : Denotes w y2' 0 := by
    rw [show x * x * x + a * x + b = x ^ 3 + a * x + b by ring, hx] at hy2'
    exact hy2'
  have hsq := sqrt_zero_odd (ε := PointDecodingError) m hodd hp hc.p hz
  have hpl : pre.length = 2 := by rcases hpre with rfl | rfl <;> rfl
  have ht : (pre ++ u).take 2 = pre := by rw [List.take_append_of_le_length (by omega), List.take_of_length_le (by omega)]
  have hd : (pre ++ u).drop 2 = u := by rw [List.drop_append_of_le_length (by omega), List.drop_of_length_le (by omega), List.nil_append]
  have hl : ¬ ((pre ++ u).length < (bitLength (n : Int).natAbs + 7) / 8 * 2 + 2) := by
    rw [List.length_append, Int.natAbs_natCast]; unfold byteLength at hlen; omega
  have hdec : decodeCompressed m w cp (pre ++ u) = .panic := by
    unfold decodeCompressed fromHexOr
    rw [hd, ex]
    simp only [bind_ok, e1, e2, hsq]
    rfl
  unfold PublicKey.fromSec1Hex decodePoint
  rw [e0]
  simp only [bind_ok, ht, decide_eq_false hl, failIf, Bool.false_eq_true, if_false]
  rcases hpre with rfl | rfl
  all_goals
    simp only [List.cons_append, List.nil_append] at hdec ⊢
    simp [hdec]

/-- C20 fails on the curve `w25519`, which is among those of the integration tests (`/repo/tests/crypto/curves.rs:306-345`; cofactor 8): the
abscissa `486662/3` makes the right-hand side vanish. -/
theorem C20_w25519_panics (m : Build) (w : Nat) [DigitWidth w] (cp : Params)
    (hc : CurveDenotes w cp.curve (2 ^ 255 - 19) 0x2AAAAAAAAAAAAAAAAAAAAAAAAAAAAAAAAAAAAAAAAAAAAAAAAAAAAA984914A144
      0x7b425ed097b425ed097b425ed097b425ed097b425ed097b4260b5e9c7710c864)
    (hn : Denotes w cp.order ((0x1000000000000000000000000000000014DEF9DEA2F79CD65812631A5CF5D3ED : Nat) : Int)) :
    PublicKey.fromSec1Hex m w ([48, 50] ++ fixedHex 32 0x2aaaaaaaaaaaaaaaaaaaaaaaaaaaaaaaaaaaaaaaaaaaaaaaaaaaaaaaaaad2451) cp = .panic :=
  C20_root_panics m w cp (2 ^ 255 - 19) _ _ _ hc hn (by decide) (by decide) (by decide) [48, 50] _ (Or.inl rfl) _
    (fixedHex_numeral (by decide) (by decide +kernel)) (by rw [fixedHex_length]; decide +kernel) (by decide +kernel)

section
variable (m : Build) (w : Nat) [DigitWidth w] (cp : Params) (p n : Nat) [hpr : Fact p.Prime] (a b : Int)
  (G : (curve (a : ZMod p) (b : ZMod p)).Point) (hD : Domain w cp p n a b G)
include hD

/-- C20 fails on every curve with an even cofactor: some text makes decoding panic. -/
theorem C20_even_cofactor_panics (heven : cp.cofactor % 2 = 0) : ∃ t, PublicKey.fromSec1Hex m w t cp = .panic := by
  obtain ⟨x, h, hx, -⟩ := exists_order_two hD heven
  have hp := hpr.out.two_le
  have hodd : p % 2 = 1 := (hpr.out.eq_two_or_odd).resolve_left hD.p_ne
  have hL := byteLength_pos hD.n_prime.pos
  have hlt : x.val < 256 ^ (byteLength n + p) := by
    have h1 := ZMod.val_lt x
    have h2 : p < 256 ^ p := Nat.lt_pow_self (by decide)
    have h3 : 256 ^ p ≤ 256 ^ (byteLength n + p) := Nat.pow_le_pow_right (by decide) (by omega)
    omega
  refine ⟨[48, 50] ++ fixedHex (byteLength n + p) x.val, C20_root_panics m w cp p n a b hD.curve hD.order hD.n_prime.pos hodd
    (by have := hD.p_ne; omega) [48, 50] _ (Or.inl rfl) x.val (fixedHex_numeral (by omega) hlt) ?_ ?_⟩
  · rw [fixedHex_length]; omega
  · apply Int.emod_eq_zero_of_dvd
    rw [← ZMod.intCast_zmod_eq_zero_iff_dvd]
    push_cast
    rw [ZMod.natCast_zmod_val]
    exact hx

/-! ## Constructing a key -/

/-- On every curve with an even cofactor, the construction of a public key panics for some point of the curve; if the cofactor is odd, it
never panics. -/
theorem C24_even_cofactor_panics :
    (cp.cofactor % 2 = 0 → ∃ x y : Nat, x < p ∧ y < p ∧ (y ^ 2 : ZMod p) = x ^ 3 + a * x + b ∧ ∀ pt : Curve.Point, Denotes w pt.x x →
      Denotes w pt.y y → (PublicKey.new m w pt cp : Out ε _) = .panic) ∧
    (cp.cofactor % 2 = 1 → ∀ (pt : Curve.Point) (x y : Int), Denotes w pt.x x → Denotes w pt.y y →
      ∃ o, (PublicKey.new m w pt cp : Out ε _) = .ok o) := by
  constructor
  · intro heven
    obtain ⟨x, h, hx, hm⟩ := exists_order_two hD heven
    refine ⟨x.val, 0, ZMod.val_lt x, hpr.out.pos, ?_, fun pt hx hy => ?_⟩
    · rw [ZMod.natCast_zmod_val, hx]; simp
    · have hP : PointDenotes w pt (Point.some x 0 h : (curve (a : ZMod p) (b : ZMod p)).Point) :=
        ⟨hx, by rw [ZMod.val_zero]; exact hy⟩
      unfold PublicKey.new
      rw [validatePoint_panic m hD (by omega) hP hm]
      rfl
  · intro hodd pt x y hx hy
    obtain ⟨o, e, -⟩ := publicKeyNew_y (ε := ε) m hD hodd hx hy
    exact ⟨o, e⟩

/-! ## Recovery -/

/-- C23 fails on curves with an even cofactor: there is an abscissa (the one of a point of order two) such that recovery panics for every
signature whose first half is its remainder modulo the order, unless the remainder is zero. -/
theorem C23_even_cofactor_panics (hcof : cp.cofactor < 2 ^ 32) (hpn : p ≤ (cp.cofactor + 1) * n) (heven : cp.cofactor % 2 = 0) :
    ∃ x < p, ∀ (sig : Signature) (s : Nat) (hash : List UInt8) (o : RecoveryOptions), sig.params = cp → 0 < x % n →
      Denotes w sig.r ((x % n : Nat) : Int) → Denotes w sig.s s → 0 < s → s < n → hash ≠ [] → leadingBits (bitLength n) hash ≠ 0 →
      (o.strictHashByteLength = true → bitLength n % 8 = 0 ∧ hash.length * 8 = bitLength n) →
      recoverWithOptions m w sig hash none o = .panic := by
  obtain ⟨x, h, hx, -⟩ := exists_order_two hD heven
  have hn0 := hD.n_prime.pos
  refine ⟨x.val, ZMod.val_lt x, fun sig s hash o hp hr0 hr hs hs0 hsn hne hz hstrict => ?_⟩
  have hxn : x.val % n + x.val / n * n = x.val := by rw [Nat.mul_comm]; exact Nat.mod_add_div x.val n
  refine recoverWithOptions_panic m hD hcof hp hr hs hr0 (Nat.mod_lt _ hn0) hs0 hsn none (fun h => (hstrict h).1) hne (fun h => (hstrict h).2)
    hz (i := x.val / n) (Nat.zero_le _) ?_ (by rw [hxn]; exact ZMod.val_lt x) (by rw [hxn, ZMod.natCast_zmod_val]; exact hx)
  have := ZMod.val_lt x
  exact Nat.lt_succ_iff.mp (Nat.div_lt_of_lt_mul (by rw [Nat.mul_comm]; exact Nat.lt_of_lt_of_le this hpn))

section
variable (hcof : cp.cofactor < 2 ^ 32) (sig : Signature) (hp : sig.params = cp) (r s : Nat) (hr0 : 0 < r) (hrn : r < n) (hs0 : 0 < s) (hsn : s < n)
  (hr : Denotes w sig.r r) (hs : Denotes w sig.s s) (hash : List UInt8) (o : RecoveryOptions)
  (h8 : o.strictHashByteLength = true → bitLength n % 8 = 0)
include hcof hp hr0 hrn hs0 hsn hr hs h8

/-- C23, for every cofactor: if the signature verifies with the public key `Q`, and the recovery id describes the point that this verification
computes and says that its abscissa is below the order, then recovery with this id returns exactly `Q`. -/
theorem C23_unique_low (hne : hash ≠ []) (hlen : o.strictHashByteLength = true → hash.length * 8 = bitLength n)
    (hz : leadingBits (bitLength n) hash ≠ 0) (Q : (curve (a : ZMod p) (b : ZMod p)).Point) (hQ0 : Q ≠ 0) (hQn : n • Q = 0)
    (hver : EcdsaVerifies n G Q (leadingBits (bitLength n) hash) r s) (i : RecoveryId)
    (hid : IdDescribes n G Q (leadingBits (bitLength n) hash) r s i) (hlow : idHigh i = false) :
    ∃ pk, recoverWithOptions m w sig hash (some i) o = .ok [pk] ∧ pk.params = cp ∧ PointDenotes w pk.data Q := by
  classical
  have hnp : Fact n.Prime := ⟨hD.n_prime⟩
  have hc := cand_verPoint hD.G_order hQn (e := leadingBits (bitLength n) hash) (cast_ne_zero_of_lt hr0 hrn) (cast_ne_zero_of_lt hs0 hsn)
  have hRn : n • verPoint n G (leadingBits (bitLength n) hash) r s Q = 0 := by
    unfold verPoint
    rw [nsmul_add, smul_smul_zero hD.G_order, smul_smul_zero hQn, add_zero]
  obtain ⟨hR0, hRx⟩ := hver
  obtain ⟨hd1, hd2⟩ := hid
  generalize hE : leadingBits (bitLength n) hash = e at *
  change verPoint n G e r s Q ≠ 0 at hR0
  change xCoord (verPoint n G e r s Q) % n = r at hRx
  change idHigh i = decide (n ≤ xCoord (verPoint n G e r s Q)) at hd1
  change idOdd i = decide (yCoord (verPoint n G e r s Q) % 2 = 1) at hd2
  have hver' : EcdsaVerifies n G Q e r s := ⟨hR0, hRx⟩
  generalize verPoint n G e r s Q = R at *
  have hx : xCoord R = r := by
    rw [hlow] at hd1
    have := of_decide_eq_false hd1.symm
    rw [Nat.mod_eq_of_lt (by omega)] at hRx
    exact hRx
  have hb : recoveryBounds cp (some i) = (0, 0) := by cases i <;> first | rfl | exact absurd hlow (by decide)
  -- the points with this abscissa
  have honly : ∀ R', R' ≠ 0 → xCoord R' = r → Fits (some i) R' → R' = R := by
    intro R' h0 hx' hf
    apply compress_injective hD.p_ne
    have hpar := hf i rfl
    rw [hd2] at hpar
    cases R with
    | zero => exact absurd rfl hR0
    | some x y h =>
      cases R' with
      | zero => exact absurd rfl h0
      | some x' y' h' =>
        change x.val = r at hx
        change x'.val = r at hx'
        change decide (y.val % 2 = 1) = decide (y'.val % 2 = 1) at hpar
        have : x' = x := ZMod.val_injective p (by omega)
        subst this
        simp only [compress, Option.some.injEq, Prod.mk.injEq, true_and]
        rw [Bool.eq_iff_iff, beq_iff_eq, beq_iff_eq]
        have := decide_eq_decide.mp hpar
        exact this.symm
  have htame : ∀ j, (recoveryBounds cp (some i)).1 ≤ j → j ≤ (recoveryBounds cp (some i)).2 →
      Tame n cp (a : ZMod p) (b : ZMod p) (some i) (r + j * n) := by
    intro j _ hj
    rw [hb] at hj
    obtain rfl : j = 0 := by simpa using hj
    rw [Nat.zero_mul, Nat.add_zero]
    refine ⟨fun z hzv => ?_, fun R' h0 hx' hf => Or.inr (by rw [honly R' h0 hx' hf]; exact hRn)⟩
    cases R with
    | zero => exact absurd rfl hR0
    | some x y h =>
      change x.val = r at hx
      have : z = x := ZMod.val_injective p (by omega)
      rw [this, ← equation_of_nonsingular h]
      exact pow_ne_zero 2 (hD.y_ne_sub hRn)
  obtain ⟨L, e', Rs, hL, hnd, hmem⟩ := (recoverWithOptions_eq m hD hcof hp hr hs hr0 hrn hs0 hsn hash (some i) o h8 htame).2.2.2 hne hlen
    (by rw [hE]; exact hz)
  have hmem' : ∀ R', R' ∈ Rs ↔ R' = R := by
    intro R'
    rw [hmem, hb]
    constructor
    · rintro ⟨h0, ⟨j, -, hj, hx'⟩, hf⟩
      obtain rfl : j = 0 := by simpa using hj
      exact honly R' h0 (by simpa using hx') hf
    · rintro rfl
      exact ⟨hR0, ⟨0, Nat.le_refl _, Nat.le_refl _, by simpa using hx⟩, fun j hj => by cases hj; exact hd2⟩
  have hRs : Rs = [R] := by
    have hin := (hmem' R).mpr rfl
    cases Rs with
    | nil => simp at hin
    | cons A rest =>
      cases rest with
      | nil => rw [(hmem' A).mp (by simp)]
      | cons B _ =>
        exfalso
        have h1 := (List.nodup_cons.mp hnd).1
        rw [(hmem' A).mp (by simp), (hmem' B).mp (by simp)] at h1
        simp at h1
  rw [hE, hRs, List.map_cons, List.map_nil, hc, List.filter_cons_of_pos (by simpa using ⟨hQ0, hQn, hver'⟩), List.filter_nil] at hL
  cases hL with
  | cons hk hnil =>
    cases hnil
    exact ⟨_, e', hk.1, hk.2⟩

end
end

section
variable (m : Build) (w : Nat) [DigitWidth w] (cp : Params) (p n : Nat) [hpr : Fact p.Prime] (a b : Int)
  (G : (curve (a : ZMod p) (b : ZMod p)).Point) (hD : Domain w cp p n a b G) (hcof : cp.cofactor < 2 ^ 32)
  (H : Hasher) (h : List UInt8 → List UInt8) (limit : Nat) (hc : Computes H h limit) (ho : H.outLen ≤ H.blockLen)
  (ho0 : 0 < H.outLen) (d : Nat) (hd0 : 0 < d) (hdn : d < n) (key : PrivateKey) (hkey : key.params = cp) (hd : Denotes w key.data d)
  (hash : List UInt8) (o : SigningOptions) (h8 : o.strictHashByteLength = true → bitLength n % 8 = 0)
  (rand : Nat → Out RandomError (List UInt8))
  (hl : ∀ i bytes, Drawn o.employExtraRandomData (rand i) bytes →
    H.blockLen + H.outLen + 1 + 2 * ((bitLength n + 7) / 8) + bytes.length < limit)
  (hz : leadingBits (bitLength n) hash ≠ 0)
  (f nf : Nat) (st : H.State) (sig : Signature) (id : RecoveryId)
  (hok : signWithOptions m w H f nf st rand hash key o = .ok (sig, id)) (ro : RecoveryOptions)
  (hlen : ro.strictHashByteLength = true → hash.length * 8 = bitLength n)
include hD hcof hc ho ho0 hd0 hdn hkey hd hl h8 hz hok hlen

/-- C23, for every cofactor: recovery with the recovery id that was produced returns exactly the signer's public key, if the id is one of the
two that say that the abscissa is below the order. -/
theorem C23_signer_low (hlow : id = .LowXEvenY ∨ id = .LowXOddY) :
    ∃ pk, recoverWithOptions m w sig hash (some id) ro = .ok [pk] ∧ pk.params = cp ∧ PointDenotes w pk.data (d • G) := by
  have hnp : Fact n.Prime := ⟨hD.n_prime⟩
  obtain ⟨hne, r, s, hp, hr, hs, hr0, hrn, hs0, hsn, -, hver, hid⟩ :=
    signed m w cp p n a b G hD H h limit hc ho ho0 d hd0 hdn key hkey hd hash o h8 rand hl f nf st sig id hok
  exact C23_unique_low m w cp p n a b G hD hcof sig hp r s hr0 hrn hs0 hsn hr hs hash ro (fun hs => by have := hlen hs; omega) hne hlen hz _
    (smul_ne_zero' hD.G_ne hD.G_order (cast_ne_zero_of_lt hd0 hdn)) (smul_smul_zero hD.G_order d) hver id hid
    (by rcases hlow with rfl | rfl <;> rfl)

/-- C23: recovery with the recovery id that was produced returns a list that contains the signer's public key, if the cofactor is odd, or if
recovery does not panic. -/
theorem C23_signer_contained (hodd : cp.cofactor % 2 = 1 ∨ recoverWithOptions m w sig hash (some id) ro ≠ .panic)
    (hpn : p ≤ (cp.cofactor + 1) * n) :
    ∃ keys, recoverWithOptions m w sig hash (some id) ro = .ok keys ∧ ∃ pk ∈ keys, pk.params = cp ∧ PointDenotes w pk.data (d • G) := by
  have hnp : Fact n.Prime := ⟨hD.n_prime⟩
  obtain ⟨hne, r, s, hp, hr, hs, hr0, hrn, hs0, hsn, -, hver, hid⟩ :=
    signed m w cp p n a b G hD H h limit hc ho ho0 d hd0 hdn key hkey hd hash o h8 rand hl f nf st sig id hok
  exact C23_complete m w cp p n a b G hD hcof sig hp r s hr0 hrn hs0 hsn hr hs hash (some id) ro (fun hs => by have := hlen hs; omega) hodd hpn hne hlen hz _
    (smul_ne_zero' hD.G_ne hD.G_order (cast_ne_zero_of_lt hd0 hdn)) (smul_smul_zero hD.G_order d) hver (fun _ h => by cases h; exact hid)

end

/-! ## Examples -/

/-- C23 fails on a curve with cofactor 3: the signature that the secret 7 makes of the hash `[100]` with the nonce 5 comes with a recovery id,
but recovery with this id returns two keys. -/
theorem C23_several_violated : Domain 8 Toy.params3 389 139 3 5 Toy.G3 ∧ ∃ sig id pk pk',
    signWithOptions .debug 8 (constHasher 5) 1 1 () (fun _ => .panic) [100] ⟨Toy.byte 7, Toy.params3⟩ (exampleOptions false) = .ok (sig, id) ∧
    recover .debug 8 sig [100] (some id) = .ok [pk, pk'] ∧ toInt 8 pk.data.x ≠ toInt 8 pk'.data.x := by
  refine ⟨Toy.domain3, ?_⟩
  have h : ((signWithOptions .debug 8 (constHasher 5) 1 1 () (fun _ => .panic) [100] ⟨Toy.byte 7, Toy.params3⟩ (exampleOptions false)).bind
      fun o => (match recover .debug 8 o.1 [100] (some o.2) with
        | .ok [pk, pk'] => .ok (decide (toInt 8 pk.data.x ≠ toInt 8 pk'.data.x))
        | _ => .ok false : Out SigningError Bool)) = .ok true := by decide +kernel
  cases e : signWithOptions .debug 8 (constHasher 5) 1 1 () (fun _ => .panic) [100] ⟨Toy.byte 7, Toy.params3⟩ (exampleOptions false) with
  | ok v =>
    rw [e] at h
    change (match recover .debug 8 v.1 [100] (some v.2) with
        | .ok [pk, pk'] => .ok (decide (toInt 8 pk.data.x ≠ toInt 8 pk'.data.x))
        | _ => .ok false : Out SigningError Bool) = .ok true at h
    split at h
    · rename_i pk pk' e'
      injection h with h
      exact ⟨v.1, v.2, pk, pk', rfl, e', of_decide_eq_true h⟩
    · cases h
  | err _ => rw [e] at h; cases h
  | panic => rw [e] at h; cases h
  | hang => rw [e] at h; cases h

/-- The hypotheses of the theorems above are met by the curve with cofactor 2, on which `(24, 0)` has order two. -/
example : Domain 8 Toy.params2 257 139 2 6 Toy.G2 ∧ Toy.params2.cofactor % 2 = 0 ∧ Toy.params2.cofactor < 2 ^ 32 ∧
    257 ≤ (Toy.params2.cofactor + 1) * 139 ∧ 0 < 24 % 139 ∧ bitLength 139 % 8 = 0 ∧
    (recover .debug 8 ⟨Toy.byte 24, Toy.byte 1, Toy.params2⟩ [100] none).bind (fun _ => .ok ()) = .panic ∧
    (PublicKey.fromSec1Hex .debug 8 [48, 50, 49, 56] Toy.params2).bind (fun _ => .ok ()) = .panic ∧
    (PublicKey.new .debug 8 ⟨Toy.byte 24, Toy.byte 0⟩ Toy.params2 : Out Unit _).bind (fun _ => .ok ()) = .panic :=
  ⟨Toy.domain2, by decide, by decide, by decide, by decide, by decide, by decide +kernel, by decide +kernel, by decide +kernel⟩

/-- On it, the signature that the secret 7 makes of the hash `[100]` with the nonce 3 has a recovery id with a low abscissa. -/
example : (signWithOptions .debug 8 (constHasher 3) 1 1 () (fun _ => .panic) [100] ⟨Toy.byte 7, Toy.params2⟩ (exampleOptions false)).bind
    (fun o => .ok o.2) = .ok .LowXOddY := by decide +kernel

end LCT.Props
