import Verif.Lemmas.Crypto.Encoding
import Verif.Lemmas.Crypto.Secp256k1Params
import Verif.Lemmas.Crypto.Toy

/-!
# Properties of the textual encodings of signatures and points: C18, C19, C20

Text is the list of its bytes.  The standard texts `p1363Text`, `uncompressedText` and `compressedText` are in `Verif.Spec.Encoding`.
-/

namespace LCT.Props
open LCT.BigInt LCT.Spec LCT.Out LCT.Modular LCT.Curve LCT.Crypto
open WeierstrassCurve.Affine (Point.some Point.zero)
variable {ε : Type}

/-! ## C18: P1363 -/

section
variable (m : Build) (w : Nat) [DigitWidth w] (cp : Params) (n : Nat) (hn : Denotes w cp.order (n : Int))
include hn

/-- C18: the encoding of a signature with `0 < r, s < n` is the standard text, whose length is four times the byte length of the order, and
that text is decoded to the same signature. -/
theorem C18_round_trip (sig : Signature) (hp : sig.params = cp) (r s : Nat) (hr : Denotes w sig.r r) (hs : Denotes w sig.s s) (hr0 : 0 < r)
    (hrn : r < n) (hs0 : 0 < s) (hsn : s < n) :
    (sig.toP1363Hex m w : Out ε _) = .ok (p1363Text n r s) ∧ (p1363Text n r s).length = 4 * byteLength n ∧
    ∃ sig', Signature.fromP1363Hex m w (p1363Text n r s) cp = .ok sig' ∧ sig'.params = cp ∧ Denotes w sig'.r r ∧ Denotes w sig'.s s := by
  refine ⟨toP1363Hex_y m (hp ▸ hn) hr hs hr0 hrn hs0 hsn, ?_, ?_⟩
  · unfold p1363Text
    rw [List.length_append, fixedHex_length, fixedHex_length]
    omega
  have hlow : lower (p1363Text n r s) = p1363Text n r s := by
    unfold p1363Text fixedHex lower
    rw [List.map_append, lower_hexOf, lower_hexOf]
  have hlen : (p1363Text n r s).length = 4 * byteLength n := by
    unfold p1363Text
    rw [List.length_append, fixedHex_length, fixedHex_length]
    omega
  have hhex : ∀ c ∈ p1363Text n r s, IsHexDigit c := by
    intro c hc
    unfold p1363Text fixedHex at hc
    rcases List.mem_append.mp hc with h | h <;> exact hexOf_digits _ c h
  rcases fromP1363Hex_cases m hn (by omega) (p1363Text n r s) with ⟨h, -⟩ | ⟨-, ⟨c, hc, h⟩, -⟩ | ⟨r', s', hr', hs', hl, -, h⟩
  · exact absurd hlen h
  · exact absurd (hhex c hc) h
  · rw [hlow] at hl
    have hl' := hl
    unfold p1363Text at hl'
    obtain ⟨h1, h2⟩ := List.append_inj hl' (by rw [fixedHex_length, fixedHex_length])
    have e1 := fixedHex_inj (lt_octets_len hrn) hr' h1
    have e2 := fixedHex_inj (lt_octets_len hsn) hs' h2
    subst e1 e2
    rcases h with ⟨h, -⟩ | ⟨-, h⟩
    · exact absurd ⟨hr0, hrn, hs0, hsn⟩ h
    · exact h

/-- C18: exactly which signature, or which error, decoding any text gives.  The first two cases are errors of format: a wrong length, or a
character that is not a hex digit.  Otherwise the text in lower case is the text of a unique pair of numbers, which are the result if they are in
range; so encoding the result gives the text in lower case. -/
theorem C18_decode (hn0 : 0 < n) (t : List UInt8) (res : Out SignatureDecodingError Signature) (hres : Signature.fromP1363Hex m w t cp = res) :
    ((t.length ≠ 4 * byteLength n ∨ ∃ c ∈ t, ¬ IsHexDigit c) ∧ res = .err .InvalidFormat) ∨
    ∃ r s, r < 256 ^ byteLength n ∧ s < 256 ^ byteLength n ∧ lower t = p1363Text n r s ∧
      if 0 < r ∧ r < n ∧ 0 < s ∧ s < n then
        ∃ sig, res = .ok sig ∧ sig.params = cp ∧ Denotes w sig.r r ∧ Denotes w sig.s s ∧ (sig.toP1363Hex m w : Out ε _) = .ok (lower t)
      else res = .err .InvalidSignature := by
  subst hres
  rcases fromP1363Hex_cases m hn hn0 t with ⟨h, e⟩ | ⟨-, h, e⟩ | ⟨r, s, hr, hs, hl, -, h⟩
  · exact Or.inl ⟨Or.inl h, e⟩
  · exact Or.inl ⟨Or.inr h, e⟩
  · right
    refine ⟨r, s, hr, hs, hl, ?_⟩
    rcases h with ⟨h, e⟩ | ⟨h, sig, e, hp, h1, h2⟩
    · rw [if_neg h]
      exact e
    · rw [if_pos h]
      refine ⟨sig, e, hp, h1, h2, ?_⟩
      rw [hl]
      exact toP1363Hex_y m (hp ▸ hn) h1 h2 h.1 h.2.1 h.2.2.1 h.2.2.2

/-- C18: two texts that decode to equal signatures are equal up to letter case. -/
theorem C18_canonical (hn0 : 0 < n) (t t' : List UInt8) (sig sig' : Signature) (h : Signature.fromP1363Hex m w t cp = .ok sig)
    (h' : Signature.fromP1363Hex m w t' cp = .ok sig') (hr : toInt w sig.r = toInt w sig'.r) (hs : toInt w sig.s = toInt w sig'.s) :
    lower t = lower t' := by
  have key : ∀ t sig, Signature.fromP1363Hex m w t cp = .ok sig → ∃ r s : Nat, Denotes w sig.r r ∧ Denotes w sig.s s ∧ lower t = p1363Text n r s := by
    intro t sig h
    rcases fromP1363Hex_cases m hn hn0 t with ⟨-, e⟩ | ⟨-, -, e⟩ | ⟨r, s, -, -, hl, -, ⟨-, e⟩ | ⟨-, sig', e, -, h1, h2⟩⟩
    · rw [e] at h; cases h
    · rw [e] at h; cases h
    · rw [e] at h; cases h
    · rw [e] at h
      cases h
      exact ⟨r, s, h1, h2, hl⟩
  obtain ⟨r, s, h1, h2, hl⟩ := key t sig h
  obtain ⟨r', s', h1', h2', hl'⟩ := key t' sig' h'
  rw [hl, hl']
  have er : (r : Int) = r' := by rw [← h1.2, ← h1'.2, hr]
  have es : (s : Int) = s' := by rw [← h2.2, ← h2'.2, hs]
  rw [Int.ofNat_inj.mp er, Int.ofNat_inj.mp es]

end

/-- On the toy curve (order 233, one byte): the signature `(10, 232)` is written `0ae8`. -/
example : ((⟨Toy.byte 10, Toy.byte 232, Toy.params⟩ : Signature).toP1363Hex .debug 8 : Out Unit _) = .ok [48, 97, 101, 56] :=
  (C18_round_trip (ε := Unit) .debug 8 Toy.params 233 Toy.domain.order ⟨Toy.byte 10, Toy.byte 232, Toy.params⟩ rfl 10 232
    (Toy.byte_denotes (by decide)) (Toy.byte_denotes (by decide)) (by decide) (by decide) (by decide) (by decide)).1

/-! ## C19 and C20: SEC1 -/

section
variable (m : Build) (w : Nat) [DigitWidth w] (cp : Params) (p n : Nat) [hpr : Fact p.Prime] (a b : Int)
  (G : (curve (a : ZMod p) (b : ZMod p)).Point) (hD : Domain w cp p n a b G)
include hD

/-- C19 for the points both of whose coordinates are positive and below the group order.  Missing: the other valid points, for which encoding
panics (`C19_panics`, `C19_violated_secp256k1`). -/
theorem C19_round_trip_partial (pk : PublicKey) (hp : pk.params = cp) (P : (curve (a : ZMod p) (b : ZMod p)).Point)
    (hP : PointDenotes w pk.data P) (hP0 : P ≠ 0) (hPn : n • P = 0) (hx0 : 0 < xCoord P) (hxn : xCoord P < n) (hy0 : 0 < yCoord P)
    (hyn : yCoord P < n) (compressed : Bool) :
    (pk.toSec1Hex m w compressed : Out ε _) = .ok (if compressed then compressedText n P else uncompressedText n P) ∧
    ∃ pk', PublicKey.fromSec1Hex m w (if compressed then compressedText n P else uncompressedText n P) cp = .ok pk' ∧ pk'.params = cp ∧
      PointDenotes w pk'.data P := by
  refine ⟨by unfold PublicKey.toSec1Hex; rw [hp]; exact encodePoint_y m hD hP hx0 hxn hy0 hyn compressed, ?_⟩
  have htext : LaxCompressed n (compressedText n P) P ∧ IsUncompressed n (uncompressedText n P) P := by
    constructor
    · exact ⟨_, rfl, by rw [fixedHex_length], fixedHex_numeral (byteLength_pos hD.n_prime.pos) (lt_octets_len hxn)⟩
    · refine ⟨lt_octets_len hxn, lt_octets_len hyn, ?_⟩
      unfold uncompressedText fixedHex lower
      rw [List.map_append, List.map_append, lower_hexOf, lower_hexOf]
      rfl
  unfold PublicKey.fromSec1Hex
  obtain ⟨pt, e, hpt⟩ := decodePoint_accepts m hD (t := if compressed then compressedText n P else uncompressedText n P) hP0 hPn (by
    cases compressed
    · exact Or.inr htext.2
    · exact Or.inl htext.1)
  rw [e]
  exact ⟨_, rfl, rfl, hpt⟩

/-- C19 is violated by encoding: a public key with a coordinate that is zero or not below the group order cannot be encoded, in either form. -/
theorem C19_panics (pk : PublicKey) (hp : pk.params = cp) (P : (curve (a : ZMod p) (b : ZMod p)).Point)
    (hP : PointDenotes w pk.data P) (compressed : Bool) :
    (pk.toSec1Hex m w compressed : Out ε _) = .panic ↔ ¬ (0 < xCoord P ∧ xCoord P < n ∧ 0 < yCoord P ∧ yCoord P < n) := by
  unfold PublicKey.toSec1Hex
  rw [hp]
  constructor
  · rintro h ⟨h1, h2, h3, h4⟩
    rw [encodePoint_y m hD hP h1 h2 h3 h4] at h
    cases h
  · exact fun h => encodePoint_panic m hD hP h compressed

/-- C20: whatever the text, a key that decoding returns is a point of the curve other than the point at infinity, annihilated by the order,
with coordinates in `[0, p)`.  Decoding does not panic if the cofactor is odd (for even cofactors see `C20_even_cofactor_panics`). -/
theorem C20_valid (t : List UInt8) :
    (∃ e, PublicKey.fromSec1Hex m w t cp = .err e) ∨ (cp.cofactor % 2 = 0 ∧ PublicKey.fromSec1Hex m w t cp = .panic) ∨
    ∃ pk, PublicKey.fromSec1Hex m w t cp = .ok pk ∧ pk.params = cp ∧ ∃ x y : Nat, Denotes w pk.data.x x ∧ Denotes w pk.data.y y ∧ x < p ∧ y < p ∧
      (y ^ 2 : ZMod p) = x ^ 3 + a * x + b ∧
      ∃ h : (curve (a : ZMod p) (b : ZMod p)).Nonsingular x y, n • (Point.some _ _ h : (curve (a : ZMod p) (b : ZMod p)).Point) = 0 := by
  unfold PublicKey.fromSec1Hex
  by_cases hpan : cp.cofactor % 2 = 0 ∧ decodePoint m w t cp = .panic
  · exact Or.inr (Or.inl ⟨hpan.1, by rw [hpan.2]; rfl⟩)
  have hor : cp.cofactor % 2 = 1 ∨ decodePoint m w t cp ≠ .panic := by
    rcases Nat.mod_two_eq_zero_or_one cp.cofactor with h | h
    · exact Or.inr fun h' => hpan ⟨h, h'⟩
    · exact Or.inl h
  rcases decodePoint_cases m hD t (hor.imp_right Or.inr) with ⟨P, hP0, hPn, -, pt, e, hpt⟩ | ⟨-, e, he⟩
  · right; right
    refine ⟨⟨pt, cp⟩, by rw [e]; rfl, rfl, ?_⟩
    cases P with
    | zero => exact absurd rfl hP0
    | some x y h =>
      refine ⟨x.val, y.val, hpt.1, hpt.2, ZMod.val_lt x, ZMod.val_lt y, ?_⟩
      rw [ZMod.natCast_zmod_val, ZMod.natCast_zmod_val]
      exact ⟨equation_of_nonsingular h, h, hPn⟩
  · exact Or.inl ⟨e, by rw [he]; rfl⟩

/-- C20: exactly which texts are accepted, and for which point. -/
theorem C20_accepts_iff (t : List UInt8) (P : (curve (a : ZMod p) (b : ZMod p)).Point) :
    (∃ pk, PublicKey.fromSec1Hex m w t cp = .ok pk ∧ PointDenotes w pk.data P) ↔
      P ≠ 0 ∧ n • P = 0 ∧ (IsUncompressed n t P ∨ LaxCompressed n t P) := by
  unfold PublicKey.fromSec1Hex
  constructor
  · rintro ⟨pk, h, hP⟩
    rcases decodePoint_cases m hD t (Or.inr (Or.inr fun h' => by rw [h'] at h; cases h)) with ⟨P', hP0, hPn, ht, pt, e, hpt⟩ | ⟨-, e, he⟩
    · rw [e] at h
      cases h
      have := denotes_unique hD.b_ne hP hpt
      subst this
      exact ⟨hP0, hPn, ht.symm⟩
    · rw [he] at h
      cases h
  · rintro ⟨hP0, hPn, h⟩
    obtain ⟨pt, e, hpt⟩ := decodePoint_accepts m hD hP0 hPn h.symm
    rw [e]
    exact ⟨_, rfl, hpt⟩

/-- C20 for the uncompressed form: an accepted text that starts with `04` is, up to letter case, the text of the returned point, so that two such
texts for one point are equal up to letter case. -/
theorem C20_uncompressed (t : List UInt8) (h04 : t.take 2 = [48, 52]) (pk : PublicKey) (hok : PublicKey.fromSec1Hex m w t cp = .ok pk) :
    ∃ P : (curve (a : ZMod p) (b : ZMod p)).Point, PointDenotes w pk.data P ∧ lower t = uncompressedText n P := by
  unfold PublicKey.fromSec1Hex at hok
  rcases decodePoint_cases m hD t (Or.inr (Or.inr fun h' => by rw [h'] at hok; cases hok)) with ⟨P', hP0, hPn, ht, pt, e, hpt⟩ | ⟨-, e, he⟩
  · rw [e] at hok
    cases hok
    rcases ht with ⟨u, rfl, -, -⟩ | h
    · unfold compressedPrefix at h04
      split at h04 <;> cases h04
    · exact ⟨P', hpt, h.2.2⟩
  · rw [he] at hok
    cases hok

/-- C20 for the compressed form, for the texts that have the standard length: an accepted text is, up to letter case, the text of the returned
point.  Missing: longer texts, for which it is false (`C20_violated_secp256k1`). -/
theorem C20_compressed_partial (t : List UInt8) (hlen : t.length = 2 * byteLength n + 2) (h04 : t.take 2 ≠ [48, 52]) (pk : PublicKey)
    (hok : PublicKey.fromSec1Hex m w t cp = .ok pk) :
    ∃ P : (curve (a : ZMod p) (b : ZMod p)).Point, PointDenotes w pk.data P ∧ lower t = compressedText n P := by
  unfold PublicKey.fromSec1Hex at hok
  rcases decodePoint_cases m hD t (Or.inr (Or.inr fun h' => by rw [h'] at hok; cases hok)) with ⟨P', hP0, hPn, ht, pt, e, hpt⟩ | ⟨-, e, he⟩
  · rw [e] at hok
    cases hok
    rcases ht with ⟨u, rfl, hl, hu⟩ | h
    · refine ⟨P', hpt, ?_⟩
      have hl2 : (compressedPrefix P').length = 2 := by unfold compressedPrefix; split <;> rfl
      rw [List.length_append, hl2] at hlen
      have hpre : lower (compressedPrefix P') = compressedPrefix P' := by unfold compressedPrefix; split <;> decide
      have happ : lower (compressedPrefix P' ++ u) = lower (compressedPrefix P') ++ lower u := List.map_append
      rw [happ, hpre]
      unfold compressedText
      rw [numeral_fixedHex (byteLength_pos hD.n_prime.pos) (by omega) hu]
    · exfalso
      apply h04
      obtain ⟨-, -, h⟩ := h
      obtain ⟨t', ht, h1⟩ := lower_cons_eq (by decide) h
      obtain ⟨t'', ht', -⟩ := lower_cons_eq (by decide) h1
      rw [ht, ht']
      rfl
  · rw [he] at hok
    cases hok

end

section
local instance : Fact (Nat.Prime Secp256k1.p) := ⟨LCT.Secp256k1.prime_p⟩

/-- The abscissa of the witness: the order of secp256k1 itself. -/
def bigX : Nat := Secp256k1.n
/-- Its ordinate. -/
def bigY : Nat := 0x98f66641cb0ae1776b463ebdee3d77fe2658f021db48e2c8ac7ab4c92f83621e

theorem bigX_val : ((bigX : Nat) : ZMod Secp256k1.p).val = bigX := ZMod.val_cast_of_lt (by decide)
theorem bigY_val : ((bigY : Nat) : ZMod Secp256k1.p).val = bigY := ZMod.val_cast_of_lt (by decide)

theorem big_nonsingular : LCT.Secp256k1.E.Nonsingular (bigX : ZMod Secp256k1.p) (bigY : ZMod Secp256k1.p) := by
  refine nonsingular_of_equation (by decide) ?_ ?_
  · have := LCT.Secp256k1.cast_ne_zero (k := 27 * 7 ^ 2) (by decide) (by decide)
    push_cast at this ⊢
    intro h
    apply this
    linear_combination h
  · have h : (bigY ^ 2) % Secp256k1.p = (bigX ^ 3 + 7) % Secp256k1.p := by decide +kernel
    have := (ZMod.natCast_eq_natCast_iff' _ _ Secp256k1.p).mpr h
    push_cast at this ⊢
    linear_combination this

/-- C19 is violated on secp256k1: there is a public key, accepted by `PublicKey::new`, that `to_sec1_hex` cannot encode; its abscissa is the
group order. -/
theorem C19_violated_secp256k1 (m : Build) (w : Nat) [DigitWidth w] :
    ∃ cp x y, (secp256k1 w : Out ε _) = .ok cp ∧ Denotes w x Secp256k1.n ∧ (PublicKey.new m w ⟨x, y⟩ cp : Out ε _) = .ok (some ⟨⟨x, y⟩, cp⟩) ∧
      ∀ compressed, ((⟨⟨x, y⟩, cp⟩ : PublicKey).toSec1Hex m w compressed : Out ε _) = .panic := by
  obtain ⟨cp, e, hD, hcof⟩ := secp256k1_y (ε := ε) w
  obtain ⟨x, -, hx⟩ := fromHexUnwrap_y (ε := ε) (w := w) (s := "fffffffffffffffffffffffffffffffebaaedce6af48a03bbfd25e8cd0364141") (z := bigX) (by decide +kernel)
  obtain ⟨y, -, hy⟩ := fromHexUnwrap_y (ε := ε) (w := w) (s := "98f66641cb0ae1776b463ebdee3d77fe2658f021db48e2c8ac7ab4c92f83621e") (z := bigY) (by decide +kernel)
  refine ⟨cp, x, y, e, hx, ?_, ?_⟩
  · obtain ⟨op, e2, ho⟩ := publicKeyNew_y (ε := ε) m hD (by rw [hcof]) (pt := ⟨x, y⟩) hx hy
    rcases ho with ⟨-, rfl⟩ | ⟨hno, -⟩
    · exact e2
    · refine absurd ⟨Point.some _ _ big_nonsingular, ?_, WeierstrassCurve.Affine.Point.some_ne_zero _, ?_⟩ hno
      · show Denotes w x _ ∧ Denotes w y _
        rw [bigX_val, bigY_val]
        exact ⟨hx, hy⟩
      · have := card_nsmul_eq_zero' (G := LCT.Secp256k1.E.Point) (x := Point.some _ _ big_nonsingular)
        rwa [LCT.Secp256k1.card_points] at this
  · intro c
    refine (C19_panics m w cp _ _ 0 7 _ hD ⟨⟨x, y⟩, cp⟩ rfl (Point.some _ _ big_nonsingular) ?_ c).mpr ?_
    · show Denotes w x _ ∧ Denotes w y _
      rw [bigX_val, bigY_val]
      exact ⟨hx, hy⟩
    · rintro ⟨-, h, -⟩
      change ((bigX : Nat) : ZMod Secp256k1.p).val < _ at h
      rw [bigX_val] at h
      exact absurd h (by decide)

/-- C20 is violated on secp256k1: three different texts, none equal to another up to letter case, decode to the base point: the standard one
(first), the one with another `00` before the abscissa, and the one with `+`. -/
theorem C20_violated_secp256k1 (m : Build) (w : Nat) [DigitWidth w] :
    ∃ cp, (secp256k1 w : Out ε _) = .ok cp ∧
      ∀ t ∈ [ascii "0279be667ef9dcbbac55a06295ce870b07029bfcdb2dce28d959f2815b16f81798",
        ascii "020079be667ef9dcbbac55a06295ce870b07029bfcdb2dce28d959f2815b16f81798",
        ascii "02+79be667ef9dcbbac55a06295ce870b07029bfcdb2dce28d959f2815b16f81798"],
      ∃ pk, PublicKey.fromSec1Hex m w t cp = .ok pk ∧ Denotes w pk.data.x Secp256k1.gx ∧ Denotes w pk.data.y Secp256k1.gy := by
  obtain ⟨cp, e, hD, -⟩ := secp256k1_y (ε := ε) w
  refine ⟨cp, e, ?_⟩
  have hG : compressedPrefix LCT.Secp256k1.G = [48, 50] := by
    unfold compressedPrefix
    have : yCoord LCT.Secp256k1.G = Secp256k1.gy := gy_val
    rw [this]
    decide
  have hx : xCoord LCT.Secp256k1.G = Secp256k1.gx := gx_val
  have key : ∀ u : List UInt8, 2 * byteLength Secp256k1.n ≤ u.length → HexNumeral u (Secp256k1.gx : Nat) →
      ∃ pk, PublicKey.fromSec1Hex m w ([48, 50] ++ u) cp = .ok pk ∧ Denotes w pk.data.x Secp256k1.gx ∧ Denotes w pk.data.y Secp256k1.gy := by
    intro u hu hn
    obtain ⟨pk, h1, h2⟩ := (C20_accepts_iff m w cp _ _ 0 7 _ hD ([48, 50] ++ u) LCT.Secp256k1.G).mpr
      ⟨hD.G_ne, hD.G_order, Or.inr ⟨u, by rw [hG], hu, by rw [hx]; exact hn⟩⟩
    have h3 : Denotes w pk.data.x (((Secp256k1.gx : Nat) : ZMod Secp256k1.p).val : Nat) ∧
      Denotes w pk.data.y (((Secp256k1.gy : Nat) : ZMod Secp256k1.p).val : Nat) := h2
    rw [gx_val, gy_val] at h3
    exact ⟨pk, h1, h3⟩
  intro t ht
  simp only [List.mem_cons, List.not_mem_nil, or_false] at ht
  rcases ht with rfl | rfl | rfl
  · refine key (ascii "79be667ef9dcbbac55a06295ce870b07029bfcdb2dce28d959f2815b16f81798") (by decide +kernel) ?_
    exact numeral_check .none (by decide +kernel)
  · refine key (ascii "0079be667ef9dcbbac55a06295ce870b07029bfcdb2dce28d959f2815b16f81798") (by decide +kernel) ?_
    exact numeral_check .none (by decide +kernel)
  · refine key (ascii "+79be667ef9dcbbac55a06295ce870b07029bfcdb2dce28d959f2815b16f81798") (by decide +kernel) ?_
    exact numeral_check (pre := [43]) .plus (by decide +kernel)

/-- C19 on secp256k1: the base point meets the conditions. -/
example (w : Nat) [DigitWidth w] : ∃ cp, (secp256k1 w : Out Unit _) = .ok cp ∧ ∀ c,
    ((⟨cp.basePoint, cp⟩ : PublicKey).toSec1Hex .release w c : Out Unit _) =
      .ok (if c then compressedText Secp256k1.n LCT.Secp256k1.G else uncompressedText Secp256k1.n LCT.Secp256k1.G) := by
  obtain ⟨cp, e, hD, -⟩ := secp256k1_y (ε := Unit) w
  refine ⟨cp, e, fun c => ?_⟩
  have hx : xCoord LCT.Secp256k1.G = Secp256k1.gx := gx_val
  have hy : yCoord LCT.Secp256k1.G = Secp256k1.gy := gy_val
  exact (C19_round_trip_partial .release w cp _ _ 0 7 _ hD ⟨cp.basePoint, cp⟩ rfl LCT.Secp256k1.G hD.base hD.G_ne hD.G_order
    (by rw [hx]; decide) (by rw [hx]; decide) (by rw [hy]; decide) (by rw [hy]; decide) c).1

/-- The standard text of the base point. -/
example : compressedText Secp256k1.n LCT.Secp256k1.G = ascii "0279be667ef9dcbbac55a06295ce870b07029bfcdb2dce28d959f2815b16f81798" := by
  unfold compressedText compressedPrefix
  rw [show xCoord LCT.Secp256k1.G = Secp256k1.gx from gx_val, show yCoord LCT.Secp256k1.G = Secp256k1.gy from gy_val]
  decide +kernel

end

end LCT.Props
