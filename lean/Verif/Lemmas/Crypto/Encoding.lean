import Verif.Model.Crypto.Encoding
import Verif.Spec.Encoding
import Verif.Lemmas.Crypto.Recovery
import Verif.Lemmas.Crypto.TwoTorsion
import Verif.Lemmas.Crypto.Rfc6979
import Verif.Lemmas.BigInt.Parse

/-!
# The textual encodings refine the specification
-/

namespace LCT.Crypto
open LCT.Spec LCT.Out LCT.BigInt LCT.Modular LCT.Curve
open WeierstrassCurve.Affine (Point.some Point.zero)
variable {ε : Type} {w : Nat} [hw : DigitWidth w] {p n : Nat} [hpr : Fact p.Prime] {cp : Params} {a b : Int}
  {G : (curve (a : ZMod p) (b : ZMod p)).Point} (m : Build)

/-! ## Hex text of fixed width -/

omit hpr hw in
theorem byteLength_pos (h : 0 < n) : 0 < byteLength n := by
  have := bitLength_pos h
  unfold byteLength
  omega

theorem fixedHex_length (len v : Nat) : (fixedHex len v).length = 2 * len := by
  unfold fixedHex
  rw [Codecs.hexOf_length, octets_length]

theorem fixedHex_inj {len v v' : Nat} (hv : v < 256 ^ len) (hv' : v' < 256 ^ len) (h : fixedHex len v = fixedHex len v') : v = v' := by
  have h1 := congrArg ofBE (Codecs.hexOf_injective h)
  rwa [octets_eq, octets_eq, ofBE_toBEk, ofBE_toBEk, Nat.mod_eq_of_lt hv, Nat.mod_eq_of_lt hv'] at h1

theorem hexOf_zeros (k : Nat) : hexOf (List.replicate k 0) = List.replicate (2 * k) 48 := by
  induction k with
  | zero => rfl
  | succ k ih =>
    rw [List.replicate_succ, Codecs.hexOf_cons, ih, show 2 * (k + 1) = 2 * k + 1 + 1 from rfl, List.replicate_succ, List.replicate_succ]
    rfl

theorem padHex_text {len v : Nat} (h0 : 0 < v) (h : v < 256 ^ len) : padHex (len * 2) (hexText (v : Int)) = fixedHex len v := by
  unfold padHex hexText fixedHex
  rw [if_neg (by omega), if_neg (by omega), Int.natAbs_natCast, ← octets_minBE h, Codecs.hexOf_append, hexOf_zeros, Codecs.hexOf_length]
  rw [show len * 2 - 2 * (minBE v).length = 2 * (len - (minBE v).length) by omega]

omit hpr hw in
theorem lowerChar_hex (c : UInt8) : IsHexDigit (lowerChar c) → IsHexDigit c := by
  have := Codecs.all_uint8 (fun c => decide (IsHexDigit (lowerChar c) → IsHexDigit c)) (by decide +kernel) c
  exact of_decide_eq_true this

omit hpr hw in
theorem lowerChar_digit (c d : UInt8) (hd : 48 ≤ d.toNat ∧ d.toNat ≤ 57) : lowerChar c = d ↔ c = d := by
  have := Codecs.all_uint8 (fun c => decide ((48 ≤ (lowerChar c).toNat ∧ (lowerChar c).toNat ≤ 57 → lowerChar c = c) ∧
    (48 ≤ c.toNat ∧ c.toNat ≤ 57 → lowerChar c = c))) (by decide +kernel) c
  obtain ⟨h1, h2⟩ := of_decide_eq_true this
  constructor
  · rintro rfl
    exact (h1 hd).symm
  · rintro rfl
    exact h2 hd

/-- Parsing a text of even, positive length: it is the number written, if all characters are hex digits. -/
theorem fromHex_fixed {t : List UInt8} {len : Nat} (hlen : t.length = 2 * len) (hl : 1 ≤ len) :
    (∃ v < 256 ^ len, lower t = fixedHex len v ∧ (∀ c ∈ t, IsHexDigit c) ∧ (BInt.fromHex w t).Yields (Denotes w · (v : Int))) ∨
    ((∃ c ∈ t, ¬ IsHexDigit c) ∧ ∃ e, BInt.fromHex w t = .err e) := by
  obtain ⟨k, hk, rfl⟩ := hw
  have hne : t ≠ [] := by rintro rfl; simp at hlen; omega
  have heven : t.length % 2 = 0 := by omega
  rcases Codecs.hexLoop_cases t heven with ⟨bs, hbs, hd, hlow⟩ | ⟨-, c, hc, hn⟩
  · left
    have hbl : bs.length = len := by
      have := congrArg List.length hlow
      rw [Codecs.hexOf_length, List.length_map] at this
      omega
    have hlt : ofBE bs < 256 ^ len := by rw [← hbl]; exact ofBE_lt bs
    refine ⟨ofBE bs, hlt, ?_, hd, ?_⟩
    · unfold lower fixedHex
      rw [← hlow, octets_eq, ← hbl, toBEk_ofBE]
    · have hok : Codecs.hexToBytes t = .ok bs := by rw [Codecs.hexToBytes_eq, if_pos heven, hbs]
      obtain ⟨-, ds, hdt, -, hh⟩ := hexToBytes_digits hne hok
      obtain ⟨x, e, hx⟩ := (fromHex_iff hk t (ofBE bs : Int)).mpr (Or.inr ⟨[], t, ds, 1, rfl, .none, hdt, heven, by rw [hh]; ring⟩)
      exact ⟨x, e, hx⟩
  · right
    refine ⟨⟨c, hc, hn⟩, ?_⟩
    rcases fromHex_wf hk t with ⟨x, e, hwf⟩ | h
    · exfalso
      rcases (fromHex_iff hk t _).mp ⟨x, e, hwf, rfl⟩ with ⟨h, -⟩ | ⟨pre, body, ds, sg, rfl, hs, hdt, he2, -⟩
      · exact hne h
      · have hpre : pre = [] := by
          cases hs with
          | none => rfl
          | plus => simp only [List.length_append, List.length_cons, List.length_nil] at heven; omega
          | minus => simp only [List.length_append, List.length_cons, List.length_nil] at heven; omega
        subst hpre
        exact hn ((hexVal_eq_digitVal c).mpr (digitText_mem hdt c hc))
    · exact h

theorem fromHexOr_ok {e : ε} {t : List UInt8} {Q : BInt → Prop} (h : (BInt.fromHex w t).Yields Q) : (fromHexOr w e t).Yields Q := by
  obtain ⟨x, ex, hx⟩ := h
  unfold fromHexOr
  rw [ex]
  exact ⟨x, rfl, hx⟩

theorem fromHexOr_err {e : ε} {t : List UInt8} {e' : ParseIntError} (h : BInt.fromHex w t = .err e') : fromHexOr w e t = .err e := by
  unfold fromHexOr
  rw [h]

omit hpr hw in
theorem hexOf_lower_digits (bs : List UInt8) : List.map lowerChar (hexOf bs) = hexOf bs ∧ ∀ c ∈ hexOf bs, IsHexDigit c := by
  have h := Codecs.hexLoop_hexOf bs
  rcases Codecs.hexLoop_cases (hexOf bs) (by rw [Codecs.hexOf_length]; omega) with ⟨bs', h1, h2, h3⟩ | ⟨h1, -⟩
  · rw [h] at h1
    cases h1
    exact ⟨h3.symm, h2⟩
  · rw [h] at h1
    cases h1

theorem lower_hexOf (bs : List UInt8) : List.map lowerChar (hexOf bs) = hexOf bs := (hexOf_lower_digits bs).1
theorem hexOf_digits (bs : List UInt8) : ∀ c ∈ hexOf bs, IsHexDigit c := (hexOf_lower_digits bs).2

theorem numeral_unique {u : List UInt8} {z z' : Int} (h : HexNumeral u z) (h' : HexNumeral u z') : z = z' := by
  obtain ⟨x, e, hx⟩ := (fromHex_iff (k := 1) (Nat.le_refl 1) u z).mpr (Or.inr h)
  obtain ⟨x', e', hx'⟩ := (fromHex_iff (k := 1) (Nat.le_refl 1) u z').mpr (Or.inr h')
  rw [e] at e'
  cases e'
  exact hx.2.symm.trans hx'.2

theorem fixedHex_numeral {len v : Nat} (hl : 0 < len) (hv : v < 256 ^ len) : HexNumeral (fixedHex len v) v := by
  have hdw : DigitWidth (8 * 1) := ⟨1, Nat.le_refl 1, rfl⟩
  rcases fromHex_fixed (w := 8 * 1) (fixedHex_length len v) hl with ⟨v', hv', h1, -, x, e, hx⟩ | ⟨⟨c, hc, h⟩, -⟩
  · have : v = v' := fixedHex_inj hv hv' (by rw [← h1]; exact (lower_hexOf _).symm)
    subst this
    rcases (fromHex_iff (k := 1) (Nat.le_refl 1) (fixedHex len v) v).mp ⟨x, e, hx⟩ with ⟨h, -⟩ | h
    · have := fixedHex_length len v
      rw [h, List.length_nil] at this
      omega
    · exact h
  · exact absurd (hexOf_digits _ c hc) h

/-- A numeral of even length has no sign. -/
theorem numeral_fixedHex {len v : Nat} {u : List UInt8} (hl : 0 < len) (hu : u.length = 2 * len) (h : HexNumeral u v) :
    lower u = fixedHex len v := by
  have hdw : DigitWidth (8 * 1) := ⟨1, Nat.le_refl 1, rfl⟩
  obtain ⟨x, e, hx⟩ := (fromHex_iff (k := 1) (Nat.le_refl 1) u v).mpr (Or.inr h)
  rcases fromHex_fixed (w := 8 * 1) hu hl with ⟨v', -, h1, -, x', e', hx'⟩ | ⟨-, e', he⟩
  · rw [e] at e'
    cases e'
    have : (v : Int) = v' := hx.2.symm.trans hx'.2
    rw [h1, Int.ofNat_inj.mp this]
  · rw [e] at he
    cases he

theorem numeral_check {pre body : List UInt8} {sg : Int} {z : Nat} (hpre : SignText pre sg) (h : sg = 1 ∧ body ≠ [] ∧
    body.map digitVal = (body.filterMap digitVal).map some ∧
    (∀ d ∈ body.filterMap digitVal, d < 16) ∧ body.length % 2 = 0 ∧ horner 16 (body.filterMap digitVal) = z) :
    HexNumeral (pre ++ body) z := by
  obtain ⟨h0, h1, h2, h3, h4, h5⟩ := h
  exact ⟨pre, body, _, sg, rfl, hpre, ⟨h1, h2, h3⟩, h4, by rw [h5, h0, one_mul]⟩

/-! ## P1363 -/

theorem toP1363Hex_y {sig : Signature} (hn : Denotes w sig.params.order (n : Int)) {r s : Nat} (hr : Denotes w sig.r r) (hs : Denotes w sig.s s)
    (hr0 : 0 < r) (hrn : r < n) (hs0 : 0 < s) (hsn : s < n) : (sig.toP1363Hex m w : Out ε _) = .ok (p1363Text n r s) := by
  have : (sig.toP1363Hex m w : Out ε _).Yields (· = p1363Text n r s) := by
    unfold Signature.toP1363Hex
    run (byteLen_y m hn) with _ rfl
    run (toLowerHex_y m hr) with _ rfl
    run (toLowerHex_y m hs) with _ rfl
    refine .pure ?_
    unfold p1363Text
    simp only [Int.natAbs_natCast]
    rw [padHex_text hr0 (lt_octets_len hrn), padHex_text hs0 (lt_octets_len hsn)]
    rfl
  obtain ⟨_, e, rfl⟩ := this
  exact e

/-- What decoding a signature does with an arbitrary text. -/
theorem fromP1363Hex_cases (hn : Denotes w cp.order (n : Int)) (hn0 : 0 < n) (t : List UInt8) :
    (t.length ≠ 4 * byteLength n ∧ Signature.fromP1363Hex m w t cp = .err .InvalidFormat) ∨
    (t.length = 4 * byteLength n ∧ (∃ c ∈ t, ¬ IsHexDigit c) ∧ Signature.fromP1363Hex m w t cp = .err .InvalidFormat) ∨
    ∃ r s, r < 256 ^ byteLength n ∧ s < 256 ^ byteLength n ∧ lower t = p1363Text n r s ∧ (∀ c ∈ t, IsHexDigit c) ∧
      ((¬ (0 < r ∧ r < n ∧ 0 < s ∧ s < n) ∧ Signature.fromP1363Hex m w t cp = .err .InvalidSignature) ∨
       ((0 < r ∧ r < n ∧ 0 < s ∧ s < n) ∧ ∃ sig, Signature.fromP1363Hex m w t cp = .ok sig ∧ sig.params = cp ∧ Denotes w sig.r r ∧
         Denotes w sig.s s)) := by
  have hL := byteLength_pos hn0
  obtain ⟨_, e1, rfl⟩ := byteLen_y (ε := SignatureDecodingError) m hn
  have hunf : Signature.fromP1363Hex m w t cp = (do
      failIf .InvalidFormat (t.length != byteLength n * 2 * 2)
      let r ← fromHexOr w .InvalidFormat (t.take (byteLength n * 2))
      let s ← fromHexOr w .InvalidFormat (t.drop (byteLength n * 2))
      let o ← Signature.new m w r s cp
      match o with
      | some sig => return sig
      | none => .err .InvalidSignature) := by
    unfold Signature.fromP1363Hex
    rw [e1]
    rfl
  rw [hunf]
  by_cases hlen : t.length = 4 * byteLength n
  swap
  · left
    refine ⟨hlen, ?_⟩
    have : (t.length != byteLength n * 2 * 2) = true := by rw [bne_iff_ne]; omega
    rw [this]
    rfl
  right
  have : (t.length != byteLength n * 2 * 2) = false := by rw [bne_eq_false_iff_eq]; omega
  rw [this]
  simp only [failIf, Bool.false_eq_true, if_false, bind_ok]
  have hsplit := List.take_append_drop (byteLength n * 2) t
  rcases fromHex_fixed (w := w) (t := t.take (byteLength n * 2)) (len := byteLength n) (by rw [List.length_take]; omega) hL with
    ⟨r, hr, hrl, hrd, hry⟩ | ⟨⟨c, hc, hcn⟩, e, he⟩
  swap
  · left
    refine ⟨hlen, ⟨c, List.mem_of_mem_take hc, hcn⟩, ?_⟩
    rw [fromHexOr_err he]
    rfl
  obtain ⟨xr, er, hxr⟩ := fromHexOr_ok (e := SignatureDecodingError.InvalidFormat) hry
  rcases fromHex_fixed (w := w) (t := t.drop (byteLength n * 2)) (len := byteLength n) (by rw [List.length_drop]; omega) hL with
    ⟨s, hs, hsl, hsd, hsy⟩ | ⟨⟨c, hc, hcn⟩, e, he⟩
  swap
  · left
    refine ⟨hlen, ⟨c, List.mem_of_mem_drop hc, hcn⟩, ?_⟩
    rw [er, fromHexOr_err he]
    rfl
  right
  obtain ⟨xs, es, hxs⟩ := fromHexOr_ok (e := SignatureDecodingError.InvalidFormat) hsy
  refine ⟨r, s, hr, hs, ?_, ?_, ?_⟩
  · unfold p1363Text
    rw [← hrl, ← hsl]
    unfold lower
    rw [← List.map_append, hsplit]
  · intro c hc
    rw [← hsplit] at hc
    rcases List.mem_append.mp hc with h | h
    · exact hrd c h
    · exact hsd c h
  rw [er, es]
  simp only [bind_ok]
  obtain ⟨o, eo, rfl⟩ := signatureNew_y (ε := SignatureDecodingError) m hxr hxs hn
  rw [eo]
  simp only [bind_ok]
  by_cases h : 0 < r ∧ r < n ∧ 0 < s ∧ s < n
  · right
    rw [if_pos (by omega)]
    exact ⟨h, _, rfl, rfl, hxr, hxs⟩
  · left
    rw [if_neg (by omega)]
    exact ⟨h, rfl⟩

/-! ## SEC1 -/

theorem toP1363Text_inj {r s r' s' : Nat} (hr : r < n) (hs : s < n) (hr' : r' < n) (hs' : s' < n) (h : p1363Text n r s = p1363Text n r' s') :
    r = r' ∧ s = s' := by
  unfold p1363Text at h
  obtain ⟨h1, h2⟩ := List.append_inj h (by rw [fixedHex_length, fixedHex_length])
  exact ⟨fixedHex_inj (lt_octets_len hr) (lt_octets_len hr') h1, fixedHex_inj (lt_octets_len hs) (lt_octets_len hs') h2⟩

theorem leftPad_y {len v : Nat} (h : v < 256 ^ len) : (leftPad len (minBE v) : Out ε _).Yields (· = octets len v) := by
  unfold leftPad
  rw [if_pos (minBE_length_le v len h), octets_minBE h]
  exact .ok rfl

section
variable (hD : Domain w cp p n a b G)
include hD

theorem encodePoint_y {pt : Point} {P : (curve (a : ZMod p) (b : ZMod p)).Point} (hP : PointDenotes w pt P) (hx0 : 0 < xCoord P)
    (hxn : xCoord P < n) (hy0 : 0 < yCoord P) (hyn : yCoord P < n) (c : Bool) :
    (encodePoint m w pt cp c : Out ε _) = .ok (if c then compressedText n P else uncompressedText n P) := by
  obtain ⟨hx, hy⟩ := point_x hP
  have : (encodePoint m w pt cp c : Out ε _).Yields (· = if c then compressedText n P else uncompressedText n P) := by
    unfold encodePoint
    run (inOrderRange_y m hx hD.order) with _ rfl
    run (Yields.rassert (decide_eq_true (by omega))) with - -
    run (inOrderRange_y m hy hD.order) with _ rfl
    run (Yields.rassert (decide_eq_true (by omega))) with - -
    run (byteLen_y m hD.order) with _ rfl
    simp only [Int.natAbs_natCast]
    cases c
    · rw [if_neg (by decide), if_neg (by decide)]
      have hb : (cp.pointToBytes m w pt : Out ε _).Yields (· = octets (byteLength n) (xCoord P) ++ octets (byteLength n) (yCoord P)) := by
        unfold Params.pointToBytes
        run (byteLen_y m hD.order) with _ rfl
        run (toBeBytes_y m hx) with _ rfl
        simp only [Int.natAbs_natCast]
        run (leftPad_y (lt_octets_len hxn)) with _ rfl
        run (toBeBytes_y m hy) with _ rfl
        simp only [Int.natAbs_natCast]
        run (leftPad_y (lt_octets_len hyn)) with _ rfl
        exact .pure rfl
      run hb with _ rfl
      refine .pure ?_
      rw [Codecs.bytesToLowerHex_eq, Codecs.hexOf_append, ← List.append_assoc]
      rfl
    · rw [if_pos rfl, if_pos rfl]
      run (isEven_y hy) with _ rfl
      run (toLowerHex_y m hx) with _ rfl
      rw [padHex_text hx0 (lt_octets_len hxn)]
      unfold compressedText compressedPrefix
      by_cases he : yCoord P % 2 = 0
      · rw [if_pos (decide_eq_true (by omega)), if_pos he]
        exact .pure rfl
      · rw [if_neg (by simp only [decide_eq_true_iff]; omega), if_neg he]
        exact .pure rfl
  obtain ⟨_, e, rfl⟩ := this
  exact e

theorem encodePoint_panic {pt : Point} {P : (curve (a : ZMod p) (b : ZMod p)).Point} (hP : PointDenotes w pt P)
    (h : ¬ (0 < xCoord P ∧ xCoord P < n ∧ 0 < yCoord P ∧ yCoord P < n)) (c : Bool) :
    (encodePoint m w pt cp c : Out ε _) = .panic := by
  obtain ⟨hx, hy⟩ := point_x hP
  obtain ⟨_, e1, rfl⟩ := inOrderRange_y (ε := ε) m hx hD.order
  obtain ⟨_, e2, rfl⟩ := inOrderRange_y (ε := ε) m hy hD.order
  unfold encodePoint
  rw [e1, e2]
  simp only [bind_ok]
  by_cases h1 : 0 < xCoord P ∧ xCoord P < n
  · rw [decide_eq_true (by omega : 0 < (xCoord P : Int) ∧ (xCoord P : Int) < n)]
    rw [decide_eq_false (by omega : ¬ (0 < (yCoord P : Int) ∧ (yCoord P : Int) < n))]
    rfl
  · rw [decide_eq_false (by omega : ¬ (0 < (xCoord P : Int) ∧ (xCoord P : Int) < n))]
    rfl

/-- Validation of a decoded point. -/
theorem checkPoint_cases {pt : Point} {x y : Int} (hx : Denotes w pt.x x) (hy : Denotes w pt.y y)
    (hclear : Clear w n cp (curve (a : ZMod p) (b : ZMod p)) pt) :
    (ValidPoint w n (W := curve (a : ZMod p) (b : ZMod p)) pt ∧ checkPoint m w cp pt = .ok pt) ∨
    (¬ ValidPoint w n (W := curve (a : ZMod p) (b : ZMod p)) pt ∧ checkPoint m w cp pt = .err .InvalidPoint) := by
  obtain ⟨r, e, hr⟩ := validatePoint_z (ε := PointDecodingError) m hD hx hy hclear
  unfold checkPoint
  rw [e]
  cases r
  · exact Or.inr ⟨fun h => absurd (hr.mpr h) (by decide), rfl⟩
  · exact Or.inl ⟨hr.mp rfl, rfl⟩

/-- A result of decoding: the point, or an error. -/
def Decoded (w n : Nat) {W : WeierstrassCurve.Affine (ZMod p)} (text : W.Point → Prop) (res : Out PointDecodingError Point) : Prop :=
  (∃ P : W.Point, P ≠ 0 ∧ n • P = 0 ∧ text P ∧ ∃ pt, res = .ok pt ∧ PointDenotes w pt P) ∨
  ((∀ P : W.Point, P ≠ 0 → n • P = 0 → ¬ text P) ∧ ∃ e, res = .err e)

omit hD in
theorem lower_cons_eq {t u : List UInt8} {d : UInt8} (hd : 48 ≤ d.toNat ∧ d.toNat ≤ 57) (h : lower t = d :: u) :
    ∃ t', t = d :: t' ∧ lower t' = u := by
  cases t with
  | nil => cases h
  | cons c t' =>
    unfold lower at h
    rw [List.map_cons] at h
    injection h with h1 h2
    rw [lowerChar_digit c d hd] at h1
    exact ⟨t', by rw [h1], h2⟩

theorem decodeUncompressed_cases {t : List UInt8} (hpre : t.take 2 = [48, 52])
    (hor : cp.cofactor % 2 = 1 ∨ (∃ P : (curve (a : ZMod p) (b : ZMod p)).Point, P ≠ 0 ∧ n • P = 0 ∧ IsUncompressed n t P) ∨
      decodeUncompressed m w cp (byteLength n * 2) t ≠ .panic) :
    Decoded w n (W := curve (a : ZMod p) (b : ZMod p)) (fun P => xCoord P < 256 ^ byteLength n ∧ yCoord P < 256 ^ byteLength n ∧
      lower t = uncompressedText n P) (decodeUncompressed m w cp (byteLength n * 2) t) := by
  have hL := byteLength_pos hD.n_prime.pos
  obtain ⟨u, rfl⟩ : ∃ u, t = 48 :: 52 :: u := by
    match t with
    | [] => simp at hpre
    | [_] => simp at hpre
    | x :: y :: u => simp at hpre; exact ⟨u, by rw [hpre.1, hpre.2]⟩
  unfold decodeUncompressed
  by_cases hlen : (48 :: 52 :: u : List UInt8).length = byteLength n * 2 * 2 + 2
  swap
  · right
    refine ⟨fun P _ _ h => hlen ?_, ?_⟩
    · have := congrArg List.length h.2.2
      unfold lower uncompressedText at this
      simp only [List.length_map, List.length_append, fixedHex_length, List.length_cons, List.length_nil] at this ⊢
      omega
    · have : ((48 :: 52 :: u : List UInt8).length != byteLength n * 2 * 2 + 2) = true := by rw [bne_iff_ne]; exact hlen
      rw [this]
      exact ⟨_, rfl⟩
  have : ((48 :: 52 :: u : List UInt8).length != byteLength n * 2 * 2 + 2) = false := by rw [bne_eq_false_iff_eq]; exact hlen
  rw [this]
  simp only [failIf, Bool.false_eq_true, if_false, bind_ok]
  have e1 : (List.take (byteLength n * 2 + 2) (48 :: 52 :: u)).drop 2 = u.take (byteLength n * 2) := by
    rw [List.take_succ_cons, List.take_succ_cons]; rfl
  have e2 : List.drop (byteLength n * 2 + 2) (48 :: 52 :: u) = u.drop (byteLength n * 2) := by
    rw [List.drop_succ_cons, List.drop_succ_cons]
  rw [e1, e2]
  simp only [List.length_cons] at hlen
  have hsplit := List.take_append_drop (byteLength n * 2) u
  -- a text with another character than a hex digit encodes nothing
  have hbad : (∃ c ∈ u, ¬ IsHexDigit c) → ∀ P : (curve (a : ZMod p) (b : ZMod p)).Point, P ≠ 0 → n • P = 0 →
      ¬ (xCoord P < 256 ^ byteLength n ∧ yCoord P < 256 ^ byteLength n ∧ lower (48 :: 52 :: u) = uncompressedText n P) := by
    rintro ⟨c, hc, hn⟩ P - - ⟨-, -, h⟩
    apply hn
    apply lowerChar_hex
    have hmem : lowerChar c ∈ lower (48 :: 52 :: u) := List.mem_map_of_mem (by simp [hc])
    rw [h] at hmem
    have hoct : ∀ bs : List UInt8, ∀ c ∈ hexOf bs, IsHexDigit c := by
      intro bs c hc
      rcases Codecs.hexLoop_cases (hexOf bs) (by rw [Codecs.hexOf_length]; omega) with ⟨_, -, h, -⟩ | ⟨h, -⟩
      · exact h c hc
      · rw [Codecs.hexLoop_hexOf] at h; cases h
    unfold uncompressedText fixedHex at hmem
    rcases List.mem_append.mp hmem with h | h
    · rcases List.mem_append.mp h with h | h
      · rcases List.mem_cons.mp h with h | h
        · rw [h]; decide
        · rw [List.mem_singleton.mp h]; decide
      · exact hoct _ _ h
    · exact hoct _ _ h
  rcases fromHex_fixed (w := w) (t := u.take (byteLength n * 2)) (len := byteLength n) (by rw [List.length_take]; omega) hL with
    ⟨x, hx, hxl, -, hxy⟩ | ⟨⟨c, hc, hcn⟩, e, he⟩
  swap
  · right
    refine ⟨hbad ⟨c, List.mem_of_mem_take hc, hcn⟩, ?_⟩
    rw [fromHexOr_err he]
    exact ⟨_, rfl⟩
  obtain ⟨xx, ex, hxx⟩ := fromHexOr_ok (e := PointDecodingError.InvalidX) hxy
  rcases fromHex_fixed (w := w) (t := u.drop (byteLength n * 2)) (len := byteLength n) (by rw [List.length_drop]; omega) hL with
    ⟨y, hy, hyl, -, hyy⟩ | ⟨⟨c, hc, hcn⟩, e, he⟩
  swap
  · right
    refine ⟨hbad ⟨c, List.mem_of_mem_drop hc, hcn⟩, ?_⟩
    rw [ex, fromHexOr_err he]
    exact ⟨_, rfl⟩
  obtain ⟨xy, ey, hxy'⟩ := fromHexOr_ok (e := PointDecodingError.InvalidY) hyy
  rw [ex, ey]
  simp only [bind_ok]
  have hlow : lower (48 :: 52 :: u) = [48, 52] ++ fixedHex (byteLength n) x ++ fixedHex (byteLength n) y := by
    rw [← hxl, ← hyl, List.append_assoc]
    unfold lower
    rw [← List.map_append, hsplit]
    rfl
  have hpt : ∀ P : (curve (a : ZMod p) (b : ZMod p)).Point, P ≠ 0 → IsUncompressed n (48 :: 52 :: u) P → PointDenotes w ⟨xx, xy⟩ P := by
    rintro P hP0 ⟨q1, q2, h⟩
    rw [hlow] at h
    unfold uncompressedText at h
    obtain ⟨h1, h2⟩ := List.append_inj h (by simp [fixedHex_length])
    have hx' := fixedHex_inj hx q1 (List.append_cancel_left h1)
    have hy' := fixedHex_inj hy q2 h2
    subst hx' hy'
    cases P with
    | zero => exact absurd rfl hP0
    | some _ _ _ => exact ⟨hxx, hxy'⟩
  have hclear : Clear w n cp (curve (a : ZMod p) (b : ZMod p)) ⟨xx, xy⟩ := by
    rcases hor with h | ⟨P, h0, hn, h⟩ | h
    · exact clear_odd hD h _
    · exact clear_sub hD (hpt P h0 h) hn
    · refine clear_of_returns (ε := PointDecodingError) m hD fun h' => h ?_
      unfold decodeUncompressed
      rw [this, e1, e2]
      simp only [failIf, Bool.false_eq_true, if_false, bind_ok, ex, ey, checkPoint, h']
      rfl
  rcases checkPoint_cases m hD (pt := ⟨xx, xy⟩) hxx hxy' hclear with ⟨⟨P, hP, hP0, hPn⟩, e⟩ | ⟨hno, e⟩
  · left
    obtain ⟨q1, q2⟩ := point_x hP
    have hx' : x = xCoord P := by exact_mod_cast hxx.2.symm.trans q1.2
    have hy' : y = yCoord P := by exact_mod_cast hxy'.2.symm.trans q2.2
    refine ⟨P, hP0, hPn, ⟨hx' ▸ hx, hy' ▸ hy, ?_⟩, _, e, hP⟩
    rw [hlow]
    unfold uncompressedText
    rw [hx', hy']
  · right
    exact ⟨fun P hP0 hPn h => hno ⟨P, hpt P hP0 h, hP0, hPn⟩, _, e⟩

omit hD in
theorem chooseRoot_y (even : Bool) {y1 y2 : BInt} {y : ZMod p} (hp2 : p ≠ 2) (hy : y ≠ 0) (h1 : Res w y1 y) (h2 : Res w y2 (-y)) :
    (chooseRoot even y1 y2 : Out ε _).Yields (fun r => ∃ z : ZMod p, (z = y ∨ z = -y) ∧ Res w r z ∧ (z.val % 2 = 0 ↔ even = true)) := by
  have hpar := yParity_neg hp2 hy
  unfold chooseRoot
  cases even
  · rw [if_neg (by decide)]
    run (isOdd_y h1) with _ rfl
    refine .pure ?_
    by_cases h : 2 ∣ (y.val : Int)
    · rw [if_neg (by simpa using h)]
      exact ⟨-y, Or.inr rfl, h2, by simp; omega⟩
    · rw [if_pos (by simpa using h)]
      exact ⟨y, Or.inl rfl, h1, by simp; omega⟩
  · rw [if_pos rfl]
    run (isEven_y h1) with _ rfl
    refine .pure ?_
    by_cases h : 2 ∣ (y.val : Int)
    · rw [if_pos (by simpa using h)]
      exact ⟨y, Or.inl rfl, h1, by simp; omega⟩
    · rw [if_neg (by simpa using h)]
      exact ⟨-y, Or.inr rfl, h2, by simp; omega⟩

theorem decodeCompressed_cases {t : List UInt8} (hpre : t.take 2 = [48, 50] ∨ t.take 2 = [48, 51]) (hlen : byteLength n * 2 + 2 ≤ t.length)
    (hor : cp.cofactor % 2 = 1 ∨ (∃ P : (curve (a : ZMod p) (b : ZMod p)).Point, P ≠ 0 ∧ n • P = 0 ∧ LaxCompressed n t P) ∨
      decodeCompressed m w cp t ≠ .panic) :
    Decoded w n (W := curve (a : ZMod p) (b : ZMod p)) (LaxCompressed n t) (decodeCompressed m w cp t) := by
  have hL := byteLength_pos hD.n_prime.pos
  have hsplit := List.take_append_drop 2 t
  have hul : 2 * byteLength n ≤ (t.drop 2).length := by rw [List.length_drop]; omega
  have hune : t.drop 2 ≠ [] := by intro h; rw [h] at hul; simp at hul; omega
  have hlax : ∀ P : (curve (a : ZMod p) (b : ZMod p)).Point, LaxCompressed n t P ↔
      t.take 2 = compressedPrefix P ∧ HexNumeral (t.drop 2) (xCoord P) := by
    intro P
    have hl2 : (compressedPrefix P).length = 2 := by unfold compressedPrefix; split <;> rfl
    constructor
    · rintro ⟨u, rfl, -, h⟩
      rw [List.take_append_of_le_length (by omega), List.take_of_length_le (by omega), List.drop_append_of_le_length (by omega),
        List.drop_of_length_le (by omega)]
      exact ⟨rfl, h⟩
    · rintro ⟨h1, h2⟩
      exact ⟨t.drop 2, by rw [← h1, hsplit], hul, h2⟩
  unfold decodeCompressed
  have hparse : (∃ z, HexNumeral (t.drop 2) z ∧ (BInt.fromHex w (t.drop 2)).Yields (Denotes w · z)) ∨
      ((∀ z, ¬ HexNumeral (t.drop 2) z) ∧ ∃ e, BInt.fromHex w (t.drop 2) = .err e) := by
    obtain ⟨k, hk, rfl⟩ := hw
    rcases fromHex_wf hk (t.drop 2) with ⟨x, e, hwf⟩ | ⟨e, he⟩
    · left
      rcases (fromHex_iff hk (t.drop 2) _).mp ⟨x, e, hwf, rfl⟩ with ⟨h, -⟩ | h
      · exact absurd h hune
      · exact ⟨_, h, x, e, hwf, rfl⟩
    · right
      refine ⟨fun z hz => ?_, e, he⟩
      obtain ⟨x, e', -⟩ := (fromHex_iff hk (t.drop 2) z).mpr (Or.inr hz)
      rw [he] at e'
      cases e'
  rcases hparse with ⟨z, hz, hy⟩ | ⟨hno, e, he⟩
  swap
  · right
    refine ⟨fun P _ _ h => hno _ ((hlax P).mp h).2, ?_⟩
    rw [fromHexOr_err he]
    exact ⟨_, rfl⟩
  obtain ⟨xx, ex, hxx⟩ := fromHexOr_ok (e := PointDecodingError.InvalidX) hy
  rw [ex]
  simp only [bind_ok]
  obtain ⟨y2, e1, hy2⟩ := rhs_y (ε := PointDecodingError) m hD.curve.a hD.curve.b hxx
  obtain ⟨y2', e2, hy2'⟩ := modulo_z (ε := PointDecodingError) m hy2 hD.curve.p
  have hrhs : ((z * z * z + a * z + b : Int) : ZMod p) = (z : ZMod p) ^ 3 + (a : ZMod p) * (z : ZMod p) + (b : ZMod p) := by
    push_cast
    ring
  rw [hrhs] at hy2'
  have hrne : (z : ZMod p) ^ 3 + (a : ZMod p) * (z : ZMod p) + (b : ZMod p) ≠ 0 := by
    rcases hor with h | ⟨P, h0, hPn, h⟩ | h
    · exact hD.rhs_ne h _
    swap
    · intro h0
      rw [h0] at hy2'
      apply h
      unfold decodeCompressed
      have : Denotes w y2' 0 := by simpa [Res] using hy2'
      simp only [ex, bind_ok, e1, e2, sqrt_zero (ε := PointDecodingError) m hD.p_ne hD.curve.p this]
      rfl
    · have hx := numeral_unique ((hlax P).mp h).2 hz
      cases P with
      | zero => exact absurd rfl h0
      | some x y hn =>
        change ((x.val : Nat) : Int) = z at hx
        rw [← hx, Int.cast_natCast, ZMod.natCast_zmod_val, ← equation_of_nonsingular hn]
        exact pow_ne_zero 2 (hD.y_ne_sub hPn)
  obtain ⟨roots, e3, hroots⟩ := sqrt_y (ε := PointDecodingError) m hD.p_ne hD.curve.p hy2' hrne
  rw [e1]
  simp only [bind_ok, e2, e3]
  cases roots with
  | none =>
    right
    refine ⟨fun P hP0 _ h => ?_, _, rfl⟩
    simp only at hroots
    have hx := numeral_unique ((hlax P).mp h).2 hz
    cases P with
    | zero => exact absurd rfl hP0
    | some x y hn =>
      change ((x.val : Nat) : Int) = z at hx
      apply hroots
      rw [← hx, Int.cast_natCast, ZMod.natCast_zmod_val]
      exact ⟨y, by rw [← pow_two]; exact (equation_of_nonsingular hn).symm⟩
  | some rt =>
    obtain ⟨r1, r2⟩ := rt
    simp only at hroots ⊢
    obtain ⟨y, hyy, hr1, hr2⟩ := hroots
    have hn : (curve (a : ZMod p) (b : ZMod p)).Nonsingular (z : ZMod p) y := nonsingular_of_equation hD.p_ne hD.disc hyy
    have hy0 : y ≠ 0 := by
      rintro rfl
      exact hrne (by rw [← hyy]; ring)
    obtain ⟨r, e4, v, hv, hr, hpar⟩ := chooseRoot_y (ε := PointDecodingError) (t.take 2 == [48, 50]) hD.p_ne hy0 hr1 hr2
    rw [e4]
    simp only [bind_ok]
    have hprefix : ∀ P : (curve (a : ZMod p) (b : ZMod p)).Point, t.take 2 = compressedPrefix P ↔ (yCoord P % 2 = 0 ↔ v.val % 2 = 0) := by
      intro P
      rw [hpar, beq_iff_eq]
      unfold compressedPrefix
      rcases hpre with h | h <;> rw [h] <;> by_cases h2 : yCoord P % 2 = 0 <;> simp [h2]
    have hpt : ∀ P : (curve (a : ZMod p) (b : ZMod p)).Point, P ≠ 0 → LaxCompressed n t P → PointDenotes w ⟨xx, r⟩ P := by
      intro P hP0 h
      obtain ⟨h1, h2⟩ := (hlax P).mp h
      have hx := numeral_unique h2 hz
      have hp := (hprefix P).mp h1
      cases P with
      | zero => exact absurd rfl hP0
      | some x y' hn' =>
        change ((x.val : Nat) : Int) = z at hx
        change (y'.val % 2 = 0 ↔ v.val % 2 = 0) at hp
        have hxz : (z : ZMod p) = x := by rw [← hx, Int.cast_natCast, ZMod.natCast_zmod_val]
        have hyv : y' = v := by
          have hodd : p % 2 = 1 := (hpr.out.eq_two_or_odd).resolve_left hD.p_ne
          have hvsq : v ^ 2 = y ^ 2 := by rcases hv with rfl | rfl <;> ring
          have hsq : (y' - v) * (y' + v) = 0 := by
            have h3 := equation_of_nonsingular hn'
            rw [hxz] at hyy
            linear_combination h3 - hyy - hvsq
          rcases mul_eq_zero.mp hsq with h | h
          · exact sub_eq_zero.mp h
          · exfalso
            have hyn : y' = -v := eq_neg_of_add_eq_zero_left h
            have hv0 : v ≠ 0 := by
              rcases hv with rfl | rfl
              · exact hy0
              · exact neg_ne_zero.mpr hy0
            have := yParity_neg hD.p_ne hv0
            rw [hyn] at hp
            omega
        refine ⟨?_, hyv ▸ hr⟩
        show Denotes w xx _
        rw [hx]
        exact hxx
    have hclear : Clear w n cp (curve (a : ZMod p) (b : ZMod p)) ⟨xx, r⟩ := by
      rcases hor with h | ⟨P, h0, hn, h⟩ | h
      · exact clear_odd hD h _
      · exact clear_sub hD (hpt P h0 h) hn
      · refine clear_of_returns (ε := PointDecodingError) m hD fun h' => h ?_
        unfold decodeCompressed
        simp only [ex, bind_ok, e1, e2, e3, e4, checkPoint, h']
        rfl
    rcases checkPoint_cases m hD (pt := ⟨xx, r⟩) hxx hr hclear with ⟨⟨P, hP, hP0, hPn⟩, e⟩ | ⟨hno, e⟩
    · left
      obtain ⟨q1, q2⟩ := point_x hP
      have hx' : z = xCoord P := hxx.2.symm.trans q1.2
      have hy' : v.val = yCoord P := by exact_mod_cast hr.2.symm.trans q2.2
      refine ⟨P, hP0, hPn, (hlax P).mpr ⟨(hprefix P).mpr (by rw [hy']), hx' ▸ hz⟩, _, e, hP⟩
    · right
      exact ⟨fun P hP0 hPn h => hno ⟨P, hpt P hP0 h, hP0, hPn⟩, _, e⟩

/-- What decoding a point does with an arbitrary text. -/
theorem decodePoint_cases (t : List UInt8) (hor : cp.cofactor % 2 = 1 ∨
      (∃ P : (curve (a : ZMod p) (b : ZMod p)).Point, P ≠ 0 ∧ n • P = 0 ∧ (LaxCompressed n t P ∨ IsUncompressed n t P)) ∨
      decodePoint m w t cp ≠ .panic) :
    Decoded w n (W := curve (a : ZMod p) (b : ZMod p)) (fun P => LaxCompressed n t P ∨
      (xCoord P < 256 ^ byteLength n ∧ yCoord P < 256 ^ byteLength n ∧ lower t = uncompressedText n P)) (decodePoint m w t cp) := by
  have hL := byteLength_pos hD.n_prime.pos
  obtain ⟨_, e1, rfl⟩ := byteLen_y (ε := PointDecodingError) m hD.order
  have e1' : (BInt.byteLen m w cp.order : Out PointDecodingError _) = .ok (byteLength n) := e1
  unfold decodePoint
  rw [e1']
  simp only [bind_ok]
  have hl2 : ∀ P : (curve (a : ZMod p) (b : ZMod p)).Point, (compressedPrefix P).length = 2 := by
    intro P; unfold compressedPrefix; split <;> rfl
  -- the two forms have different prefixes
  have hlaxpre : ∀ P : (curve (a : ZMod p) (b : ZMod p)).Point, LaxCompressed n t P →
      (t.take 2 = [48, 50] ∨ t.take 2 = [48, 51]) ∧ byteLength n * 2 + 2 ≤ t.length := by
    rintro P ⟨u, rfl, hl, -⟩
    rw [List.take_append_of_le_length (by rw [hl2]), List.take_of_length_le (by rw [hl2]), List.length_append, hl2]
    refine ⟨?_, by omega⟩
    unfold compressedPrefix
    split
    · exact Or.inl rfl
    · exact Or.inr rfl
  have hunpre : ∀ P : (curve (a : ZMod p) (b : ZMod p)).Point, lower t = uncompressedText n P →
      t.take 2 = [48, 52] ∧ byteLength n * 2 + 2 ≤ t.length := by
    intro P h
    obtain ⟨t', ht, h1⟩ := lower_cons_eq (by decide) h
    obtain ⟨t'', ht', h2⟩ := lower_cons_eq (by decide) h1
    rw [ht, ht']
    refine ⟨rfl, ?_⟩
    have := congrArg List.length h2
    unfold lower at this
    change (List.map lowerChar t'').length = ([] ++ fixedHex (byteLength n) (xCoord P) ++ fixedHex (byteLength n) (yCoord P)).length at this
    simp only [List.length_map, List.length_append, fixedHex_length, List.nil_append, List.length_cons] at this ⊢
    omega
  by_cases hlen : t.length < byteLength n * 2 + 2
  · right
    refine ⟨?_, ?_⟩
    · rintro P - - (h | ⟨-, -, h⟩)
      · have := (hlaxpre P h).2; omega
      · have := (hunpre P h).2; omega
    · rw [decide_eq_true hlen]
      exact ⟨_, rfl⟩
  rw [decide_eq_false hlen]
  simp only [failIf, Bool.false_eq_true, if_false, bind_ok]
  by_cases hu : t.take 2 = [48, 52]
  · rw [if_pos (by rw [hu]; rfl)]
    have hor' : cp.cofactor % 2 = 1 ∨ (∃ P : (curve (a : ZMod p) (b : ZMod p)).Point, P ≠ 0 ∧ n • P = 0 ∧ IsUncompressed n t P) ∨
        decodeUncompressed m w cp (byteLength n * 2) t ≠ .panic := by
      refine hor.imp id (Or.imp ?_ ?_)
      · rintro ⟨P, h0, hn, h | h⟩
        · have := (hlaxpre P h).1
          rw [hu] at this
          simp at this
        · exact ⟨P, h0, hn, h⟩
      · intro h h'
        apply h
        unfold decodePoint
        rw [e1']
        simp only [bind_ok]
        rw [decide_eq_false hlen]
        simp only [failIf, Bool.false_eq_true, if_false, bind_ok]
        rw [if_pos (by rw [hu]; rfl), h']
    rcases decodeUncompressed_cases m hD hu hor' with ⟨P, h0, hn, h, r⟩ | ⟨h, r⟩
    · exact Or.inl ⟨P, h0, hn, Or.inr h, r⟩
    · refine Or.inr ⟨?_, r⟩
      rintro P h0 hn (h' | h')
      · have := (hlaxpre P h').1
        rw [hu] at this
        revert this
        decide
      · exact h P h0 hn h'
  rw [if_neg (by simpa using hu)]
  by_cases hc : t.take 2 = [48, 50] ∨ t.take 2 = [48, 51]
  · have : (t.take 2 != [48, 50] && t.take 2 != [48, 51]) = false := by
      rcases hc with h | h <;> rw [h] <;> rfl
    rw [this]
    simp only [Bool.false_eq_true, if_false, bind_ok]
    have hor' : cp.cofactor % 2 = 1 ∨ (∃ P : (curve (a : ZMod p) (b : ZMod p)).Point, P ≠ 0 ∧ n • P = 0 ∧ LaxCompressed n t P) ∨
        decodeCompressed m w cp t ≠ .panic := by
      refine hor.imp id (Or.imp ?_ ?_)
      · rintro ⟨P, h0, hn, h | ⟨-, -, h⟩⟩
        · exact ⟨P, h0, hn, h⟩
        · exact absurd (hunpre P h).1 hu
      · intro h h'
        apply h
        unfold decodePoint
        rw [e1']
        simp only [bind_ok]
        rw [decide_eq_false hlen]
        simp only [failIf, Bool.false_eq_true, if_false, bind_ok]
        rw [if_neg (by simpa using hu), this]
        simp only [Bool.false_eq_true, if_false, bind_ok, h']
    rcases decodeCompressed_cases m hD hc (by omega) hor' with ⟨P, h0, hn, h, r⟩ | ⟨h, r⟩
    · exact Or.inl ⟨P, h0, hn, Or.inl h, r⟩
    · refine Or.inr ⟨?_, r⟩
      rintro P h0 hn (h' | ⟨-, -, h'⟩)
      · exact h P h0 hn h'
      · exact hu (hunpre P h').1
  · right
    refine ⟨?_, ?_⟩
    · rintro P - - (h | ⟨-, -, h⟩)
      · exact hc (hlaxpre P h).1
      · exact hu (hunpre P h).1
    · rw [not_or] at hc
      have : (t.take 2 != [48, 50] && t.take 2 != [48, 51]) = true := by
        rw [Bool.and_eq_true, bne_iff_ne, bne_iff_ne]; exact hc
      rw [this]
      exact ⟨_, rfl⟩

theorem decodePoint_accepts {t : List UInt8} {P : (curve (a : ZMod p) (b : ZMod p)).Point} (hP0 : P ≠ 0) (hPn : n • P = 0)
    (h : LaxCompressed n t P ∨ IsUncompressed n t P) : (decodePoint m w t cp).Yields (PointDenotes w · P) := by
  rcases decodePoint_cases m hD t (Or.inr (Or.inl ⟨P, hP0, hPn, h⟩)) with ⟨P', hP0', hPn', ht, pt, e, hpt⟩ | ⟨hno, -⟩
  swap
  · exact absurd h (hno P hP0 hPn)
  refine ⟨pt, e, ?_⟩
  suffices P = P' by rw [this]; exact hpt
  have hl2 : ∀ P : (curve (a : ZMod p) (b : ZMod p)).Point, (compressedPrefix P).length = 2 := by
    intro P; unfold compressedPrefix; split <;> rfl
  have mixed : ∀ P P' : (curve (a : ZMod p) (b : ZMod p)).Point, LaxCompressed n t P → IsUncompressed n t P' → False := by
    rintro P P' ⟨u, rfl, -, -⟩ ⟨-, -, h⟩
    obtain ⟨t', ht, h1⟩ := lower_cons_eq (by decide) h
    obtain ⟨t'', ht', h2⟩ := lower_cons_eq (by decide) h1
    rw [ht'] at ht
    unfold compressedPrefix at ht
    split at ht <;> simp at ht
  rcases h with h | h <;> rcases ht with h' | h'
  · obtain ⟨u, rfl, hu, hnum⟩ := h
    obtain ⟨u', e', hu', hnum'⟩ := h'
    obtain ⟨e1, e2⟩ := List.append_inj e' (by rw [hl2, hl2])
    subst e2
    have hx := Int.ofNat_inj.mp (numeral_unique hnum hnum')
    cases P with
    | zero => exact absurd rfl hP0
    | some x y hn =>
    cases P' with
    | zero => exact absurd rfl hP0'
    | some x' y' hn' =>
    have hx' : x = x' := ZMod.val_injective p hx
    subst hx'
    have hsq : (y - y') * (y + y') = 0 := by
      have h3 := equation_of_nonsingular hn
      have h4 := equation_of_nonsingular hn'
      linear_combination h3 - h4
    rcases mul_eq_zero.mp hsq with h | h
    · have := sub_eq_zero.mp h
      subst this
      rfl
    · exfalso
      have hyn : y = -y' := eq_neg_of_add_eq_zero_left h
      have := yParity_neg hD.p_ne (hD.y_ne_sub hPn')
      rw [← hyn] at this
      unfold compressedPrefix at e1
      change (if y.val % 2 = 0 then _ else _) = (if y'.val % 2 = 0 then _ else _) at e1
      split at e1 <;> split at e1 <;> first | omega | simp at e1
  · exact (mixed _ _ h h').elim
  · exact (mixed _ _ h' h).elim
  · obtain ⟨q1, q2, h⟩ := h
    obtain ⟨q1', q2', h'⟩ := h'
    rw [h'] at h
    unfold uncompressedText at h
    obtain ⟨h1, h2⟩ := List.append_inj h (by simp [fixedHex_length])
    have hx := fixedHex_inj q1' q1 (List.append_cancel_left h1)
    have hy := fixedHex_inj q2' q2 h2
    cases P with
    | zero => exact absurd rfl hP0
    | some x y hn =>
    cases P' with
    | zero => exact absurd rfl hP0'
    | some x' y' hn' =>
    have hx' : x' = x := ZMod.val_injective p hx
    have hy' : y' = y := ZMod.val_injective p hy
    subst hx' hy'
    rfl

end

end LCT.Crypto
