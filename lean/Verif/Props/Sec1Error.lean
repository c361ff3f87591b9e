import Verif.Spec.Sec1Error
import Verif.Props.Encoding

/-!
# Which error decoding a public key reports (C20)
-/

namespace LCT.Props
open LCT.Spec LCT.Out LCT.BigInt LCT.Crypto LCT.Curve LCT.Modular

variable (m : Build) (w : Nat) [hw : DigitWidth w] (cp : Params) (p n : Nat) [hpr : Fact p.Prime] (a b : Int)
  (G : (curve (a : ZMod p) (b : ZMod p)).Point) (hD : Domain w cp p n a b G)

omit hpr in
private theorem parse (t : List UInt8) (hne : t ≠ []) :
    (∃ z, HexNumeral t z ∧ (BInt.fromHex w t).Yields (Denotes w · z)) ∨ ((∀ z, ¬ HexNumeral t z) ∧ ∃ e, BInt.fromHex w t = .err e) := by
  obtain ⟨k, hk, rfl⟩ := hw
  rcases fromHex_wf hk t with ⟨x, e, hwf⟩ | ⟨e, he⟩
  · left
    rcases (fromHex_iff hk t _).mp ⟨x, e, hwf, rfl⟩ with ⟨h, -⟩ | h
    · exact absurd h hne
    · exact ⟨_, h, x, e, hwf, rfl⟩
  · right
    refine ⟨fun z hz => ?_, e, he⟩
    obtain ⟨x, e', -⟩ := (fromHex_iff hk t z).mpr (Or.inr hz)
    rw [he] at e'
    cases e'

include hD

private theorem check_err {pt : Point} {x y : Int} (hx : Denotes w pt.x x) (hy : Denotes w pt.y y) {e : PointDecodingError}
    (h : checkPoint m w cp pt = .err e) : e = .InvalidPoint := by
  have hclear : Clear w n cp (curve (a : ZMod p) (b : ZMod p)) pt := by
    refine clear_of_returns (ε := PointDecodingError) m hD fun h' => ?_
    unfold checkPoint at h
    rw [h'] at h
    cases h
  rcases checkPoint_cases m hD hx hy hclear with ⟨-, e'⟩ | ⟨-, e'⟩ <;> rw [e'] at h <;> cases h
  rfl

/-- C20: exactly which error is reported for a text that is rejected. -/
theorem C20_error (t : List UInt8) (e : PointDecodingError) (h : PublicKey.fromSec1Hex m w t cp = .err e) : e = sec1Error p n a b t := by
  have hL := byteLength_pos hD.n_prime.pos
  have h : decodePoint m w t cp = .err e := by
    unfold PublicKey.fromSec1Hex at h
    cases hd : decodePoint m w t cp <;> rw [hd] at h <;> cases h <;> rfl
  obtain ⟨_, e1, rfl⟩ := byteLen_y (ε := PointDecodingError) m hD.order
  have e1' : (BInt.byteLen m w cp.order : Out PointDecodingError _) = .ok (byteLength n) := e1
  unfold decodePoint at h
  rw [e1'] at h
  simp only [bind_ok] at h
  unfold sec1Error
  dsimp only
  have hc : byteLength n * 2 = 2 * byteLength n := Nat.mul_comm _ _
  by_cases hlen : t.length < 2 * byteLength n + 2
  · rw [hc, decide_eq_true hlen] at h
    cases h
    rw [if_pos hlen]
  rw [hc, decide_eq_false hlen] at h
  rw [if_neg hlen]
  simp only [failIf, Bool.false_eq_true, if_false, bind_ok] at h
  by_cases hu : t.take 2 = [48, 52]
  · rw [if_pos (by rw [hu]; rfl)] at h
    rw [if_pos hu]
    unfold decodeUncompressed at h
    by_cases hl : t.length ≠ 2 * (2 * byteLength n) + 2
    · rw [if_pos hl]
      rw [show (t.length != 2 * byteLength n * 2 + 2) = true by rw [bne_iff_ne]; omega] at h
      cases h
      rfl
    · rw [if_neg hl]
      rw [show (t.length != 2 * byteLength n * 2 + 2) = false by rw [bne_eq_false_iff_eq]; omega] at h
      simp only [failIf, Bool.false_eq_true, if_false, bind_ok] at h
      have ht : (t.take (2 * byteLength n + 2)).drop 2 = (t.drop 2).take (2 * byteLength n) := by
        rw [List.drop_take]; rfl
      rw [ht] at h
      have hne : (t.drop 2).take (2 * byteLength n) ≠ [] := by
        intro h'
        have := congrArg List.length h'
        simp at this
        omega
      have hne' : t.drop (2 * byteLength n + 2) ≠ [] := by
        intro h'
        have := congrArg List.length h'
        simp at this
        omega
      rcases parse w _ hne with ⟨zx, hzx, hyx⟩ | ⟨hno, ex, hex⟩
      swap
      · rw [fromHexOr_err hex] at h
        cases h
        rw [if_pos hno]
      rw [if_neg (fun h => h _ hzx)]
      obtain ⟨xx, exx, hxx⟩ := fromHexOr_ok (e := PointDecodingError.InvalidX) hyx
      rw [exx] at h
      simp only [bind_ok] at h
      rcases parse w _ hne' with ⟨zy, hzy, hyy⟩ | ⟨hno, ex, hex⟩
      swap
      · rw [fromHexOr_err hex] at h
        cases h
        rw [if_pos hno]
      rw [if_neg (fun h => h _ hzy)]
      obtain ⟨xy, exy, hxy⟩ := fromHexOr_ok (e := PointDecodingError.InvalidY) hyy
      rw [exy] at h
      simp only [bind_ok] at h
      exact check_err m w cp p n a b G hD (pt := ⟨xx, xy⟩) hxx hxy h
  rw [if_neg (by simpa using hu)] at h
  rw [if_neg hu]
  by_cases hp : t.take 2 ≠ [48, 50] ∧ t.take 2 ≠ [48, 51]
  · rw [if_pos hp]
    rw [show (t.take 2 != [48, 50] && t.take 2 != [48, 51]) = true by rw [Bool.and_eq_true, bne_iff_ne, bne_iff_ne]; exact hp] at h
    cases h
    rfl
  rw [if_neg hp]
  rw [show (t.take 2 != [48, 50] && t.take 2 != [48, 51]) = false by
    rw [← Bool.not_eq_true, Bool.and_eq_true, bne_iff_ne, bne_iff_ne]; exact hp] at h
  simp only [Bool.false_eq_true, if_false, bind_ok] at h
  unfold decodeCompressed at h
  have hne : t.drop 2 ≠ [] := by
    intro h'
    have := congrArg List.length h'
    simp at this
    omega
  rcases parse w _ hne with ⟨z, hz, hy⟩ | ⟨hno, ex, hex⟩
  swap
  · rw [fromHexOr_err hex] at h
    cases h
    rw [if_pos hno]
  rw [if_neg (fun h => h _ hz)]
  obtain ⟨xx, exx, hxx⟩ := fromHexOr_ok (e := PointDecodingError.InvalidX) hy
  rw [exx] at h
  simp only [bind_ok] at h
  obtain ⟨y2, e1, hy2⟩ := rhs_y (ε := PointDecodingError) m hD.curve.a hD.curve.b hxx
  obtain ⟨y2', e2, hy2'⟩ := modulo_z (ε := PointDecodingError) m hy2 hD.curve.p
  have hrhs : ((z * z * z + a * z + b : Int) : ZMod p) = (z : ZMod p) ^ 3 + (a : ZMod p) * (z : ZMod p) + (b : ZMod p) := by
    push_cast
    ring
  rw [hrhs] at hy2'
  simp only [e1, e2, bind_ok] at h
  by_cases hr0 : (z : ZMod p) ^ 3 + (a : ZMod p) * (z : ZMod p) + (b : ZMod p) = 0
  · rw [hr0] at hy2'
    have hd0 : Denotes w y2' 0 := by simpa [Res] using hy2'
    rw [sqrt_zero (ε := PointDecodingError) m hD.p_ne hD.curve.p hd0] at h
    cases h
  obtain ⟨roots, e3, hroots⟩ := sqrt_y (ε := PointDecodingError) m hD.p_ne hD.curve.p hy2' hr0
  rw [e3] at h
  simp only [bind_ok] at h
  cases roots with
  | none =>
    cases h
    rw [if_pos ⟨z, hz, fun y hy => hroots ⟨y, by rw [← pow_two]; exact hy.symm⟩⟩]
  | some rt =>
    obtain ⟨r1, r2⟩ := rt
    simp only at hroots h
    obtain ⟨y, hyy, hr1, hr2⟩ := hroots
    rw [if_neg (by
      rintro ⟨z', hz', hno⟩
      rw [numeral_unique hz' hz] at hno
      exact hno y hyy)]
    have hy0 : y ≠ 0 := by
      rintro rfl
      exact hr0 (by rw [← hyy]; ring)
    obtain ⟨r, e4, v, hv, hr, hpar⟩ := chooseRoot_y (ε := PointDecodingError) (t.take 2 == [48, 50]) hD.p_ne hy0 hr1 hr2
    rw [e4] at h
    simp only [bind_ok] at h
    exact check_err m w cp p n a b G hD (pt := ⟨xx, r⟩) hxx hr h

omit hD hpr hw in
/-- On the toy curve: `0201` is rejected because there is no such ordinate, `02fb` because the abscissa is not below the modulus, `02-1` because
of the text of the abscissa, and `0401` because of its length. -/
example : sec1Error 251 233 4 3 [48, 50, 48, 49] = .YNotFound ∧ sec1Error 251 233 4 3 [48, 50, 102, 98] = .InvalidPoint ∧
    sec1Error 251 233 4 3 [48, 50, 45, 49] = .InvalidX ∧ sec1Error 251 233 4 3 [48, 52, 48, 49] = .InvalidFormat := by
  have key : ∀ t e, (PublicKey.fromSec1Hex .debug 8 t Toy.params).bind (fun _ => .ok ()) = .err e → sec1Error 251 233 4 3 t = e := by
    intro t e h
    refine (C20_error .debug 8 Toy.params 251 233 4 3 _ Toy.domain t e ?_).symm
    cases h' : PublicKey.fromSec1Hex .debug 8 t Toy.params <;> rw [h'] at h <;> cases h
    rfl
  exact ⟨key _ _ (by decide +kernel), key _ _ (by decide +kernel), key _ _ (by decide +kernel), key _ _ (by decide +kernel)⟩

end LCT.Props
