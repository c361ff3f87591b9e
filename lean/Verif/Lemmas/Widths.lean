import Verif.Spec.Widths
import Verif.Lemmas.Yields
import Verif.Lemmas.BigInt.Yields
import Verif.Lemmas.BigInt.Parse
import Verif.Props.BigInt
import Verif.Props.Division

/-!
# Agreement of builds with different digit widths: composition
-/

namespace LCT.Spec
open LCT.BigInt LCT.Out
variable {ε α β γ δ : Type}

namespace Agree

theorem bind {R : α → β → Prop} {S : γ → δ → Prop} {x : Out ε α} {y : Out ε β} {f : α → Out ε γ} {g : β → Out ε δ} (h : Agree R x y)
    (hf : ∀ a b, R a b → Agree S (f a) (g b)) : Agree S (x >>= f) (y >>= g) := by
  cases h with
  | ok h => exact hf _ _ h
  | err e => exact .err e
  | panic => exact .panic
  | hang => exact .hang

theorem refl {x : Out ε α} : Agree Eq x x := by
  cases x
  · exact .ok rfl
  · exact .err _
  · exact .panic
  · exact .hang

theorem of_eq {x y : Out ε α} (h : x = y) : Agree Eq x y := h ▸ refl

theorem eq {x y : Out ε α} (h : Agree Eq x y) : x = y := by
  cases h with
  | ok h => rw [h]
  | err e => rfl
  | panic => rfl
  | hang => rfl

theorem mono {R S : α → β → Prop} {x : Out ε α} {y : Out ε β} (h : Agree R x y) (hRS : ∀ a b, R a b → S a b) : Agree S x y := by
  cases h with
  | ok h => exact .ok (hRS _ _ h)
  | err e => exact .err e
  | panic => exact .panic
  | hang => exact .hang

theorem yields {R : α → β → Prop} {P : α → Prop} {Q : β → Prop} {x : Out ε α} {y : Out ε β} (hx : x.Yields P) (hy : y.Yields Q)
    (h : ∀ a b, P a → Q b → R a b) : Agree R x y := by
  obtain ⟨a, rfl, ha⟩ := hx
  obtain ⟨b, rfl, hb⟩ := hy
  exact .ok (h a b ha hb)

theorem yieldsEq {c : α} {x y : Out ε α} (hx : x.Yields (· = c)) (hy : y.Yields (· = c)) : Agree Eq x y :=
  yields hx hy fun _ _ h h' => h.trans h'.symm

theorem yieldsInt {w w' : Nat} {c : Int} {x y : Out ε BInt} (hx : x.Yields (Denotes w · c)) (hy : y.Yields (Denotes w' · c)) :
    Agree (SameInt w w') x y := yields hx hy fun _ _ h h' => ⟨c, h, h'⟩

theorem mapErr {ε' : Type} {R : α → β → Prop} {x : Out ε α} {y : Out ε β} (f : ε → ε') (h : Agree R x y) :
    Agree R (x.mapErr f) (y.mapErr f) := by
  cases h with
  | ok h => exact .ok h
  | err e => exact .err _
  | panic => exact .panic
  | hang => exact .hang

theorem pure {R : α → β → Prop} {a : α} {b : β} (h : R a b) : Agree R (Pure.pure a : Out ε α) (Pure.pure b) := .ok h

theorem ite {R : α → β → Prop} {c : Prop} [Decidable c] {x x' : Out ε α} {y y' : Out ε β} (h : c → Agree R x y)
    (h' : ¬ c → Agree R x' y') : Agree R (if c then x else x') (if c then y else y') := by
  split
  · exact h ‹_›
  · exact h' ‹_›

theorem dassertM {m : Build} {c c' : Out ε Bool} (h : Agree Eq c c') : Agree Eq (Modular.dassertM m c) (Modular.dassertM m c') := by
  rw [h.eq]; exact refl

theorem unwrap {R : α → β → Prop} {o : Option α} {o' : Option β} (h : AgreeOpt R o o') : Agree R (LCT.unwrap o : Out ε α) (LCT.unwrap o') := by
  cases h with
  | some h => exact .ok h
  | none => exact .panic

end Agree

end LCT.Spec

/-- Extensible: proves that two calls of the same function agree. -/
syntax "agree_call" : tactic
/-- Extensible: proves that two arguments are related. -/
syntax "agree_arg_ext" : tactic
/-- Proves that two arguments are related. -/
macro "agree_arg" : tactic => `(tactic| first | with_reducible assumption | with_reducible exact rfl | agree_arg_ext)

macro_rules | `(tactic| agree_call) => `(tactic| with_reducible exact LCT.Spec.Agree.refl)
macro_rules | `(tactic| agree_arg_ext) => `(tactic| (with_reducible apply LCT.Spec.SamePoint.x; agree_arg))
macro_rules | `(tactic| agree_arg_ext) => `(tactic| (with_reducible apply LCT.Spec.SamePoint.y; agree_arg))
macro_rules | `(tactic| agree_arg_ext) => `(tactic| (with_reducible apply LCT.Spec.SameCurve.a; agree_arg))
macro_rules | `(tactic| agree_arg_ext) => `(tactic| (with_reducible apply LCT.Spec.SameCurve.b; agree_arg))
macro_rules | `(tactic| agree_arg_ext) => `(tactic| (with_reducible apply LCT.Spec.SameCurve.p; agree_arg))
macro_rules | `(tactic| agree_arg_ext) => `(tactic| (with_reducible apply LCT.Spec.SameParams.curve; agree_arg))
macro_rules | `(tactic| agree_arg_ext) => `(tactic| (with_reducible apply LCT.Spec.SameParams.basePoint; agree_arg))
macro_rules | `(tactic| agree_arg_ext) => `(tactic| (with_reducible apply LCT.Spec.SameParams.order; agree_arg))
macro_rules | `(tactic| agree_arg_ext) => `(tactic| (with_reducible apply LCT.Spec.SamePrivate.data; agree_arg))
macro_rules | `(tactic| agree_arg_ext) => `(tactic| (with_reducible apply LCT.Spec.SamePrivate.params; agree_arg))
macro_rules | `(tactic| agree_arg_ext) => `(tactic| (with_reducible apply LCT.Spec.SamePublic.data; agree_arg))
macro_rules | `(tactic| agree_arg_ext) => `(tactic| (with_reducible apply LCT.Spec.SamePublic.params; agree_arg))
macro_rules | `(tactic| agree_arg_ext) => `(tactic| (with_reducible apply LCT.Spec.SameSignature.r; agree_arg))
macro_rules | `(tactic| agree_arg_ext) => `(tactic| (with_reducible apply LCT.Spec.SameSignature.s; agree_arg))
macro_rules | `(tactic| agree_arg_ext) => `(tactic| (with_reducible apply LCT.Spec.SameSignature.params; agree_arg))
macro_rules | `(tactic| agree_arg_ext) => `(tactic| ((with_reducible apply LCT.Spec.SamePoint.mk) <;> dsimp only <;> agree_arg))

/-- One step of a proof that two programs agree. -/
macro "agree_step" : tactic => `(tactic| first
  | (with_reducible apply LCT.Spec.Agree.bind
     focus first
       | agree_call
       | (with_reducible apply LCT.Spec.Agree.ite <;> intro _ <;>
          first | agree_call | (with_reducible apply LCT.Spec.Agree.pure; agree_arg))
     intro _ _ h
     first | subst h | skip)
  | (with_reducible apply LCT.Spec.Agree.ite <;> intro _)
  | (with_reducible apply LCT.Spec.Agree.pure; agree_arg)
  | with_reducible exact LCT.Spec.Agree.panic
  | with_reducible exact LCT.Spec.Agree.hang
  | with_reducible exact LCT.Spec.Agree.err _
  | agree_call)

/-- Proves that two programs agree, going through them in parallel. -/
macro "agree" : tactic => `(tactic| repeat' agree_step)

namespace LCT.Widths
open LCT.BigInt LCT.Spec LCT.Out
variable {ε : Type} (m : Build) (w w' : Nat) [hw : DigitWidth w] [hw' : DigitWidth w']

variable {x x' y y' : BInt}

theorem add (hx : SameInt w w' x x') (hy : SameInt w w' y y') : Agree (SameInt w w') (BInt.add m w x y : Out ε _) (BInt.add m w' x' y') := by
  obtain ⟨a, hx, hx'⟩ := hx
  obtain ⟨b, hy, hy'⟩ := hy
  exact .yieldsInt (add_y m hx hy) (add_y m hx' hy')

theorem sub (hx : SameInt w w' x x') (hy : SameInt w w' y y') : Agree (SameInt w w') (BInt.sub m w x y : Out ε _) (BInt.sub m w' x' y') := by
  obtain ⟨a, hx, hx'⟩ := hx
  obtain ⟨b, hy, hy'⟩ := hy
  exact .yieldsInt (sub_y m hx hy) (sub_y m hx' hy')

theorem mul (hx : SameInt w w' x x') (hy : SameInt w w' y y') : Agree (SameInt w w') (BInt.mul m w x y : Out ε _) (BInt.mul m w' x' y') := by
  obtain ⟨a, hx, hx'⟩ := hx
  obtain ⟨b, hy, hy'⟩ := hy
  exact .yieldsInt (mul_y m hx hy) (mul_y m hx' hy')

theorem div (hx : SameInt w w' x x') (hy : SameInt w w' y y') : Agree (SameInt w w') (BInt.div m w x y : Out ε _) (BInt.div m w' x' y') := by
  obtain ⟨a, hx, hx'⟩ := hx
  obtain ⟨b, hy, hy'⟩ := hy
  by_cases hb : b = 0
  · subst hb
    obtain ⟨k, hk, rfl⟩ := id hw.bytes
    obtain ⟨k', hk', rfl⟩ := id hw'.bytes
    rw [(Props.C03_zero_divisor m k x y a hx hy).1, (Props.C03_zero_divisor m k' x' y' a hx' hy').1]
    exact .panic
  · exact .yieldsInt (div_y m hx hy hb) (div_y m hx' hy' hb)

theorem rem (hx : SameInt w w' x x') (hy : SameInt w w' y y') : Agree (SameInt w w') (BInt.rem m w x y : Out ε _) (BInt.rem m w' x' y') := by
  obtain ⟨a, hx, hx'⟩ := hx
  obtain ⟨b, hy, hy'⟩ := hy
  by_cases hb : b = 0
  · subst hb
    obtain ⟨k, hk, rfl⟩ := id hw.bytes
    obtain ⟨k', hk', rfl⟩ := id hw'.bytes
    rw [(Props.C03_zero_divisor m k x y a hx hy).2, (Props.C03_zero_divisor m k' x' y' a hx' hy').2]
    exact .panic
  · exact .yieldsInt (rem_y m hx hy hb) (rem_y m hx' hy' hb)

theorem shr (hx : SameInt w w' x x') (n : Nat) : Agree (SameInt w w') (BInt.shr m w x n : Out ε _) (BInt.shr m w' x' n) := by
  obtain ⟨a, hx, hx'⟩ := hx
  exact .yieldsInt (shr_y m hx n) (shr_y m hx' n)

theorem shl (hx : SameInt w w' x x') (n : Nat) (h : toInt w x ≠ 0 ∨ n = 0 ∨ (n % w ≠ 0 ∧ n % w' ≠ 0)) :
    Agree (SameInt w w') (BInt.shl w x n : Out ε _) (BInt.shl w' x' n) := by
  obtain ⟨a, hx, hx'⟩ := hx
  obtain ⟨k, hk, rfl⟩ := id hw.bytes
  obtain ⟨k', hk', rfl⟩ := id hw'.bytes
  rw [hx.2] at h
  obtain ⟨z, e, hz⟩ := Props.C04_shl_partial (ε := ε) k hk x a hx n (by omega)
  obtain ⟨z', e', hz'⟩ := Props.C04_shl_partial (ε := ε) k' hk' x' a hx' n (by omega)
  rw [e, e']
  exact .ok ⟨_, hz, hz'⟩

theorem neg (hx : SameInt w w' x x') : SameInt w w' x.neg x'.neg := by
  obtain ⟨a, hx, hx'⟩ := hx
  obtain ⟨k, hk, rfl⟩ := id hw.bytes
  obtain ⟨k', hk', rfl⟩ := id hw'.bytes
  exact ⟨-a, Props.C01_neg k x a hx, Props.C01_neg k' x' a hx'⟩

omit hw hw' in
theorem cmp (hx : SameInt w w' x x') (hy : SameInt w w' y y') : Agree Eq (BInt.cmp m x y : Out ε _) (BInt.cmp m x' y') := by
  obtain ⟨a, hx, hx'⟩ := hx
  obtain ⟨b, hy, hy'⟩ := hy
  exact .yieldsEq (cmp_y m hx hy) (cmp_y m hx' hy')

omit hw hw' in
theorem lt (hx : SameInt w w' x x') (hy : SameInt w w' y y') : Agree Eq (BInt.lt m x y : Out ε _) (BInt.lt m x' y') := by
  obtain ⟨a, hx, hx'⟩ := hx
  obtain ⟨b, hy, hy'⟩ := hy
  exact .yieldsEq (lt_y m hx hy) (lt_y m hx' hy')

omit hw hw' in
theorem gt (hx : SameInt w w' x x') (hy : SameInt w w' y y') : Agree Eq (BInt.gt m x y : Out ε _) (BInt.gt m x' y') := by
  obtain ⟨a, hx, hx'⟩ := hx
  obtain ⟨b, hy, hy'⟩ := hy
  exact .yieldsEq (gt_y m hx hy) (gt_y m hx' hy')

omit hw hw' in
theorem le (hx : SameInt w w' x x') (hy : SameInt w w' y y') : Agree Eq (BInt.le m x y : Out ε _) (BInt.le m x' y') := by
  obtain ⟨a, hx, hx'⟩ := hx
  obtain ⟨b, hy, hy'⟩ := hy
  exact .yieldsEq (le_y m hx hy) (le_y m hx' hy')

omit hw hw' in
theorem ge (hx : SameInt w w' x x') (hy : SameInt w w' y y') : Agree Eq (BInt.ge m x y : Out ε _) (BInt.ge m x' y') := by
  obtain ⟨a, hx, hx'⟩ := hx
  obtain ⟨b, hy, hy'⟩ := hy
  exact .yieldsEq (ge_y m hx hy) (ge_y m hx' hy')

omit hw hw' in
theorem beq (hx : SameInt w w' x x') (hy : SameInt w w' y y') : Agree Eq (BInt.beq m x y : Out ε _) (BInt.beq m x' y') := by
  obtain ⟨a, hx, hx'⟩ := hx
  obtain ⟨b, hy, hy'⟩ := hy
  exact .yieldsEq (beq_y m hx hy) (beq_y m hx' hy')

omit hw hw' in
theorem isZero (hx : SameInt w w' x x') : Agree Eq (BInt.isZero m x : Out ε _) (BInt.isZero m x') := by
  obtain ⟨a, hx, hx'⟩ := hx
  exact .yieldsEq (isZero_y m hx) (isZero_y m hx')

omit hw hw' in
theorem isEven (hx : SameInt w w' x x') (hw : DigitWidth w) (hw' : DigitWidth w') : Agree Eq (x.isEven : Out ε _) x'.isEven := by
  obtain ⟨a, hx, hx'⟩ := hx
  obtain ⟨k, hk, rfl⟩ := id hw.bytes
  obtain ⟨k', hk', rfl⟩ := id hw'.bytes
  exact .of_eq ((Props.C10_parity k hk _ _ hx).1.trans (Props.C10_parity k' hk' _ _ hx').1.symm)

omit hw hw' in
theorem isOdd (hx : SameInt w w' x x') (hw : DigitWidth w) (hw' : DigitWidth w') : Agree Eq (x.isOdd : Out ε _) x'.isOdd := by
  obtain ⟨a, hx, hx'⟩ := hx
  obtain ⟨k, hk, rfl⟩ := id hw.bytes
  obtain ⟨k', hk', rfl⟩ := id hw'.bytes
  exact .of_eq ((Props.C10_parity k hk _ _ hx).2.trans (Props.C10_parity k' hk' _ _ hx').2.symm)

theorem bitLen (hx : SameInt w w' x x') : Agree Eq (BInt.bitLen m w x : Out ε _) (BInt.bitLen m w' x') := by
  obtain ⟨a, hx, hx'⟩ := hx
  exact .yieldsEq (bitLen_y m hx) (bitLen_y m hx')

theorem byteLen (hx : SameInt w w' x x') : Agree Eq (BInt.byteLen m w x : Out ε _) (BInt.byteLen m w' x') := by
  obtain ⟨a, hx, hx'⟩ := hx
  exact .yieldsEq (byteLen_y m hx) (byteLen_y m hx')

theorem leBits (hx : SameInt w w' x x') : Agree Eq (BInt.leBits m w x : Out ε _) (BInt.leBits m w' x') := by
  obtain ⟨a, hx, hx'⟩ := hx
  obtain ⟨k, hk, rfl⟩ := id hw.bytes
  obtain ⟨k', hk', rfl⟩ := id hw'.bytes
  exact .of_eq ((Props.C10_le_bits m k _ _ hx).trans (Props.C10_le_bits m k' _ _ hx').symm)

theorem toBeBytes (hx : SameInt w w' x x') : Agree Eq (BInt.toBeBytes m w x : Out ε _) (BInt.toBeBytes m w' x') := by
  obtain ⟨a, hx, hx'⟩ := hx
  obtain ⟨k, hk, rfl⟩ := id hw.bytes
  obtain ⟨k', hk', rfl⟩ := id hw'.bytes
  exact .of_eq ((Props.C06_to_be_bytes m k _ _ hx).trans (Props.C06_to_be_bytes m k' _ _ hx').symm)

theorem toLowerHex (hx : SameInt w w' x x') : Agree Eq (BInt.toLowerHex m w x : Out ε _) (BInt.toLowerHex m w' x') := by
  obtain ⟨a, hx, hx'⟩ := hx
  obtain ⟨k, hk, rfl⟩ := id hw.bytes
  obtain ⟨k', hk', rfl⟩ := id hw'.bytes
  exact .of_eq ((Props.C07_print m k _ _ hx).trans (Props.C07_print m k' _ _ hx').symm)

theorem display (hx : SameInt w w' x x') : Agree Eq (BInt.display m w x : Out ε _) (BInt.display m w' x') := by
  obtain ⟨a, hx, hx'⟩ := hx
  obtain ⟨k, hk, rfl⟩ := id hw.bytes
  obtain ⟨k', hk', rfl⟩ := id hw'.bytes
  exact .of_eq ((Props.C07_display m k _ _ hx).trans (Props.C07_display m k' _ _ hx').symm)

theorem trailingZeros (hx : SameInt w w' x x') : Agree Eq (BInt.trailingZeros m w x : Out ε _) (BInt.trailingZeros m w' x') := by
  obtain ⟨a, hx, hx'⟩ := hx
  obtain ⟨k, hk, rfl⟩ := id hw.bytes
  obtain ⟨k', hk', rfl⟩ := id hw'.bytes
  by_cases ha : a = 0
  · subst ha
    rw [Props.C10_trailing_zeros_zero m k x hx, Props.C10_trailing_zeros_zero m k' x' hx']
    exact .refl
  · obtain ⟨t, e, h1, h2⟩ := Props.C10_trailing_zeros (ε := ε) m k x a hx ha
    obtain ⟨t', e', h1', h2'⟩ := Props.C10_trailing_zeros (ε := ε) m k' x' a hx' ha
    rw [e, e']
    refine .ok ?_
    by_contra hne
    rcases Nat.lt_or_gt_of_ne hne with h | h
    · exact h2 (Int.dvd_trans (pow_dvd_pow 2 h) h1')
    · exact h2' (Int.dvd_trans (pow_dvd_pow 2 h) h1)

theorem ofInt (i : Int) (h1 : -2 ^ 127 ≤ i) (h2 : i < 2 ^ 127) : Agree (SameInt w w') (BInt.ofInt w i : Out ε _) (BInt.ofInt w' i) :=
  .yieldsInt (ofInt_y w i h1 h2) (ofInt_y w' i h1 h2)

theorem zero' : Agree (SameInt w w') (BInt.zero w : Out ε _) (BInt.zero w') := .yieldsInt (zero_y w) (zero_y w')

theorem one : Agree (SameInt w w') (BInt.one w : Out ε _) (BInt.one w') := .yieldsInt (one_y w) (one_y w')

theorem zero : Agree (fun x x' => SameInt w w' x x' ∧ x.sign = x'.sign) (BInt.zero w : Out ε _) (BInt.zero w') := by
  obtain ⟨k, hk, rfl⟩ := id hw.bytes
  obtain ⟨k', hk', rfl⟩ := id hw'.bytes
  obtain ⟨x, e, d, s⟩ := zero_spec (ε := ε) hk
  obtain ⟨x', e', d', s'⟩ := zero_spec (ε := ε) hk'
  rw [e, e']
  exact .ok ⟨⟨0, d, d'⟩, s.trans s'.symm⟩

theorem fromBeBytes (bs : List UInt8) (sg : Sign) :
    Agree (fun x x' => SameInt w w' x x' ∧ x.sign = x'.sign) (BInt.fromBeBytes w bs sg : Out ε _) (BInt.fromBeBytes w' bs sg) := by
  obtain ⟨k, hk, rfl⟩ := id hw.bytes
  obtain ⟨k', hk', rfl⟩ := id hw'.bytes
  by_cases hb : bs = []
  · subst hb
    exact (.panic : Agree _ (.panic : Out ε BInt) (.panic : Out ε BInt))
  · obtain ⟨x, e, wf, mg, s⟩ := fromBeBytes_spec (ε := ε) hk bs hb sg
    obtain ⟨x', e', wf', mg', s'⟩ := fromBeBytes_spec (ε := ε) hk' bs hb sg
    rw [e, e']
    exact .ok ⟨⟨_, ⟨wf, rfl⟩, wf', by rw [toInt_sgn, toInt_sgn, mg, mg', s, s']⟩, s.trans s'.symm⟩

theorem ofNat (n : Nat) : Agree (SameInt w w') (BInt.ofNat w n : Out ε _) (BInt.ofNat w' n) :=
  (fromBeBytes w w' (toBEk 16 n) .positive).mono fun _ _ h => h.1

theorem buintOfNat (n : Nat) : Agree (SameInt w w') (BUint.ofNat w n : Out ε _) (BUint.ofNat w' n) := ofNat w w' n

theorem buintFromBeBytes (bs : List UInt8) : Agree (SameInt w w') (BUint.fromBeBytes w bs : Out ε _) (BUint.fromBeBytes w' bs) :=
  (fromBeBytes w w' bs .positive).mono fun _ _ h => h.1

theorem fromHex (s : List UInt8) :
    Agree (fun x x' => SameInt w w' x x' ∧ x.sign = x'.sign) (BInt.fromHex w s) (BInt.fromHex w' s) := by
  unfold BInt.fromHex
  split
  · exact zero w w'
  · generalize splitSign s = sp
    obtain ⟨sg, body⟩ := sp
    dsimp only
    split
    · exact .err _
    · split
      · exact fromBeBytes w w' _ _
      · exact .err _
      · exact .panic
      · exact .hang

theorem fromStrRadix (s : List UInt8) {radix : Nat} (h2 : 2 ≤ radix) (h36 : radix ≤ 36) :
    Agree (SameInt w w') (BInt.fromStrRadix m w s radix) (BInt.fromStrRadix m w' s radix) := by
  obtain ⟨k, hk, rfl⟩ := id hw.bytes
  obtain ⟨k', hk', rfl⟩ := id hw'.bytes
  rcases fromStrRadix_wf m hk s radix h2 h36 with ⟨x, e, wf⟩ | e
  · obtain ⟨x', e', d'⟩ := (fromStrRadix_iff m hk' s radix h2 h36 _).mpr ((fromStrRadix_iff m hk s radix h2 h36 _).mp ⟨x, e, wf, rfl⟩)
    rw [e, e']
    exact .ok ⟨_, ⟨wf, rfl⟩, d'⟩
  · rcases fromStrRadix_wf m hk' s radix h2 h36 with ⟨x', e', wf'⟩ | e'
    · obtain ⟨x, e1, _⟩ := (fromStrRadix_iff m hk s radix h2 h36 _).mpr ((fromStrRadix_iff m hk' s radix h2 h36 _).mp ⟨x', e', wf', rfl⟩)
      rw [e] at e1; cases e1
    · rw [e, e']; exact .err _

theorem buintFromHex (s : List UInt8) : Agree (SameInt w w') (BUint.fromHex w s) (BUint.fromHex w' s) := by
  unfold BUint.fromHex
  refine (fromHex w w' s).bind fun x x' h => ?_
  unfold BInt.isSignNegative
  rw [h.2]
  split
  · exact .err _
  · exact .ok h.1

theorem tryFromStr (s : List UInt8) : Agree (SameInt w w') (BUint.tryFromStr m w s) (BUint.tryFromStr m w' s) := by
  unfold BUint.tryFromStr
  split
  · exact buintFromHex w w' _
  · exact fromStrRadix m w w' s (by decide) (by decide)

end LCT.Widths

macro_rules | `(tactic| agree_arg_ext) => `(tactic| (with_reducible apply LCT.Widths.neg; agree_arg))
macro_rules | `(tactic| agree_call) => `(tactic| (with_reducible apply LCT.Widths.add <;> agree_arg))
macro_rules | `(tactic| agree_call) => `(tactic| (with_reducible apply LCT.Widths.sub <;> agree_arg))
macro_rules | `(tactic| agree_call) => `(tactic| (with_reducible apply LCT.Widths.mul <;> agree_arg))
macro_rules | `(tactic| agree_call) => `(tactic| (with_reducible apply LCT.Widths.div <;> agree_arg))
macro_rules | `(tactic| agree_call) => `(tactic| (with_reducible apply LCT.Widths.rem <;> agree_arg))
macro_rules | `(tactic| agree_call) => `(tactic| (with_reducible apply LCT.Widths.shr; agree_arg))
macro_rules | `(tactic| agree_call) => `(tactic| (with_reducible apply LCT.Widths.cmp <;> agree_arg))
macro_rules | `(tactic| agree_call) => `(tactic| (with_reducible apply LCT.Widths.lt <;> agree_arg))
macro_rules | `(tactic| agree_call) => `(tactic| (with_reducible apply LCT.Widths.gt <;> agree_arg))
macro_rules | `(tactic| agree_call) => `(tactic| (with_reducible apply LCT.Widths.le <;> agree_arg))
macro_rules | `(tactic| agree_call) => `(tactic| (with_reducible apply LCT.Widths.ge <;> agree_arg))
macro_rules | `(tactic| agree_call) => `(tactic| (with_reducible apply LCT.Widths.beq <;> agree_arg))
macro_rules | `(tactic| agree_call) => `(tactic| (with_reducible apply LCT.Widths.isZero; agree_arg))
macro_rules | `(tactic| agree_call) => `(tactic| (with_reducible apply LCT.Widths.isEven <;> agree_arg))
macro_rules | `(tactic| agree_call) => `(tactic| (with_reducible apply LCT.Widths.isOdd <;> agree_arg))
macro_rules | `(tactic| agree_call) => `(tactic| (with_reducible apply LCT.Widths.bitLen; agree_arg))
macro_rules | `(tactic| agree_call) => `(tactic| (with_reducible apply LCT.Widths.byteLen; agree_arg))
macro_rules | `(tactic| agree_call) => `(tactic| (with_reducible apply LCT.Widths.leBits; agree_arg))
macro_rules | `(tactic| agree_call) => `(tactic| (with_reducible apply LCT.Widths.toBeBytes; agree_arg))
macro_rules | `(tactic| agree_call) => `(tactic| (with_reducible apply LCT.Widths.toLowerHex; agree_arg))
macro_rules | `(tactic| agree_call) => `(tactic| (with_reducible apply LCT.Widths.display; agree_arg))
macro_rules | `(tactic| agree_call) => `(tactic| (with_reducible apply LCT.Widths.trailingZeros; agree_arg))
macro_rules | `(tactic| agree_call) => `(tactic| (with_reducible apply LCT.Widths.ofInt <;> norm_num))
macro_rules | `(tactic| agree_call) => `(tactic| (with_reducible apply LCT.Widths.ofNat))
macro_rules | `(tactic| agree_call) => `(tactic| (with_reducible apply LCT.Widths.buintOfNat))
macro_rules | `(tactic| agree_call) => `(tactic| (with_reducible apply LCT.Widths.buintFromBeBytes))
macro_rules | `(tactic| agree_call) => `(tactic| with_reducible apply LCT.Widths.zero')
macro_rules | `(tactic| agree_call) => `(tactic| with_reducible apply LCT.Widths.one)
macro_rules | `(tactic| agree_call) => `(tactic| (with_reducible apply LCT.Spec.Agree.dassertM; agree; done))
macro_rules | `(tactic| agree_call) => `(tactic| (with_reducible apply LCT.Spec.Agree.unwrap; assumption))
