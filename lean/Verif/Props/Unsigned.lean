import Verif.Spec.Unsigned
import Verif.Props.BigInt
import Verif.Props.Texts

/-!
# What is in a `BigUint`: C12
-/

namespace LCT.Props
open LCT.Spec LCT.BigInt LCT.Out LCT.Ethereum

/-- The program, run with the code of `/repo/src/bigint/biguint.rs:16-136`. -/
def runUnsigned (m : Build) (w : Nat) : UnsignedExpr → Out ParseIntError BInt
  | .number n => BUint.ofNat w n
  | .hex s => BUint.fromHex w s
  | .radix s r => BUint.fromStrRadix m w s r
  | .text s => BUint.tryFromStr m w s
  | .add e f => (runUnsigned m w e).bind fun x => (runUnsigned m w f).bind fun y => BInt.add m w x y
  | .sub e f => (runUnsigned m w e).bind fun x => (runUnsigned m w f).bind fun y => BInt.sub m w x y
  | .mul e f => (runUnsigned m w e).bind fun x => (runUnsigned m w f).bind fun y => BInt.mul m w x y
  | .shr e n => (runUnsigned m w e).bind fun x => BInt.shr m w x n

private theorem split_iff {k : Nat} {A : Out ParseIntError BInt} {P : Int → Prop} (ht : A.Returns)
    (hw : ∀ x, A = .ok x → WF (8 * k) x) (h : ∀ z, (∃ x, A = .ok x ∧ Denotes (8 * k) x z) ↔ P z) :
    (∃ x z, A = .ok x ∧ Denotes (8 * k) x z ∧ ∀ z', P z' ↔ z' = z) ∨ ((∃ e, A = .err e) ∧ ∀ z, ¬ P z) := by
  cases hA : A with
  | ok x =>
    left
    refine ⟨x, toInt (8 * k) x, rfl, ⟨hw x hA, rfl⟩, fun z' => ?_⟩
    rw [← h, hA]
    constructor
    · rintro ⟨y, e, d⟩; cases e; exact d.2.symm
    · rintro rfl; exact ⟨x, rfl, hw x hA, rfl⟩
  | err e =>
    right
    refine ⟨⟨e, rfl⟩, fun z hz => ?_⟩
    obtain ⟨x, e', -⟩ := (h z).mpr hz
    rw [hA] at e'; cases e'
  | panic => rw [hA] at ht; rcases ht with ⟨_, h⟩ | ⟨_, h⟩ <;> cases h
  | hang => rw [hA] at ht; rcases ht with ⟨_, h⟩ | ⟨_, h⟩ <;> cases h

private theorem hex_returns {k : Nat} (hk : 1 ≤ k) (s : List UInt8) : (BUint.fromHex (8 * k) s).Returns := by
  simp only [BUint.fromHex]
  rcases fromHex_wf hk s with ⟨x, e, _⟩ | ⟨e', e⟩
  · rw [e, bind_ok]
    split
    · exact Returns.err _
    · exact Returns.ok _
  · rw [e]; exact Returns.err _

private theorem radix_returns (m : Build) {k : Nat} (hk : 1 ≤ k) (s : List UInt8) (r : Nat) (h2 : 2 ≤ r) (h36 : r ≤ 36) :
    (BUint.fromStrRadix m (8 * k) s r).Returns ∧ ∀ x, BUint.fromStrRadix m (8 * k) s r = .ok x → WF (8 * k) x := by
  unfold BUint.fromStrRadix
  rcases fromStrRadix_wf m hk s r h2 h36 with ⟨x, e, h⟩ | e
  · rw [e]; exact ⟨Returns.ok _, fun y e' => by cases e'; exact h⟩
  · rw [e]; exact ⟨Returns.err _, fun y e' => by cases e'⟩

private theorem binary {k : Nat} {A B : Out ParseIntError BInt} {P Q R : Int → Prop} {op : Int → Int → Int}
    {f : BInt → BInt → Out ParseIntError BInt}
    (hf : ∀ x y a b, Denotes (8 * k) x a → Denotes (8 * k) y b → ∃ z, f x y = .ok z ∧ Denotes (8 * k) z (op a b))
    (hR : ∀ z, R z ↔ ∃ a b, P a ∧ Q b ∧ z = op a b)
    (hA : (∃ x z, A = .ok x ∧ Denotes (8 * k) x z ∧ ∀ z', P z' ↔ z' = z) ∨ ((∃ e, A = .err e) ∧ ∀ z, ¬ P z))
    (hB : (∃ x z, B = .ok x ∧ Denotes (8 * k) x z ∧ ∀ z', Q z' ↔ z' = z) ∨ ((∃ e, B = .err e) ∧ ∀ z, ¬ Q z)) :
    (∃ x z, (A.bind fun x => B.bind fun y => f x y) = .ok x ∧ Denotes (8 * k) x z ∧ ∀ z', R z' ↔ z' = z) ∨
      ((∃ e, (A.bind fun x => B.bind fun y => f x y) = .err e) ∧ ∀ z, ¬ R z) := by
  rcases hA with ⟨x, a, rfl, hx, hP⟩ | ⟨⟨e, rfl⟩, hP⟩
  · rcases hB with ⟨y, b, rfl, hy, hQ⟩ | ⟨⟨e, rfl⟩, hQ⟩
    · obtain ⟨z, e, hz⟩ := hf x y a b hx hy
      refine .inl ⟨z, _, e, hz, fun z' => ?_⟩
      rw [hR]
      constructor
      · rintro ⟨a', b', h1, h2, rfl⟩
        rw [(hP a').mp h1, (hQ b').mp h2]
      · rintro rfl
        exact ⟨a, b, (hP a).mpr rfl, (hQ b).mpr rfl, rfl⟩
    · refine .inr ⟨⟨e, rfl⟩, fun z hz => ?_⟩
      obtain ⟨_, b, _, h, _⟩ := (hR z).mp hz
      exact hQ b h
  · refine .inr ⟨⟨e, rfl⟩, fun z hz => ?_⟩
    obtain ⟨a, _, h, _, _⟩ := (hR z).mp hz
    exact hP a h

/-- C12, what a `BigUint` holds: a program that obtains one by reading texts, adding, subtracting, multiplying and shifting gets exactly the
integer that it computes, or an error if one of the texts is not accepted; it never panics. -/
theorem C12_exact (m : Build) (k : Nat) (hk : 1 ≤ k) (e : UnsignedExpr) (he : e.Legal) :
    (∃ x z, runUnsigned m (8 * k) e = .ok x ∧ Denotes (8 * k) x z ∧ ∀ z', e.Computes z' ↔ z' = z) ∨
      ((∃ err, runUnsigned m (8 * k) e = .err err) ∧ ∀ z, ¬ e.Computes z) := by
  induction e with
  | number n =>
    obtain ⟨y, e', wf, mg, sg⟩ := fromU128_spec (ε := ParseIntError) hk n he .positive
    refine .inl ⟨y, n, e', ⟨wf, by rw [toInt_pos sg, mg]⟩, fun z' => ⟨fun h => by cases h; rfl, fun h => by rw [h]; exact .number n⟩⟩
  | hex s =>
    refine split_iff (hex_returns hk s) (fun x h => (hex_nonneg hk h).1) fun z => ?_
    rw [show (∃ x, runUnsigned m (8 * k) (.hex s) = .ok x ∧ Denotes (8 * k) x z) ↔ HexValue s z from C58_from_hex_iff k hk s z]
    exact ⟨.hex, fun h => by cases h; assumption⟩
  | radix s r =>
    obtain ⟨h1, h2⟩ := radix_returns m hk s r he.1 he.2
    refine split_iff h1 h2 fun z => ?_
    rw [show (∃ x, runUnsigned m (8 * k) (.radix s r) = .ok x ∧ Denotes (8 * k) x z) ↔ RadixValue r s z from
      C08_accepts_iff m k hk s r he.1 he.2 z]
    exact ⟨.radix, fun h => by cases h; assumption⟩
  | text s =>
    refine split_iff (C58_total m k hk s) ?_ fun z => ?_
    · intro x h
      unfold runUnsigned BUint.tryFromStr at h
      split at h
      · exact (hex_nonneg hk h).1
      · exact (radix_returns m hk s 10 (by decide) (by decide)).2 x h
    · rw [show (∃ x, runUnsigned m (8 * k) (.text s) = .ok x ∧ Denotes (8 * k) x z) ↔ _ from C58_accepts_iff m k hk s z]
      constructor
      · rintro (⟨t, rfl, h⟩ | h | h)
        · exact .hexText h
        · exact .decimalText (.inl h)
        · exact .decimalText (.inr h)
      · intro h
        cases h with
        | hexText h => exact .inl ⟨_, rfl, h⟩
        | decimalText h => exact .inr h
  | add e f ihe ihf =>
    refine binary (op := (· + ·)) (fun x y a b hx hy => C01_add m k hk x y a b hx hy) (fun z => ?_) (ihe he.1) (ihf he.2)
    exact ⟨fun h => by cases h with | add h1 h2 => exact ⟨_, _, h1, h2, rfl⟩, fun ⟨a, b, h1, h2, hz⟩ => hz ▸ .add h1 h2⟩
  | sub e f ihe ihf =>
    refine binary (op := (· - ·)) (fun x y a b hx hy => C01_sub m k hk x y a b hx hy) (fun z => ?_) (ihe he.1) (ihf he.2)
    exact ⟨fun h => by cases h with | sub h1 h2 => exact ⟨_, _, h1, h2, rfl⟩, fun ⟨a, b, h1, h2, hz⟩ => hz ▸ .sub h1 h2⟩
  | mul e f ihe ihf =>
    refine binary (op := (· * ·)) (fun x y a b hx hy => C02_mul m k x y a b hx hy) (fun z => ?_) (ihe he.1) (ihf he.2)
    exact ⟨fun h => by cases h with | mul h1 h2 => exact ⟨_, _, h1, h2, rfl⟩, fun ⟨a, b, h1, h2, hz⟩ => hz ▸ .mul h1 h2⟩
  | shr e n ih =>
    rcases ih he with ⟨x, a, h1, hx, hP⟩ | ⟨⟨err, h1⟩, hP⟩
    · obtain ⟨z, e', d⟩ := shr_spec (ε := ParseIntError) m (w := 8 * k) (by omega) hx.1 n
      refine .inl ⟨z, _, by rw [runUnsigned, h1]; exact e', d, fun z' => ?_⟩
      rw [hx.2]
      exact ⟨fun h => by cases h with | shr _ h => rw [(hP _).mp h], fun h => by rw [h]; exact .shr n ((hP a).mpr rfl)⟩
    · refine .inr ⟨⟨err, by rw [runUnsigned, h1]; rfl⟩, fun z h => ?_⟩
      cases h with | shr _ h => exact hP _ h

/-- C12, when a `BigUint` is negative: exactly if the program computes a negative number. -/
theorem C12_negative_iff (m : Build) (k : Nat) (hk : 1 ≤ k) (e : UnsignedExpr) (he : e.Legal) (x : BInt)
    (hx : runUnsigned m (8 * k) e = .ok x) : toInt (8 * k) x < 0 ↔ ∃ z < 0, e.Computes z := by
  rcases C12_exact m k hk e he with ⟨y, z, h, hy, hc⟩ | ⟨⟨err, h⟩, -⟩
  · rw [hx] at h; cases h
    rw [hy.2]
    exact ⟨fun hz => ⟨z, hz, (hc z).mpr rfl⟩, fun ⟨z', hz', hc'⟩ => by rw [← (hc z').mp hc']; exact hz'⟩
  · rw [hx] at h; cases h

/-! `"0x12" * 3 - "60"` and `"0x12" * 3 - "50"`. -/

example : (UnsignedExpr.sub (.mul (.text [48, 120, 49, 50]) (.number 3)) (.text [54, 48])).Legal ∧
    (UnsignedExpr.sub (.mul (.text [48, 120, 49, 50]) (.number 3)) (.text [54, 48])).Computes (-6) ∧
    ((runUnsigned .debug 64 (.sub (.mul (.text [48, 120, 49, 50]) (.number 3)) (.text [54, 48]))).bind fun x => .ok (toInt 64 x)) = .ok (-6) ∧
    ((runUnsigned .debug 64 (.sub (.mul (.text [48, 120, 49, 50]) (.number 3)) (.text [53, 48]))).bind fun x => .ok (toInt 64 x)) = .ok 4 := by
  refine ⟨⟨⟨trivial, show 3 < 2 ^ 128 by decide⟩, trivial⟩, ?_, by decide +kernel, by decide +kernel⟩
  exact .sub (a := 54) (b := 60)
    (.mul (a := 18) (b := 3) (.hexText (.inr ⟨⟨[], [49, 50], [1, 2], 1, rfl, .none, ⟨by decide, by decide, by decide⟩, by decide, by decide⟩, by decide⟩)) (.number 3))
    (.decimalText (.inr ⟨[], [54, 48], [6, 0], 1, rfl, .none, ⟨by decide, by decide, by decide⟩, by decide⟩))

end LCT.Props
