import Verif.Spec.Client
import Verif.Lemmas.RandomTests
import Verif.Props.BigInt
import Verif.Props.Division
import Verif.Props.Codecs

/-!
# Every program that uses `BigInt` computes with integers (C87)
-/

namespace LCT.Props
open LCT.Spec LCT.Out LCT.BigInt LCT.RandomTests
variable (m : Build) (w : Nat) [hw : DigitWidth w]

/-- C07: which error `from_hex` returns for a text that is not empty and no hex numeral. -/
theorem C07_error (t : List UInt8) (h0 : t ≠ []) (h : ∀ z, ¬ HexNumeral t z) : BInt.fromHex w t = .err (hexError t) := by
  obtain ⟨k, hk, rfl⟩ := hw
  have hno : ∀ x, BInt.fromHex (8 * k) t ≠ .ok x := by
    intro x hx
    rcases C07_parse_total k hk t with ⟨x', z, e, d⟩ | ⟨e, he⟩
    · rcases (C07_parse_iff k hk t z).mp ⟨x', e, d⟩ with ⟨h1, -⟩ | h1
      · exact h0 h1
      · exact h z h1
    · rw [he] at hx; cases hx
  have hs : (splitSign t).2 = signless t := by
    cases t with
    | nil => rfl
    | cons c cs =>
      unfold splitSign signless
      by_cases h1 : c = 45
      · simp [h1]
      · by_cases h2 : c = 43 <;> simp [h1, h2]
  have hf : BInt.fromHex (8 * k) t = if (signless t).isEmpty then .err .InvalidInput else
      match Codecs.hexToBytes (signless t) with
      | .ok bytes => BInt.fromBeBytes (8 * k) bytes (splitSign t).1
      | .err e => .err (.CodecsError e)
      | .panic => .panic
      | .hang => .hang := by
    unfold BInt.fromHex
    rw [if_neg (by simpa using h0), ← hs]
    rfl
  rw [hf] at hno ⊢
  unfold hexError
  by_cases he : signless t = []
  · simp [he]
  · rw [if_neg (by simpa using he)] at hno ⊢
    rw [if_neg he]
    rcases C17_total (signless t) with ⟨bs, e⟩ | ⟨er, e⟩
    · exfalso
      rw [e] at hno
      have hb : bs ≠ [] := by
        rintro rfl
        obtain ⟨h1, h2, h3⟩ := (C17_decode_ok_iff _ _).mp e
        have := congrArg List.length h3
        simp [hexOf] at this
        exact he this
      obtain ⟨x, ex, -⟩ := fromBeBytes_spec (ε := ParseIntError) hk bs hb (splitSign t).1
      exact hno x ex
    · rw [e]
      cases er with
      | NotByteAligned => rw [if_pos ((C17_not_aligned_iff _).mp e)]
      | InvalidCharFound => rw [if_neg (by have := ((C17_invalid_char_iff _).mp e).1; omega)]

/-- The library's numbers are those of the integers. -/
abbrev Matches (xs : List BInt) (s : List Int) : Prop := List.Forall₂ (Denotes w) xs s

variable {w}

omit hw in
private theorem at_y {xs : List BInt} {s : List Int} (h : Matches w xs s) {i : Nat} {a : Int} (hi : s[i]? = some a) :
    ∃ x, xs[i]? = some x ∧ Denotes w x a := by
  induction h generalizing i with
  | nil => simp at hi
  | cons h1 _ ih =>
    cases i with
    | zero => simp at hi; subst hi; exact ⟨_, rfl, h1⟩
    | succ i => exact ih (by simpa using hi)

omit hw in
private theorem append_y {xs : List BInt} {s : List Int} (h : Matches w xs s) {x : BInt} {z : Int} (hx : Denotes w x z) :
    Matches w (xs ++ [x]) (s ++ [z]) := by
  induction h with
  | nil => exact .cons hx .nil
  | cons h1 _ ih => exact .cons h1 ih

omit hw in
private theorem number_y {xs : List BInt} {s : List Int} (h : Matches w xs s) {x : Out Unit BInt} {z : Int} (hx : x.Yields (Denotes w · z)) :
    ∃ xs', numberReply xs x = .ok (.number, xs') ∧ Matches w xs' (s ++ [z]) := by
  obtain ⟨y, rfl, hy⟩ := hx
  exact ⟨_, rfl, append_y h hy⟩

/-- One call: the library answers as the integers do. -/
theorem C87_call (xs : List BInt) (s : List Int) (h : Matches w xs s) (q : Request) :
    (∀ r s', Ideal s q (some (r, s')) → ∃ xs', answer m w xs q = .ok (r, xs') ∧ Matches w xs' s') ∧
    (Ideal s q none → answer m w xs q = .panic) := by
  constructor
  · intro r s' hi
    cases hi with
    | unsigned hn => exact number_y h (ofNat_y hn)
    | signed h1 h2 => exact number_y h (ofInt_y w _ h1 h2)
    | zero => exact number_y h (zero_y w)
    | one => exact number_y h (one_y w)
    | hexEmpty =>
      obtain ⟨x, e, d⟩ := zero_y (ε := ParseIntError) w
      exact ⟨_, by simp only [answer, BInt.fromHex, List.isEmpty_nil, if_true, e]; rfl, append_y h d⟩
    | hex hn =>
      obtain ⟨k, hk, rfl⟩ := hw
      obtain ⟨x, e, d⟩ := (C07_parse_iff k hk _ _).mpr (.inr hn)
      exact ⟨_, by simp only [answer, e]; rfl, append_y h d⟩
    | hexRejected h0 hn => exact ⟨xs, by simp only [answer, C07_error w _ h0 hn]; rfl, h⟩
    | radixEmpty h2 h36 =>
      obtain ⟨k, hk, rfl⟩ := hw
      obtain ⟨x, e, d⟩ := (C08_accepts_iff m k hk _ _ h2 h36 _).mpr (.inl ⟨rfl, rfl⟩)
      exact ⟨_, by simp only [answer, e]; rfl, append_y h d⟩
    | radix h2 h36 hn =>
      obtain ⟨k, hk, rfl⟩ := hw
      obtain ⟨x, e, d⟩ := C08_numerals_partial m k hk _ _ h2 h36 _ hn
      exact ⟨_, by simp only [answer, e]; rfl, append_y h d⟩
    | radixRejected h2 h36 h0 hn =>
      obtain ⟨k, hk, rfl⟩ := hw
      exact ⟨xs, by simp only [answer, C08_rejects_partial m k hk _ _ h2 h36 h0 hn]; rfl, h⟩
    | @add i j a b hi hj =>
      obtain ⟨x, ex, hx⟩ := at_y h hi
      obtain ⟨y, ey, hy⟩ := at_y h hj
      simp only [answer, ex, ey, unwrap, Out.bind_ok]
      exact number_y h (add_y m hx hy)
    | @sub i j a b hi hj =>
      obtain ⟨x, ex, hx⟩ := at_y h hi
      obtain ⟨y, ey, hy⟩ := at_y h hj
      simp only [answer, ex, ey, unwrap, Out.bind_ok]
      exact number_y h (sub_y m hx hy)
    | @mul i j a b hi hj =>
      obtain ⟨x, ex, hx⟩ := at_y h hi
      obtain ⟨y, ey, hy⟩ := at_y h hj
      simp only [answer, ex, ey, unwrap, Out.bind_ok]
      exact number_y h (mul_y m hx hy)
    | @div i j a b hi hj hb =>
      obtain ⟨x, ex, hx⟩ := at_y h hi
      obtain ⟨y, ey, hy⟩ := at_y h hj
      simp only [answer, ex, ey, unwrap, Out.bind_ok]
      exact number_y h (div_y m hx hy hb)
    | @rem i j a b hi hj hb =>
      obtain ⟨x, ex, hx⟩ := at_y h hi
      obtain ⟨y, ey, hy⟩ := at_y h hj
      simp only [answer, ex, ey, unwrap, Out.bind_ok]
      exact number_y h (rem_y m hx hy hb)
    | @neg i a hi =>
      obtain ⟨x, ex, hx⟩ := at_y h hi
      simp only [answer, ex, unwrap, Out.bind_ok]
      exact number_y h (.pure (neg_d hx))
    | @shl i n a hi h0 =>
      obtain ⟨x, ex, hx⟩ := at_y h hi
      simp only [answer, ex, unwrap, Out.bind_ok]
      refine number_y h ?_
      obtain ⟨k, hk, rfl⟩ := hw
      refine C04_shl_partial k hk x a hx n ?_
      rcases h0 with h0 | h0
      · exact .inl h0
      · by_cases hn : n = 0
        · exact .inr (.inr hn)
        · refine .inr (.inl ?_)
          rw [Nat.mod_eq_of_lt (by omega)]
          exact hn
    | @shr i n a hi =>
      obtain ⟨x, ex, hx⟩ := at_y h hi
      simp only [answer, ex, unwrap, Out.bind_ok]
      exact number_y h (shr_y m hx n)
    | @equal i j a b hi hj =>
      obtain ⟨x, ex, hx⟩ := at_y h hi
      obtain ⟨y, ey, hy⟩ := at_y h hj
      simp only [answer, ex, ey, unwrap, Out.bind_ok]
      obtain ⟨_, e, rfl⟩ := beq_y (ε := Unit) m hx hy
      exact ⟨xs, by rw [e]; rfl, h⟩
    | @order i j a b hi hj =>
      obtain ⟨x, ex, hx⟩ := at_y h hi
      obtain ⟨y, ey, hy⟩ := at_y h hj
      simp only [answer, ex, ey, unwrap, Out.bind_ok]
      obtain ⟨_, e, rfl⟩ := cmp_y (ε := Unit) m hx hy
      exact ⟨xs, by rw [e]; rfl, h⟩
    | @isZero i a hi =>
      obtain ⟨x, ex, hx⟩ := at_y h hi
      simp only [answer, ex, unwrap, Out.bind_ok]
      obtain ⟨_, e, rfl⟩ := isZero_y (ε := Unit) m hx
      exact ⟨xs, by rw [e]; rfl, h⟩
    | @bitLen i a hi =>
      obtain ⟨x, ex, hx⟩ := at_y h hi
      simp only [answer, ex, unwrap, Out.bind_ok]
      obtain ⟨_, e, rfl⟩ := bitLen_y (ε := Unit) m hx
      exact ⟨xs, by rw [e]; rfl, h⟩
    | @lowerHex i a hi =>
      obtain ⟨x, ex, hx⟩ := at_y h hi
      simp only [answer, ex, unwrap, Out.bind_ok]
      obtain ⟨_, e, rfl⟩ := toLowerHex_y (ε := Unit) m hx
      exact ⟨xs, by rw [e]; rfl, h⟩
    | @display i a hi =>
      obtain ⟨x, ex, hx⟩ := at_y h hi
      simp only [answer, ex, unwrap, Out.bind_ok]
      obtain ⟨k, hk, rfl⟩ := hw
      exact ⟨xs, by rw [C07_display m k x a hx]; rfl, h⟩
  · intro hi
    obtain ⟨k, hk, rfl⟩ := hw
    cases hi with
    | divZero hi hj =>
      obtain ⟨x, ex, hx⟩ := at_y h hi
      obtain ⟨y, ey, hy⟩ := at_y h hj
      simp only [answer, ex, ey, unwrap, Out.bind_ok, numberReply, (C03_zero_divisor m k x y _ hx hy).1]
      rfl
    | remZero hi hj =>
      obtain ⟨x, ex, hx⟩ := at_y h hi
      obtain ⟨y, ey, hy⟩ := at_y h hj
      simp only [answer, ex, ey, unwrap, Out.bind_ok, numberReply, (C03_zero_divisor m k x y _ hx hy).2]
      rfl

/-- C87: a client that talks to the library sees what it would see if it talked to the integers, however many calls it makes and however it
chooses them: the same replies, and numbers that stand for the same integers.  If the integers panic at some call, so does the library.
Missing for the full property: clients that shift zero left by 8 bits or more, or parse a text with a digit equal to the radix
(`Request.Deviates`); see `C87_answers` and `C87_violated`. -/
theorem C87_client_partial (c : Client) (rs : List Reply) (s : List Int) (h : IdealRun c rs s) :
    (∃ xs, session m w c rs.length = .ok (rs, xs) ∧ Matches w xs s) ∧
    (Ideal s (c rs) none → session m w c (rs.length + 1) = .panic) := by
  have key : ∃ xs, session m w c rs.length = .ok (rs, xs) ∧ Matches w xs s := by
    induction h with
    | start => exact ⟨[], rfl, .nil⟩
    | call _ hi ih =>
      obtain ⟨xs, e, hm⟩ := ih
      obtain ⟨xs', e', hm'⟩ := (C87_call m xs _ hm _).1 _ _ hi
      refine ⟨xs', ?_, hm'⟩
      rw [List.length_append]
      show (do let (rs, xs) ← session m w c _; _) = _
      rw [e]
      simp only [Out.bind_ok, e']
      rfl
  refine ⟨key, fun hp => ?_⟩
  obtain ⟨xs, e, hm⟩ := key
  show (do let (rs, xs) ← session m w c _; _) = _
  rw [e]
  simp only [Out.bind_ok, (C87_call m xs _ hm _).2 hp]
  rfl

omit hw in
private theorem signed_nil {r b : Nat} {z : Int} : ¬ SignedNumeral r b [] z := by
  rintro ⟨pre, body, ds, sg, h1, -, h3, -⟩
  exact h3.1 (List.append_eq_nil_iff.mp h1.symm).2

omit hw in
private theorem signed_weaken {r : Nat} {t : List UInt8} {z : Int} (h : SignedNumeral r r t z) : SignedNumeral r (r + 1) t z := by
  obtain ⟨pre, body, ds, sg, e, hs, ⟨d1, d2, d3⟩, hz⟩ := h
  exact ⟨pre, body, ds, sg, e, hs, ⟨d1, d2, fun d hd => Nat.lt_succ_of_lt (d3 d hd)⟩, hz⟩

omit hw in
private theorem signed_unique' {r : Nat} (h2 : 2 ≤ r) (h36 : r ≤ 36) {t : List UInt8} {z z' : Int} (h : SignedNumeral r r t z)
    (h' : SignedNumeral r r t z') : z = z' := by
  obtain ⟨x, e, d⟩ := C08_numerals_partial .release 1 (Nat.le_refl 1) t r h2 h36 z h
  obtain ⟨x', e', d'⟩ := C08_numerals_partial .release 1 (Nat.le_refl 1) t r h2 h36 z' h'
  rw [e] at e'
  cases e'
  exact d.2.symm.trans d'.2

omit hw in
/-- C87: the integers answer every call that can be written, in exactly one way, except the two kinds on which the library deviates, which
they do not answer. -/
theorem C87_answers (s : List Int) (q : Request) (hq : q.WellFormed s.length) :
    (¬ q.Deviates s → ∃ a, Ideal s q a) ∧ (q.Deviates s → ∀ a, ¬ Ideal s q a) ∧ ∀ a b, Ideal s q a → Ideal s q b → a = b := by
  have at' : ∀ i, i < s.length → ∃ a, s[i]? = some a := fun i hi => ⟨s[i], List.getElem?_eq_getElem hi⟩
  refine ⟨fun hd => ?_, fun hd a ha => ?_, fun a b ha hb => ?_⟩
  · cases q with
    | unsigned n => exact ⟨_, .unsigned hq⟩
    | signed i => exact ⟨_, .signed hq.1 hq.2⟩
    | zero => exact ⟨_, .zero⟩
    | one => exact ⟨_, .one⟩
    | hex t =>
      by_cases h0 : t = []
      · subst h0; exact ⟨_, .hexEmpty⟩
      · by_cases h : ∃ z, HexNumeral t z
        · exact ⟨_, .hex h.choose_spec⟩
        · exact ⟨_, .hexRejected h0 (not_exists.mp h)⟩
    | radix t r =>
      by_cases h0 : t = []
      · subst h0; exact ⟨_, .radixEmpty hq.1 hq.2⟩
      · by_cases h : ∃ z, SignedNumeral r r t z
        · exact ⟨_, .radix hq.1 hq.2 h.choose_spec⟩
        · refine ⟨_, .radixRejected hq.1 hq.2 h0 (not_exists.mp fun h' => hd ⟨h', not_exists.mp h⟩)⟩
    | shl i n =>
      obtain ⟨a, ha⟩ := at' i hq
      refine ⟨_, .shl ha ?_⟩
      by_cases h : a = 0
      · subst h
        exact .inr (Nat.lt_of_not_le fun h => hd ⟨ha, h⟩)
      · exact .inl h
    | div i j =>
      obtain ⟨a, ha⟩ := at' i hq.1
      obtain ⟨b, hb⟩ := at' j hq.2
      by_cases h : b = 0
      · subst h; exact ⟨_, .divZero ha hb⟩
      · exact ⟨_, .div ha hb h⟩
    | rem i j =>
      obtain ⟨a, ha⟩ := at' i hq.1
      obtain ⟨b, hb⟩ := at' j hq.2
      by_cases h : b = 0
      · subst h; exact ⟨_, .remZero ha hb⟩
      · exact ⟨_, .rem ha hb h⟩
    | add i j => exact ⟨_, .add (at' i hq.1).choose_spec (at' j hq.2).choose_spec⟩
    | sub i j => exact ⟨_, .sub (at' i hq.1).choose_spec (at' j hq.2).choose_spec⟩
    | mul i j => exact ⟨_, .mul (at' i hq.1).choose_spec (at' j hq.2).choose_spec⟩
    | equal i j => exact ⟨_, .equal (at' i hq.1).choose_spec (at' j hq.2).choose_spec⟩
    | order i j => exact ⟨_, .order (at' i hq.1).choose_spec (at' j hq.2).choose_spec⟩
    | neg i => exact ⟨_, .neg (at' i hq).choose_spec⟩
    | shr i n => exact ⟨_, .shr (at' i hq).choose_spec⟩
    | isZero i => exact ⟨_, .isZero (at' i hq).choose_spec⟩
    | bitLen i => exact ⟨_, .bitLen (at' i hq).choose_spec⟩
    | lowerHex i => exact ⟨_, .lowerHex (at' i hq).choose_spec⟩
    | display i => exact ⟨_, .display (at' i hq).choose_spec⟩
  · cases ha with
    | shl hi h =>
      obtain ⟨h1, h2⟩ := hd
      rw [hi] at h1
      cases h1
      rcases h with h | h
      · exact h rfl
      · omega
    | radixEmpty =>
      exact signed_nil hd.1.choose_spec
    | radix _ _ h => exact hd.2 _ h
    | radixRejected _ _ _ h => exact h _ hd.1.choose_spec
    | _ => exact hd
  · cases ha <;> cases hb <;> simp_all
    · exact absurd ‹HexNumeral [] _› fun h => signed_nil (signed_of_hexNumeral h)
    · exact absurd ‹HexNumeral [] _› fun h => signed_nil (signed_of_hexNumeral h)
    · rename_i h1 _ h2
      exact signed_unique' (by decide) (by decide) (signed_of_hexNumeral h1) (signed_of_hexNumeral h2)
    · exact absurd ‹SignedNumeral _ _ [] _› signed_nil
    · exact absurd ‹SignedNumeral _ _ [] _› signed_nil
    · rename_i h1 _ h2 h36 h3
      exact signed_unique' h2 h36 h1 h3
    · rename_i h1 _ _ _ h2
      exact h2 _ (signed_weaken h1)
    · rename_i h1 _ _ h2
      exact h1 _ (signed_weaken h2)

/-- C87: what a client sees does not depend on the digit size or the build. -/
theorem C87_same (m' : Build) (w' : Nat) [DigitWidth w'] (c : Client) (rs : List Reply) (s : List Int) (h : IdealRun c rs s) :
    ∃ xs xs', session m w c rs.length = .ok (rs, xs) ∧ session m' w' c rs.length = .ok (rs, xs') := by
  obtain ⟨xs, e, -⟩ := (C87_client_partial m (w := w) c rs s h).1
  obtain ⟨xs', e', -⟩ := (C87_client_partial m' (w := w') c rs s h).1
  exact ⟨xs, xs', e, e'⟩

omit hw in
/-- C87 is violated by a client that takes zero, shifts it left by 64 bits and asks whether the result is zero: it is told no in release builds,
and panics in debug builds. -/
theorem C87_violated : let c : Client := fun rs => [.zero, .shl 0 64, .isZero 1].getD rs.length .zero
    (session .release 64 c 3).bind (fun r => .ok r.1) = .ok [.number, .number, .truth false] ∧
    (session .debug 64 c 3).bind (fun r => .ok r.1) = .panic := by
  decide +kernel

/-- A client that computes `100 / -7` and `-(100 % -7)`, prints the latter and, if it is `-02`, compares the two. -/
example : ∃ (c : Client) (rs : List Reply) (s : List Int), IdealRun c rs s ∧ rs.length = 7 ∧ s = [100, -7, -14, 2, -2] := by
  let c : Client := fun rs => match rs.length with
    | 0 => .unsigned 100 | 1 => .signed (-7) | 2 => .div 0 1 | 3 => .rem 0 1 | 4 => .neg 3 | 5 => .lowerHex 4
    | _ => if rs.getLast? = some (.text [45, 48, 50]) then .order 2 4 else .zero
  refine ⟨c, [.number, .number, .number, .number, .number, .text [45, 48, 50], .order .lt], _, ?_, rfl, rfl⟩
  have h0 := IdealRun.start (c := c)
  have h1 := h0.call (Ideal.unsigned (n := 100) (by decide))
  have h2 := h1.call (Ideal.signed (i := -7) (by decide) (by decide))
  have h3 := h2.call (Ideal.div (i := 0) (j := 1) rfl rfl (by decide))
  have h4 := h3.call (Ideal.rem (i := 0) (j := 1) rfl rfl (by decide))
  have h5 := h4.call (Ideal.neg (i := 3) rfl)
  have e : hexText (-2) = [45, 48, 50] := by decide +kernel
  have h6 : IdealRun c ([.number, .number, .number, .number, .number] ++ [.text (hexText (-2))]) [100, -7, -14, 2, -2] :=
    h5.call (Ideal.lowerHex (i := 4) rfl)
  rw [e] at h6
  exact h6.call (Ideal.order (i := 2) (j := 4) (a := -14) (b := -2) rfl rfl)

end LCT.Props
