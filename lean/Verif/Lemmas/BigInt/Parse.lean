import Verif.Lemmas.BigInt.Bits

namespace LCT.BigInt
open LCT.Spec
variable {ε : Type}

def sgnInt : Sign → Int
  | .positive => 1
  | .negative => -1

theorem toInt_sgn (w : Nat) (x : BInt) : toInt w x = sgnInt x.sign * (mag w x : Int) := by
  rw [toInt_eq]; cases x.sign <;> simp [sgnInt]

theorem mag_sign (w : Nat) (x : BInt) (s : Sign) : mag w { x with sign := s } = mag w x := rfl

theorem wf_sign {w : Nat} {x : BInt} (h : WF w x) (s : Sign) : WF w { x with sign := s } :=
  ⟨h.digits, h.len_pos, h.len_le, h.top, h.slack⟩

/-! ## The sign prefix -/

theorem splitSign_spec (s : List UInt8) (hs : s ≠ []) :
    ∃ pre, s = pre ++ (splitSign s).2 ∧ SignText pre (sgnInt (splitSign s).1) := by
  obtain ⟨c, cs, rfl⟩ := List.exists_cons_of_ne_nil hs
  rw [splitSign]
  split
  · rename_i h; subst h; exact ⟨[45], rfl, .minus⟩
  · split
    · rename_i h; subst h; exact ⟨[43], rfl, .plus⟩
    · exact ⟨[], rfl, .none⟩

theorem digitText_head {bound : Nat} {body : List UInt8} {ds : List Nat} (h : DigitText bound body ds) :
    ∃ c cs, body = c :: cs ∧ c ≠ 45 ∧ c ≠ 43 := by
  obtain ⟨c, cs, rfl⟩ := List.exists_cons_of_ne_nil h.1
  refine ⟨c, cs, rfl, ?_, ?_⟩ <;> rintro rfl
  · have := h.2.1
    cases ds with
    | nil => simp at this
    | cons d ds => rw [List.map_cons, List.map_cons] at this; injection this with h1 _; revert h1; simp [digitVal]
  · have := h.2.1
    cases ds with
    | nil => simp at this
    | cons d ds => rw [List.map_cons, List.map_cons] at this; injection this with h1 _; revert h1; simp [digitVal]

theorem splitSign_unique {bound : Nat} {pre body : List UInt8} {ds : List Nat} {sg : Int} (hp : SignText pre sg)
    (h : DigitText bound body ds) :
    (splitSign (pre ++ body)).2 = body ∧ sgnInt (splitSign (pre ++ body)).1 = sg := by
  obtain ⟨c, cs, rfl, h1, h2⟩ := digitText_head h
  cases hp
  · simp [splitSign, h1, h2, sgnInt]
  · simp [splitSign, sgnInt]
  · simp [splitSign, sgnInt]

/-! ## Hex -/

theorem digitVal_lower (c : UInt8) : digitVal (lowerChar c) = digitVal c := by
  have := Codecs.all_uint8 (fun c => decide (digitVal (lowerChar c) = digitVal c)) (by decide +kernel) c
  simpa using this

theorem hexVal_eq_digitVal (c : UInt8) : (IsHexDigit c ↔ ∃ d, digitVal c = some d ∧ d < 16) := by
  have := Codecs.all_uint8 (fun c => decide (IsHexDigit c) == (match digitVal c with | some d => decide (d < 16) | none => false))
    (by decide +kernel) c
  simp only [beq_iff_eq] at this
  rw [← decide_eq_true_iff (p := IsHexDigit c), this]
  cases digitVal c <;> simp

theorem digitVal_hexDigit (n : Nat) (h : n < 16) : digitVal (hexDigit n) = some n := by
  have : ∀ n : Fin 16, digitVal (hexDigit n.val) = some n.val := by decide
  exact this ⟨n, h⟩

theorem horner_hexOf (bs : List UInt8) (acc : Nat) :
    ((hexOf bs).map (fun c => (digitVal c).getD 0)).foldl (fun a d => a * 16 + d) acc =
      bs.foldl (fun a b => a * 256 + b.toNat) acc := by
  induction bs generalizing acc with
  | nil => rfl
  | cons b bs ih =>
    have hb := b.toNat_lt
    rw [Codecs.hexOf_cons]
    simp only [List.map_cons, List.foldl_cons, digitVal_hexDigit _ (show b.toNat / 16 < 16 by omega),
      digitVal_hexDigit _ (show b.toNat % 16 < 16 by omega), Option.getD_some]
    rw [ih]
    congr 1
    omega

theorem hexToBytes_digits {body bs : List UInt8} (hne : body ≠ []) (h : Codecs.hexToBytes body = .ok bs) :
    bs ≠ [] ∧ ∃ ds, DigitText 16 body ds ∧ body.length % 2 = 0 ∧ horner 16 ds = ofBE bs := by
  rw [Codecs.hexToBytes_eq] at h
  split at h
  case isFalse => cases h
  rename_i he
  rcases Codecs.hexLoop_cases body he with ⟨bs', h', hd, hl⟩ | ⟨h', _⟩
  · rw [h'] at h
    cases h
    refine ⟨?_, body.map (fun c => (digitVal c).getD 0), ⟨hne, ?_, ?_⟩, he, ?_⟩
    · rintro rfl
      have := congrArg List.length hl
      simp [hexOf] at this
      exact hne (by simpa using this.symm)
    · rw [List.map_map]
      apply List.map_congr_left
      intro c hc
      obtain ⟨d, hd1, _⟩ := (hexVal_eq_digitVal c).mp (hd c hc)
      simp [hd1]
    · intro d hdm
      obtain ⟨c, hc, rfl⟩ := List.mem_map.mp hdm
      obtain ⟨d, hd1, hd2⟩ := (hexVal_eq_digitVal c).mp (hd c hc)
      simpa [hd1] using hd2
    · have : body.map (fun c => (digitVal c).getD 0) = (hexOf bs).map (fun c => (digitVal c).getD 0) := by
        rw [hl, List.map_map]
        apply List.map_congr_left
        intro c _
        simp [digitVal_lower]
      rw [this, horner, horner_hexOf]; rfl
  · rw [h'] at h; cases h

theorem map_some_getD {body : List UInt8} {ds : List Nat} (h : body.map digitVal = ds.map some) :
    ds = body.map (fun c => (digitVal c).getD 0) := by
  have := congrArg (List.map (fun o : Option Nat => o.getD 0)) h
  rw [List.map_map, List.map_map] at this
  simpa [Function.comp_def] using this.symm

theorem digitText_unique {b1 b2 : Nat} {body : List UInt8} {ds ds' : List Nat} (h : DigitText b1 body ds) (h' : DigitText b2 body ds') :
    ds = ds' := by rw [map_some_getD h.2.1, map_some_getD h'.2.1]

theorem digitText_mem {bound : Nat} {body : List UInt8} {ds : List Nat} (h : DigitText bound body ds) :
    ∀ c ∈ body, ∃ d, digitVal c = some d ∧ d < bound := by
  intro c hc
  have h1 : digitVal c ∈ ds.map some := by rw [← h.2.1]; exact List.mem_map_of_mem hc
  obtain ⟨d, hd, he⟩ := List.mem_map.mp h1
  exact ⟨d, he.symm, h.2.2 d hd⟩

theorem hexToBytes_of_digitText {body : List UInt8} {ds : List Nat} (h : DigitText 16 body ds) (he : body.length % 2 = 0) :
    ∃ bs, Codecs.hexToBytes body = .ok bs := by
  rw [Codecs.hexToBytes_eq, if_pos he]
  rcases Codecs.hexLoop_cases body he with ⟨bs', h', _, _⟩ | ⟨_, c, hc, hn⟩
  · exact ⟨bs', h'⟩
  · exact absurd ((hexVal_eq_digitVal c).mpr (digitText_mem h c hc)) hn

theorem isEmpty_false_of_ne {α} {l : List α} (h : l ≠ []) : l.isEmpty = false := by cases l <;> simp at *

theorem fromHex_iff {k : Nat} (hk : 1 ≤ k) (s : List UInt8) (z : Int) :
    (∃ x, BInt.fromHex (8 * k) s = .ok x ∧ Denotes (8 * k) x z) ↔ (s = [] ∧ z = 0) ∨ HexNumeral s z := by
  unfold BInt.fromHex
  by_cases hs : s = []
  · subst hs
    simp only [List.isEmpty_nil, if_true, true_and]
    obtain ⟨x0, e0, d0, _⟩ := zero_spec (ε := ParseIntError) hk
    constructor
    · rintro ⟨x, e, d⟩
      rw [e0] at e; cases e
      left; rw [← d.2, d0.2]
    · rintro (rfl | ⟨pre, body, ds, sg, e, _, h, _⟩)
      · exact ⟨x0, e0, d0⟩
      · have : body = [] := (List.append_eq_nil_iff.mp e.symm).2
        exact absurd this h.1
  · simp only [isEmpty_false_of_ne hs, Bool.false_eq_true, if_false, hs, false_and, false_or]
    obtain ⟨pre, hpre, hst⟩ := splitSign_spec s hs
    generalize hsp : splitSign s = sp at *
    obtain ⟨sgn, body⟩ := sp
    simp only at *
    by_cases hb : body = []
    · subst hb
      simp only [List.isEmpty_nil, if_true]
      constructor
      · rintro ⟨x, e, _⟩; cases e
      · rintro ⟨pre', body', ds, sg, e, hsg, h, _⟩
        have := (splitSign_unique hsg h).1
        rw [← e, hsp] at this
        exact absurd this.symm h.1
    · simp only [isEmpty_false_of_ne hb, Bool.false_eq_true, if_false]
      constructor
      · rintro ⟨x, e, d⟩
        cases hh : Codecs.hexToBytes body with
        | ok bs =>
          rw [hh] at e
          obtain ⟨hbs, ds, h1, h2, h3⟩ := hexToBytes_digits hb hh
          obtain ⟨y, e', wf, mg, sg⟩ := fromBeBytes_spec (ε := ParseIntError) hk bs hbs sgn
          simp only at e
          rw [e'] at e; cases e
          refine ⟨pre, body, ds, _, hpre, hst, h1, h2, ?_⟩
          rw [← d.2, toInt_sgn, mg, sg, h3]
        | err e2 => rw [hh] at e; cases e
        | panic => rw [hh] at e; cases e
        | hang => rw [hh] at e; cases e
      · rintro ⟨pre', body', ds, sg, e, hsg, h, hev, hz⟩
        obtain ⟨u1, u2⟩ := splitSign_unique hsg h
        rw [← e, hsp] at u1 u2
        simp only at u1 u2
        subst u1
        obtain ⟨bs, hh⟩ := hexToBytes_of_digitText h hev
        obtain ⟨hbs, ds', h1, h2, h3⟩ := hexToBytes_digits hb hh
        obtain ⟨y, e', wf, mg, sg'⟩ := fromBeBytes_spec (ε := ParseIntError) hk bs hbs sgn
        rw [hh]
        refine ⟨y, e', wf, ?_⟩
        rw [hz, toInt_sgn, mg, sg', u2, ← h3, digitText_unique h h1]

theorem hexToBytes_returns (s : List UInt8) : (∃ bs, Codecs.hexToBytes s = .ok bs) ∨ (∃ e, Codecs.hexToBytes s = .err e) := by
  rw [Codecs.hexToBytes_eq]
  split
  · rename_i he
    rcases Codecs.hexLoop_cases s he with ⟨bs', h', _⟩ | ⟨h', _⟩ <;> rw [h']
    · exact Or.inl ⟨_, rfl⟩
    · exact Or.inr ⟨_, rfl⟩
  · exact Or.inr ⟨_, rfl⟩

theorem fromHex_wf {k : Nat} (hk : 1 ≤ k) (s : List UInt8) :
    (∃ x, BInt.fromHex (8 * k) s = .ok x ∧ WF (8 * k) x) ∨ ∃ e, BInt.fromHex (8 * k) s = .err e := by
  unfold BInt.fromHex
  by_cases hs : s = []
  · subst hs
    obtain ⟨x0, e0, d0, _⟩ := zero_spec (ε := ParseIntError) hk
    exact Or.inl ⟨x0, e0, d0.1⟩
  · simp only [isEmpty_false_of_ne hs, Bool.false_eq_true, if_false]
    generalize splitSign s = sp at *
    obtain ⟨sgn, body⟩ := sp
    by_cases hb : body = []
    · subst hb; exact Or.inr ⟨_, rfl⟩
    · simp only [isEmpty_false_of_ne hb, Bool.false_eq_true, if_false]
      rcases hexToBytes_returns body with ⟨bs, hh⟩ | ⟨e, hh⟩ <;> rw [hh]
      · obtain ⟨hbs, _⟩ := hexToBytes_digits hb hh
        obtain ⟨y, e', wf, _⟩ := fromBeBytes_spec (ε := ParseIntError) hk bs hbs sgn
        exact Or.inl ⟨y, e', wf⟩
      · exact Or.inr ⟨_, rfl⟩

/-- Printing then parsing. -/
theorem hexText_numeral (z : Int) : HexNumeral (hexText z) z := by
  have body : ∀ n : Nat, n ≠ 0 → ∃ ds, DigitText 16 (hexOf (minBE n)) ds ∧ (hexOf (minBE n)).length % 2 = 0 ∧ horner 16 ds = n := by
    intro n hn
    have hne : hexOf (minBE n) ≠ [] := by
      intro h
      have := congrArg List.length h
      rw [Codecs.hexOf_length] at this
      apply hn; apply minBE_eq_nil.mp
      exact List.eq_nil_of_length_eq_zero (by simp at this; simpa using this)
    have hh : Codecs.hexToBytes (hexOf (minBE n)) = .ok (minBE n) := by
      rw [Codecs.hexToBytes_eq, Codecs.hexOf_length, Codecs.hexLoop_hexOf]; simp
    obtain ⟨_, ds, h1, h2, h3⟩ := hexToBytes_digits hne hh
    exact ⟨ds, h1, h2, by rw [h3, ofBE_minBE]⟩
  unfold hexText
  split
  · rename_i h; subst h
    exact ⟨[], [48, 48], [0, 0], 1, rfl, .none, ⟨by simp, by decide, by simp⟩, rfl, by decide⟩
  · rename_i h
    obtain ⟨ds, h1, h2, h3⟩ := body z.natAbs (by omega)
    split
    · exact ⟨[45], _, ds, -1, rfl, .minus, h1, h2, by rw [h3]; omega⟩
    · exact ⟨[], _, ds, 1, rfl, .none, h1, h2, by rw [h3]; omega⟩

/-! ## Radix -/

theorem radixDigit_eq (c : UInt8) : BInt.radixDigit c = digitVal c := by
  have := Codecs.all_uint8 (fun c => decide (BInt.radixDigit c = digitVal c)) (by decide +kernel) c
  simpa using this

theorem digitVal_lt (c : UInt8) (d : Nat) (h : digitVal c = some d) : d < 36 := by
  unfold digitVal at h
  split at h
  · simp at h; omega
  · split at h
    · simp at h; omega
    · split at h
      · simp at h; omega
      · simp at h

theorem radixLoop_step (m : Build) {k : Nat} (hk : 1 ≤ k) {radix : Nat} {R x : BInt} (hR : Denotes (8 * k) R radix) (v : Nat)
    (hx : Denotes (8 * k) x v) (n : Nat) (hn : n < 36) :
    ∃ p d y, (BInt.mul m (8 * k) x R : Out ε _) = .ok p ∧ (BInt.ofNat (8 * k) n : Out ε _) = .ok d ∧
      (BInt.add m (8 * k) p d : Out ε _) = .ok y ∧ Denotes (8 * k) y ((v * radix + n : Nat) : Int) := by
  obtain ⟨p, e1, d1⟩ := mul_spec (ε := ε) m hx.1 hR.1
  obtain ⟨d, e2, wf, mg, sg⟩ := fromU128_spec (ε := ε) hk n (by norm_num; omega) .positive
  obtain ⟨y, e3, d3⟩ := add_spec (ε := ε) m hk d1.1 wf
  refine ⟨p, d, y, e1, e2, e3, d3.1, ?_⟩
  rw [d3.2, d1.2, hx.2, hR.2, toInt_pos sg, mg]
  push_cast; rfl

theorem radixLoop_ok (m : Build) {k : Nat} (hk : 1 ≤ k) {radix : Nat} {R : BInt} (hR : Denotes (8 * k) R radix)
    (s : List UInt8) (ds : List Nat) (h : s.map digitVal = ds.map some) (hb : ∀ d ∈ ds, d < radix + 1) (v : Nat) (x : BInt)
    (hx : Denotes (8 * k) x v) :
    ∃ y, BInt.radixLoop m (8 * k) radix R s x = .ok y ∧ Denotes (8 * k) y ((ds.foldl (fun a d => a * radix + d) v : Nat) : Int) := by
  induction s generalizing ds v x with
  | nil =>
    have : ds = [] := by simpa using h.symm
    subst this
    exact ⟨x, rfl, hx⟩
  | cons c cs ih =>
    cases ds with
    | nil => simp at h
    | cons n ds =>
      rw [List.map_cons, List.map_cons] at h
      injection h with h1 h2
      obtain ⟨p, d, y, e1, e2, e3, e4⟩ := radixLoop_step (ε := ParseIntError) m hk hR v hx n (digitVal_lt c n h1)
      obtain ⟨z, e5, e6⟩ := ih ds h2 (fun d hd => hb d (List.mem_cons_of_mem _ hd)) _ y e4
      refine ⟨z, ?_, e6⟩
      have hn := hb n List.mem_cons_self
      simp only [BInt.radixLoop, radixDigit_eq, h1, if_neg (show ¬ n > radix by omega), e1, e2, e3, Out.bind_ok, e5]

theorem radixLoop_err (m : Build) {k : Nat} (hk : 1 ≤ k) {radix : Nat} {R : BInt} (hR : Denotes (8 * k) R radix)
    (s : List UInt8) (h : ∃ c ∈ s, ∀ d, digitVal c = some d → radix < d) (v : Nat) (x : BInt) (hx : Denotes (8 * k) x v) :
    BInt.radixLoop m (8 * k) radix R s x = .err .InvalidInput := by
  induction s generalizing v x with
  | nil => obtain ⟨c, hc, _⟩ := h; cases hc
  | cons c cs ih =>
    rw [BInt.radixLoop, radixDigit_eq]
    cases hc : digitVal c with
    | none => rfl
    | some n =>
      simp only
      by_cases hn : n > radix
      · rw [if_pos hn]
      · rw [if_neg hn]
        obtain ⟨p, d, y, e1, e2, e3, e4⟩ := radixLoop_step (ε := ParseIntError) m hk hR v hx n (digitVal_lt c n hc)
        simp only [e1, e2, e3, Out.bind_ok]
        refine ih ?_ _ y e4
        obtain ⟨c', hc', hd⟩ := h
        rcases List.mem_cons.mp hc' with rfl | hc'
        · exact absurd (hd n hc) hn
        · exact ⟨c', hc', hd⟩

theorem digitText_dec (bound : Nat) (s : List UInt8) :
    (∃ ds : List Nat, s.map digitVal = ds.map some ∧ ∀ d ∈ ds, d < bound) ∨ ∃ c ∈ s, ∀ d, digitVal c = some d → bound ≤ d := by
  induction s with
  | nil => exact Or.inl ⟨[], rfl, by simp⟩
  | cons c cs ih =>
    rcases ih with ⟨ds, h1, h2⟩ | ⟨c', hc', hd⟩
    · cases hc : digitVal c with
      | none => right; exact ⟨c, by simp, by simp [hc]⟩
      | some n =>
        by_cases hn : n < bound
        · left; exact ⟨n :: ds, by simp [hc, h1], by simpa [hn] using h2⟩
        · right; refine ⟨c, by simp, ?_⟩; rw [hc]; rintro d ⟨⟩; omega
    · right; exact ⟨c', by simp [hc'], hd⟩

theorem fromStrRadix_iff (m : Build) {k : Nat} (hk : 1 ≤ k) (s : List UInt8) (radix : Nat) (h2 : 2 ≤ radix) (h36 : radix ≤ 36) (z : Int) :
    (∃ x, BInt.fromStrRadix m (8 * k) s radix = .ok x ∧ Denotes (8 * k) x z) ↔
      (s = [] ∧ z = 0) ∨ SignedNumeral radix (radix + 1) s z := by
  unfold BInt.fromStrRadix
  rw [decide_eq_true (⟨h2, h36⟩ : 2 ≤ radix ∧ radix ≤ 36)]
  simp only [dassert_true, Out.bind_ok]
  obtain ⟨x0, e0, d0, _⟩ := zero_spec (ε := ParseIntError) hk
  by_cases hs : s = []
  · subst hs
    simp only [List.isEmpty_nil, if_true, true_and]
    constructor
    · rintro ⟨x, e, d⟩
      rw [e0] at e; cases e
      left; rw [← d.2, d0.2]
    · rintro (rfl | ⟨pre, body, ds, sg, e, _, h, _⟩)
      · exact ⟨x0, e0, d0⟩
      · have : body = [] := (List.append_eq_nil_iff.mp e.symm).2
        exact absurd this h.1
  · simp only [isEmpty_false_of_ne hs, Bool.false_eq_true, if_false, hs, false_and, false_or]
    obtain ⟨pre, hpre, hst⟩ := splitSign_spec s hs
    generalize hsp : splitSign s = sp at *
    obtain ⟨sgn, body⟩ := sp
    simp only at *
    by_cases hb : body = []
    · subst hb
      simp only [List.isEmpty_nil, if_true]
      constructor
      · rintro ⟨x, e, _⟩; cases e
      · rintro ⟨pre', body', ds, sg, e, hsg, h, _⟩
        have := (splitSign_unique hsg h).1
        rw [← e, hsp] at this
        exact absurd this.symm h.1
    · simp only [isEmpty_false_of_ne hb, Bool.false_eq_true, if_false]
      obtain ⟨R, eR, wR, mR, sR⟩ := fromU128_spec (ε := ParseIntError) hk radix (by norm_num; omega) .positive
      have dR : Denotes (8 * k) R radix := ⟨wR, by rw [toInt_pos sR, mR]⟩
      have eR' : (BInt.ofNat (8 * k) radix : Out ParseIntError _) = .ok R := eR
      rw [eR', Out.bind_ok, e0, Out.bind_ok]
      have dz : Denotes (8 * k) x0 ((0 : Nat) : Int) := d0
      rcases digitText_dec (radix + 1) body with ⟨ds, hds, hbd⟩ | ⟨c, hc, hcd⟩
      · obtain ⟨y, ey, dy⟩ := radixLoop_ok m hk dR body ds hds hbd 0 x0 dz
        have my : mag (8 * k) y = horner radix ds := by rw [← natAbs_toInt, dy.2]; rfl
        rw [ey, Out.bind_ok]
        have hval : toInt (8 * k) { y with sign := sgn } = sgnInt sgn * (horner radix ds : Int) := by
          rw [toInt_sgn, mag_sign, my]
        constructor
        · rintro ⟨x, e, d⟩
          cases e
          exact ⟨pre, body, ds, _, hpre, hst, ⟨hb, hds, hbd⟩, by rw [← d.2, hval]⟩
        · rintro ⟨pre', body', ds', sg, e, hsg, h, hz⟩
          obtain ⟨u1, u2⟩ := splitSign_unique hsg h
          rw [← e, hsp] at u1 u2
          simp only at u1 u2
          subst u1
          refine ⟨_, rfl, wf_sign dy.1 _, ?_⟩
          rw [hval, hz, u2, digitText_unique h ⟨hb, hds, hbd⟩]
      · rw [radixLoop_err m hk dR body ⟨c, hc, fun d hd => hcd d hd⟩ 0 x0 dz, Out.bind_err]
        constructor
        · rintro ⟨x, e, _⟩; cases e
        · rintro ⟨pre', body', ds', sg, e, hsg, h, hz⟩
          obtain ⟨u1, u2⟩ := splitSign_unique hsg h
          rw [← e, hsp] at u1 u2
          simp only at u1 u2
          subst u1
          obtain ⟨d, hd1, hd2⟩ := digitText_mem h c hc
          have := hcd d hd1
          omega

theorem fromStrRadix_wf (m : Build) {k : Nat} (hk : 1 ≤ k) (s : List UInt8) (radix : Nat) (h2 : 2 ≤ radix) (h36 : radix ≤ 36) :
    (∃ x, BInt.fromStrRadix m (8 * k) s radix = .ok x ∧ WF (8 * k) x) ∨ BInt.fromStrRadix m (8 * k) s radix = .err .InvalidInput := by
  unfold BInt.fromStrRadix
  rw [decide_eq_true (⟨h2, h36⟩ : 2 ≤ radix ∧ radix ≤ 36)]
  simp only [dassert_true, Out.bind_ok]
  obtain ⟨x0, e0, d0, _⟩ := zero_spec (ε := ParseIntError) hk
  by_cases hs : s = []
  · subst hs
    exact Or.inl ⟨x0, e0, d0.1⟩
  · simp only [isEmpty_false_of_ne hs, Bool.false_eq_true, if_false]
    generalize splitSign s = sp at *
    obtain ⟨sgn, body⟩ := sp
    by_cases hb : body = []
    · subst hb; exact Or.inr rfl
    · simp only [isEmpty_false_of_ne hb, Bool.false_eq_true, if_false]
      obtain ⟨R, eR, wR, mR, sR⟩ := fromU128_spec (ε := ParseIntError) hk radix (by norm_num; omega) .positive
      have dR : Denotes (8 * k) R radix := ⟨wR, by rw [toInt_pos sR, mR]⟩
      have eR' : (BInt.ofNat (8 * k) radix : Out ParseIntError _) = .ok R := eR
      rw [eR', Out.bind_ok, e0, Out.bind_ok]
      have dz : Denotes (8 * k) x0 ((0 : Nat) : Int) := d0
      rcases digitText_dec (radix + 1) body with ⟨ds, hds, hbd⟩ | ⟨c, hc, hcd⟩
      · obtain ⟨y, ey, dy⟩ := radixLoop_ok m hk dR body ds hds hbd 0 x0 dz
        rw [ey]
        exact Or.inl ⟨_, rfl, wf_sign dy.1 _⟩
      · rw [radixLoop_err m hk dR body ⟨c, hc, fun d hd => hcd d hd⟩ 0 x0 dz]
        exact Or.inr rfl

end LCT.BigInt
