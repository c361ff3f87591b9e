import Verif.Lemmas.TestingTools
import Verif.Props.Defaults
import Verif.Props.WalletClient

/-!
# C93: testing tools and benchmarks

What the random sources of the tests can draw, the padding of hex texts, and when the benchmarks run through.
-/

namespace LCT.Props
open LCT.Spec LCT.Out LCT.BigInt LCT.RandomTests LCT.TestingTools LCT.Crypto LCT.Ethereum LCT.Random LCT.Hash
variable {ε : Type}

/-- C93: the random tests draw exactly the texts that C86 is about, as long as the source admits: a generator of even size (quickcheck's has
100, that of the tests of signing and point encoding 16) always draws a text, and it can draw precisely the non-empty texts of an even number of hex
digits, up to its size. -/
theorem C93_hex_string (size : Nat) (hs : 0 < size) (he : size % 2 = 0) :
    (∀ g, ∃ s, (hexString size g : Out ε _) = .ok s) ∧
    ∀ s, (∃ g, (hexString size g : Out ε _) = .ok s) ↔ DrawnHex s ∧ s.length ≤ size := by
  have run : ∀ v g g', (hexVec size g : Out ε _) = .ok (v, g') → (∀ c ∈ v, c ∈ hexChars) → (hexString size g : Out ε _) = .ok v := by
    intro v g g' e h
    unfold hexString
    simp only [e, bind_ok]
    exact utf8_ascii fun c hc => ascii_of_hex ((mem_hexChars c).mp (h c hc))
  constructor
  · intro g
    obtain ⟨v, g', e, -, -, -, h⟩ := hexVec_ok (ε := ε) hs he g
    exact ⟨v, run v g g' e h⟩
  · intro s
    constructor
    · rintro ⟨g, e⟩
      obtain ⟨v, g', e', h1, h2, h3, h4⟩ := hexVec_ok (ε := ε) hs he g
      rw [run v g g' e' h4] at e
      cases e
      exact ⟨⟨h1, h2, fun c hc => (mem_hexChars c).mp (h4 c hc)⟩, h3⟩
    · rintro ⟨⟨h1, h2, h3⟩, h4⟩
      have hc : ∀ c ∈ s, c ∈ hexChars := fun c hc => (mem_hexChars c).mpr (h3 c hc)
      obtain ⟨g, e⟩ := hexVec_all (ε := ε) s h1 h2 h4 hc fun _ => 0
      exact ⟨g, run s g _ e hc⟩

/-- C93: the same with a sign. -/
theorem C93_signed_hex_string (size : Nat) (hs : 0 < size) (he : size % 2 = 0) :
    (∀ g, ∃ s, (signedHexString size g : Out ε _) = .ok s) ∧
    ∀ s, (∃ g, (signedHexString size g : Out ε _) = .ok s) ↔ DrawnSignedHex s ∧ s.length ≤ size + 1 := by
  have run : ∀ v g g' c, (hexVec size g : Out ε _) = .ok (v, g') → (∀ c ∈ v, c ∈ hexChars) → (choose signChars g').1 = some c → c.toNat < 128 →
      (signedHexString size g : Out ε _) = .ok (c :: v) := by
    intro v g g' c e h hc hlt
    unfold signedHexString
    simp only [e, bind_ok, hc, unwrap]
    refine utf8_ascii fun x hx => ?_
    rcases List.mem_cons.mp hx with rfl | hx
    · exact hlt
    · exact ascii_of_hex ((mem_hexChars x).mp (h x hx))
  have sign : ∀ g : Gen, (choose signChars g).1 = some 43 ∨ (choose signChars g).1 = some 45 := by
    intro g
    show signChars[g 0 % 2]? = _ ∨ signChars[g 0 % 2]? = _
    rcases Nat.mod_two_eq_zero_or_one (g 0) with h | h <;> rw [h]
    · exact .inl rfl
    · exact .inr rfl
  constructor
  · intro g
    obtain ⟨v, g', e, -, -, -, h⟩ := hexVec_ok (ε := ε) hs he g
    rcases sign g' with h' | h'
    · exact ⟨_, run v g g' _ e h h' (by decide)⟩
    · exact ⟨_, run v g g' _ e h h' (by decide)⟩
  · intro s
    constructor
    · rintro ⟨g, e⟩
      obtain ⟨v, g', e', h1, h2, h3, h4⟩ := hexVec_ok (ε := ε) hs he g
      have hd : DrawnHex v := ⟨h1, h2, fun c hc => (mem_hexChars c).mp (h4 c hc)⟩
      rcases sign g' with h' | h'
      · rw [run v g g' _ e' h4 h' (by decide)] at e
        cases e
        exact ⟨⟨v, hd, .inl rfl⟩, by rw [List.length_cons]; omega⟩
      · rw [run v g g' _ e' h4 h' (by decide)] at e
        cases e
        exact ⟨⟨v, hd, .inr rfl⟩, by rw [List.length_cons]; omega⟩
    · rintro ⟨⟨v, ⟨h1, h2, h3⟩, h⟩, h4⟩
      have hc : ∀ c ∈ v, c ∈ hexChars := fun c hc => (mem_hexChars c).mpr (h3 c hc)
      rcases h with rfl | rfl
      · rw [List.length_cons] at h4
        obtain ⟨g, e⟩ := hexVec_all (ε := ε) (size := size) v h1 h2 (by omega) hc fun _ => 0
        exact ⟨g, run v g _ _ e hc rfl (by decide)⟩
      · rw [List.length_cons] at h4
        obtain ⟨g, e⟩ := hexVec_all (ε := ε) (size := size) v h1 h2 (by omega) hc fun _ => 1
        exact ⟨g, run v g _ _ e hc rfl (by decide)⟩

/-- C93: `random_hex(n)` always returns, and it can return precisely the texts of `n` lower-case hex digits. -/
theorem C93_random_hex (n : Nat) : (∀ g, ∃ s, (randomHex n g : Out ε _) = .ok s) ∧
    ∀ s, (∃ g, (randomHex n g : Out ε _) = .ok s) ↔ s.length = n ∧ ∀ c ∈ s, IsHexDigit c ∧ lowerChar c = c := by
  have run : ∀ s g g', (chooseMany lowerHexChars n g : Out ε _) = .ok (s, g') → (∀ c ∈ s, c ∈ lowerHexChars) → (randomHex n g : Out ε _) = .ok s := by
    intro s g g' e h
    unfold randomHex
    simp only [e, bind_ok]
    exact utf8_ascii fun c hc => ascii_of_hex ((mem_lowerHexChars c).mp (h c hc)).1
  constructor
  · intro g
    obtain ⟨s, g', e, -, h⟩ := chooseMany_ok (ε := ε) (show lowerHexChars ≠ [] from nofun) n g
    exact ⟨s, run s g g' e h⟩
  · intro s
    constructor
    · rintro ⟨g, e⟩
      obtain ⟨s', g', e', h1, h2⟩ := chooseMany_ok (ε := ε) (show lowerHexChars ≠ [] from nofun) n g
      rw [run s' g g' e' h2] at e
      cases e
      exact ⟨h1, fun c hc => (mem_lowerHexChars c).mp (h2 c hc)⟩
    · rintro ⟨rfl, h⟩
      have hc : ∀ c ∈ s, c ∈ lowerHexChars := fun c hc => (mem_lowerHexChars c).mpr (h c hc)
      obtain ⟨g, e⟩ := chooseMany_all (ε := ε) s hc fun _ => 0
      exact ⟨g, run s g _ e hc⟩

/-- C93: padding keeps the prefix and the number, and makes the number of digits even; texts that are even already stay as they are. -/
theorem C93_aligned (pre ds : List UInt8) (hpre : pre = [] ∨ pre = [48, 120]) (hd : ∀ c ∈ ds, IsHexDigit c) :
    ∃ ds', byteAlignedHex (pre ++ ds) = pre ++ ds' ∧ ds'.length % 2 = 0 ∧ (∀ c ∈ ds', IsHexDigit c) ∧ hexNumber ds' = hexNumber ds ∧
      (ds.length % 2 = 0 → ds' = ds) := by
  have hp : pre.length % 2 = 0 := by rcases hpre with rfl | rfl <;> rfl
  unfold byteAlignedHex
  by_cases he : ds.length % 2 = 0
  · rw [if_pos (by rw [List.length_append]; omega)]
    exact ⟨ds, rfl, he, hd, rfl, fun _ => rfl⟩
  · rw [if_neg (by rw [List.length_append]; omega)]
    refine ⟨48 :: ds, ?_, by rw [List.length_cons]; omega, ?_, ?_, fun h => absurd h he⟩
    · rcases hpre with rfl | rfl
      · rw [if_neg]
        · rfl
        · rintro ⟨t, ht⟩
          have : (120 : UInt8) ∈ ds := by rw [← List.nil_append ds, ← ht]; simp
          exact absurd (hd _ this) (by decide)
      · rw [if_pos ⟨ds, rfl⟩]
        rfl
    · intro c hc
      rcases List.mem_cons.mp hc with rfl | hc
      · decide
      · exact hd c hc
    · unfold hexNumber
      rw [List.foldl_cons]
      rfl

/-- C93: so every text `0x…` of any number of hex digits is an amount of Wei after padding (without, this holds for even numbers of digits only). -/
theorem C93_aligned_wei (m : Build) (w : Nat) [DigitWidth w] (ds : List UInt8) (hd : ∀ c ∈ ds, IsHexDigit c) :
    (Wei.tryFromStr m w (byteAlignedHex (48 :: 120 :: ds))).Yields (Denotes w · (hexNumber ds : Nat)) ∧
    (ds.length % 2 = 1 → ∃ e, Wei.tryFromStr m w (48 :: 120 :: ds) = .err e) := by
  obtain ⟨k, hk, rfl⟩ := ‹DigitWidth w›.bytes
  constructor
  · obtain ⟨ds', e, h1, h2, h3, -⟩ := C93_aligned [48, 120] ds (.inr rfl) hd
    have e' : byteAlignedHex (48 :: 120 :: ds) = 48 :: 120 :: ds' := e
    rw [e']
    refine (C58_accepts_iff m k hk _ _).mpr (.inl ⟨ds', rfl, ?_⟩)
    by_cases h0 : ds' = []
    · exact .inl ⟨h0, by rw [← h3, h0]; rfl⟩
    · refine .inr ⟨by rw [← h3]; exact numeral_of_hex ⟨h0, h1, h2⟩, fun h => ?_⟩
      cases ds' with
      | nil => cases h
      | cons c cs =>
        cases (Option.some.inj h : c = 45)
        exact absurd (h2 45 List.mem_cons_self) (by decide)
  · intro hodd
    rcases wei_wf m hk (48 :: 120 :: ds) with ⟨x, e, hx⟩ | h
    · rcases (C58_accepts_iff m k hk _ _).mp ⟨x, e, hx, rfl⟩ with ⟨t, ht, h⟩ | ⟨h, -⟩ | ⟨pre, body, ds', sg, h, hsg, hdt, -⟩
      · cases ht
        rcases h with ⟨rfl, -⟩ | ⟨⟨pre, body, ds', sg, rfl, hsg, -, h2, -⟩, -⟩
        · cases hodd
        · cases hsg with
          | none => rw [List.nil_append] at hodd; omega
          | plus => exact absurd (hd 43 (by simp)) (by decide)
          | minus => exact absurd (hd 45 (by simp)) (by decide)
      · cases h
      · cases hsg with
        | none =>
          rw [List.nil_append] at h
          subst h
          have h1 := hdt.2.1
          rw [List.map_cons, List.map_cons] at h1
          obtain _ | ⟨d1, _ | ⟨d2, dr⟩⟩ := ds'
          · cases h1
          · cases h1
          · rw [List.map_cons, List.map_cons] at h1
            injection h1 with _ h1
            injection h1 with h1 _
            have := hdt.2.2 d2 (by simp)
            rw [show digitVal 120 = some 33 by decide] at h1
            cases h1
            omega
        | plus => cases h
        | minus => cases h
    · exact h

example : byteAlignedHex [48, 120, 49] = [48, 120, 48, 49] ∧ byteAlignedHex [122, 122, 122] = [48, 122, 122, 122] ∧ byteAlignedHex [48, 48] = [48, 48] := by
  decide

end LCT.Props
