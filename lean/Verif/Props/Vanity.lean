import Verif.Lemmas.Vanity
import Verif.Props.Published
import Verif.Props.Random

/-!
# The search for an address and the random bytes: C65, C66

`clock i` and `random i` are what the clocks and the operating system say in round `i`: the clocks `some s`, if a report is due `s` seconds after
the start.  The search has no bound; `fuel` is the number of rounds after which we stop watching it, with the result `hang`.
-/

namespace LCT.Props
open LCT.BigInt LCT.Codecs LCT.Spec LCT.Spec.Eth LCT.Out LCT.Random LCT.Ethereum LCT.Examples
variable {ε : Type} (m : Build) (w : Nat) [DigitWidth w]

/-! ## C65 -/

/-- C65: without an argument, and for an argument that is empty, longer than 39 characters or contains anything other than hex digits, the
program panics at once. -/
theorem C65_rejects (fuel : Nat) (clock : Nat → Option Nat) (random : Nat → Out RandomError (List UInt8)) (arg : Option (List UInt8))
    (h : ∀ pre, arg = some pre → pre = [] ∨ 40 ≤ pre.length ∨ ∃ c ∈ pre, ¬ IsHexDigit c) :
    (vanityAddress m w fuel clock random arg : Out ε _) = .panic := by
  cases arg with
  | none => rfl
  | some pre =>
    unfold vanityAddress
    rw [unwrap_some, bind_ok]
    have hh := h pre rfl
    by_cases h1 : pre = [] ∨ 40 ≤ pre.length
    · have : (!pre.isEmpty && decide (pre.length < 40)) = false := by
        rcases h1 with rfl | h1
        · rfl
        · rw [decide_eq_false (by omega), Bool.and_false]
      rw [this]
      rfl
    · rw [not_or] at h1
      rcases hh with hh | hh | ⟨c, hc, hn⟩
      · exact absurd hh h1.1
      · exact absurd hh h1.2
      · have e1 : (!pre.isEmpty && decide (pre.length < 40)) = true := by
          simp [h1.1]; omega
        have e2 := Bool.eq_false_iff.mpr fun h => hn ((hex_test pre).mp h c hc)
        rw [e1, e2]
        rfl

theorem vanity_start (fuel : Nat) (clock : Nat → Option Nat) (random : Nat → Out RandomError (List UInt8)) (pre : List UInt8)
    (h1 : pre ≠ []) (h2 : pre.length < 40) (h3 : ∀ c ∈ pre, IsHexDigit c) :
    (vanityAddress m w fuel clock random (some pre) : Out ε _) =
      (pow32 m pre.length).bind fun estimate => vanityLoop m w clock random pre estimate fuel 0 [] := by
  unfold vanityAddress
  rw [unwrap_some, bind_ok, (hex_test pre).mpr h3, show (!pre.isEmpty && decide (pre.length < 40)) = true by simp [h1, h2]]
  rfl

/-- In round `i` the operating system returned a private key whose address does not begin with the prefix. -/
def Misses (random : Nat → Out RandomError (List UInt8)) (pre : List UInt8) (i : Nat) : Prop :=
  ∃ key, random i = .ok key ∧ IsPrivateKey key ∧ ¬ pre <+: keyAddressText key

section
variable (fuel : Nat) (hfuel : fuel * 100 < 2 ^ 64) (clock : Nat → Option Nat) (hclock : ∀ i s, clock i = some s → 0 < s)
  (random : Nat → Out RandomError (List UInt8)) (pre : List UInt8) (h1 : pre ≠ []) (h3 : ∀ c ∈ pre, IsHexDigit c)
include hfuel hclock h1 h3

/-- C65, for prefixes of up to 12 digits: the search ends, having printed `out`, exactly if in some round `k` the operating system returned a
private key whose address (with its checksum) begins with the prefix, in no earlier round did, and `out` is made of the reports due and the
address and the key found.  Missing: longer prefixes (see `C65_long_prefix_violated`). -/
theorem C65_finds_iff_partial (h2 : pre.length ≤ 12) (out : List UInt8) :
    (vanityAddress m w fuel clock random (some pre) : Out ε _) = .ok out ↔
      ∃ k key, k < fuel ∧ (∀ i, 0 < i → i ≤ k → Misses random pre i) ∧ random (k + 1) = .ok key ∧ IsPrivateKey key ∧
        pre <+: keyAddressText key ∧
        out = ((List.range (k + 1)).flatMap fun i => progressText (32 ^ pre.length) (i + 1) (clock (i + 1))) ++ foundText key := by
  have he : 32 ^ pre.length ≠ 0 := Nat.ne_of_gt (Nat.pow_pos (by decide))
  rw [vanity_start m w fuel clock random pre h1 (by omega) h3, pow32_small m h2]
  generalize 32 ^ pre.length = estimate at he ⊢
  show vanityLoop m w clock random pre estimate fuel 0 [] = _ ↔ _
  have hrep : ∀ k, ((List.range (k + 1)).flatMap fun i => progressText (estimate) (i + 1) (clock (i + 1))) =
      reports (estimate) clock 0 (k + 1) := by
    intro k
    rw [reports_eq]
    simp only [Nat.zero_add]
  constructor
  · intro h
    obtain ⟨k, key, a1, a2, a3, a4, a5, a6⟩ := loop_sound m w clock random pre _ he fuel 0 [] out (by omega) hclock h
    rw [Nat.zero_add] at a2 a3
    exact ⟨k, key, a1, a2, a3, a4, a5, by rw [a6, hrep]; rfl⟩
  · rintro ⟨k, key, a1, a2, a3, a4, a5, rfl⟩
    obtain ⟨f, rfl⟩ := Nat.exists_eq_add_of_lt a1
    have hk : (k + 1) * 100 < 2 ^ 64 := Nat.lt_of_le_of_lt (Nat.mul_le_mul_right 100 (by omega)) hfuel
    have hr := report_eq (ε := ε) m estimate (k + 1) (clock (k + 1)) he (fun s => hclock _ s) hk
    rw [show k + f + 1 = (f + 1) + k by omega,
      loop_skip m w clock random pre estimate he k (f + 1) 0 [] (by omega) (fun i s _ _ => hclock i s) (fun i a b => a2 i a (by omega)),
      Nat.zero_add, loop_step m w clock random pre estimate f k _ _ key (by omega) hr a3 a4, if_pos a5, List.nil_append, hrep]
    have : reports (estimate) clock 0 (k + 1) =
        reports (estimate) clock 0 k ++ progressText (estimate) (k + 1) (clock (k + 1)) := by
      rw [reports_eq, reports_eq, List.range_succ, List.flatMap_append]
      simp
    rw [this]

/-- C65: while there is no such key, a search for up to 12 digits goes on. -/
theorem C65_goes_on_partial (h2 : pre.length ≤ 12) (h : ∀ i, 0 < i → i ≤ fuel → Misses random pre i) :
    (vanityAddress m w fuel clock random (some pre) : Out ε _) = .hang := by
  have he : 32 ^ pre.length ≠ 0 := Nat.ne_of_gt (Nat.pow_pos (by decide))
  rw [vanity_start m w fuel clock random pre h1 (by omega) h3, pow32_small m h2]
  generalize 32 ^ pre.length = estimate at he ⊢
  show vanityLoop m w clock random pre estimate fuel 0 [] = _
  have e := loop_skip (ε := ε) m w clock random pre _ he fuel 0 0 [] (by omega) (fun i s _ _ => hclock i s) (fun i a b => h i a (by omega))
  rw [Nat.zero_add] at e
  rw [e]
  rfl

/-- C65: the program panics if the operating system fails, or returns something else than a private key, before such a key was found. -/
theorem C65_bad_key (h2 : pre.length ≤ 12) (k : Nat) (hk : k < fuel) (h : ∀ i, 0 < i → i ≤ k → Misses random pre i)
    (hbad : (∃ e, random (k + 1) = .err e) ∨ ∃ key, random (k + 1) = .ok key ∧ ¬ IsPrivateKey key) :
    (vanityAddress m w fuel clock random (some pre) : Out ε _) = .panic := by
  have he : 32 ^ pre.length ≠ 0 := Nat.ne_of_gt (Nat.pow_pos (by decide))
  rw [vanity_start m w fuel clock random pre h1 (by omega) h3, pow32_small m h2]
  generalize 32 ^ pre.length = estimate at he ⊢
  show vanityLoop m w clock random pre estimate fuel 0 [] = _
  obtain ⟨f, rfl⟩ := Nat.exists_eq_add_of_lt hk
  have hk' : (k + 1) * 100 < 2 ^ 64 := Nat.lt_of_le_of_lt (Nat.mul_le_mul_right 100 (by omega)) hfuel
  have hr := report_eq (ε := ε) m estimate (k + 1) (clock (k + 1)) he (fun s => hclock _ s) hk'
  rw [show k + f + 1 = (f + 1) + k by omega,
    loop_skip m w clock random pre estimate he k (f + 1) 0 [] (by omega) (fun i s _ _ => hclock i s) (fun i a b => h i a (by omega)), Nat.zero_add,
    loop_bad m w clock random pre estimate f k _ _ (by omega) hr hbad]

end

/-- C65 (negation): with 13 digits or more a debug build never searches, it panics whatever the keys are; and a release build panics in the
first round in which a report is due, whatever the key of that round is. -/
theorem C65_long_prefix_violated (fuel : Nat) (hfuel : fuel < 2 ^ 64) (clock : Nat → Option Nat)
    (random : Nat → Out RandomError (List UInt8)) (pre : List UInt8) (h2 : 13 ≤ pre.length) (h2' : pre.length < 40)
    (h3 : ∀ c ∈ pre, IsHexDigit c) :
    (vanityAddress .debug w fuel clock random (some pre) : Out ε _) = .panic ∧
    ∀ k s, k < fuel → (∀ i, 0 < i → i ≤ k → clock i = none ∧ Misses random pre i) → clock (k + 1) = some s →
      (vanityAddress .release w fuel clock random (some pre) : Out ε _) = .panic := by
  have h1 : pre ≠ [] := by rintro rfl; simp at h2
  constructor
  · rw [vanity_start .debug w fuel clock random pre h1 h2' h3, pow32_large .debug h2]
    rfl
  · intro k s hk hmiss hc
    rw [vanity_start .release w fuel clock random pre h1 h2' h3, pow32_large .release h2]
    show vanityLoop .release w clock random pre 0 fuel 0 [] = _
    obtain ⟨f, rfl⟩ := Nat.exists_eq_add_of_lt hk
    rw [show k + f + 1 = (f + 1) + k by omega, loop_skip_silent .release w clock random pre 0 k (f + 1) 0 [] (by omega)
      (fun i a b => (hmiss i a (by omega)).1) (fun i a b => (hmiss i a (by omega)).2), Nat.zero_add, vanityLoop]
    simp only [addU64, if_pos (show k + 1 < 2 ^ 64 by omega), bind_ok, hc, vanityReport, mulU64]
    split <;> rfl

/-! The first key is that of EIP-155, the second the number 1; a report is due in the second round.  The address of the key 1 begins with
`7E5`. -/

namespace Vanity

theorem address_of (key : List UInt8) (x y : Nat) (a t : List UInt8)
    (h : Certify.mul Secp256k1.p 0 (Secp256k1.gx, Secp256k1.gy) 257 (ofBE key) = some (x, y)) (hx : x < Secp256k1.p) (hy : y < Secp256k1.p)
    (ha : addressOf Published.kec x y = a) (ht : eip55 Published.kec a = t) : keyAddressText key = t := by
  have hA : ((0 : Int) : ZMod Secp256k1.p) = ((0 : Nat) : ZMod Secp256k1.p) := by simp
  have hg : Certify.Is LCT.Secp256k1.G (Secp256k1.gx, Secp256k1.gy) := ⟨LCT.Secp256k1.base_nonsingular, rfl⟩
  obtain ⟨_, e⟩ := Certify.mul_is hA hg 257 (ofBE key) (x, y) h
  have ex : xCoord (ofBE key • LCT.Secp256k1.G) = x := by rw [e]; exact ZMod.val_cast_of_lt hx
  have ey : yCoord (ofBE key • LCT.Secp256k1.G) = y := by rw [e]; exact ZMod.val_cast_of_lt hy
  unfold keyAddressText
  rw [ex, ey, Published.kec_eq, ha, ht]

set_option maxRecDepth 100000 in
theorem text_one : keyAddressText (List.replicate 31 0 ++ [1]) = ascii "7E5F4552091A69125d5DfCb7b8C2659029395Bdf" :=
  address_of _ Secp256k1.gx Secp256k1.gy (octets 20 0x7E5F4552091A69125d5DfCb7b8C2659029395Bdf) _ (by decide +kernel) (by decide +kernel)
    (by decide +kernel) (by decide +kernel) (by decide +kernel)

set_option maxRecDepth 100000 in
theorem text_published : keyAddressText (List.replicate 32 0x46) = ascii "9d8A62f656a8d1615C1294fd71e9CFb3E4855A4F" :=
  address_of _ 0x4bc2a31265153f07e70e0bab08724e6b85e217f8cd628ceb62974247bb493382
    0xce28cab79ad7119ee1ad3ebcdb98a16805211530ecc6cfefa1b88e6dff99232a (octets 20 0x9d8A62f656a8d1615C1294fd71e9CFb3E4855A4F) _
    (by decide +kernel) (by decide +kernel) (by decide +kernel) (by decide +kernel) (by decide +kernel)

def random (i : Nat) : Out RandomError (List UInt8) := .ok (if i = 2 then List.replicate 31 0 ++ [1] else List.replicate 32 0x46)
def clock (i : Nat) : Option Nat := if i = 2 then some 4 else none

theorem misses : Misses random (ascii "7E5") 1 :=
  ⟨_, rfl, ⟨by decide, by decide +kernel, by decide +kernel⟩, by rw [if_neg (by decide), text_published]; decide +kernel⟩

end Vanity

example : (vanityAddress m w 10 Vanity.clock Vanity.random (some (ascii "7E5")) : Out ε _) = .ok (unlines [
    ascii "> 2, 0%, 0/s",
    ascii "=====================",
    ascii "Vanity Address Found!",
    ascii "=====================",
    ascii "public address: 0x7E5F4552091A69125d5DfCb7b8C2659029395Bdf",
    ascii "private key: 0x0000000000000000000000000000000000000000000000000000000000000001"]) := by
  refine (C65_finds_iff_partial m w 10 (by decide) Vanity.clock ?_ Vanity.random (ascii "7E5") (by decide +kernel) (by decide +kernel)
    (by decide +kernel) _).mpr ⟨1, List.replicate 31 0 ++ [1], by decide, ?_, rfl, ⟨by decide, by decide +kernel, by decide +kernel⟩, ?_, ?_⟩
  · intro i s h
    unfold Vanity.clock at h
    split at h
    · cases h; decide
    · cases h
  · intro i h1 h2
    obtain rfl : i = 1 := by omega
    exact Vanity.misses
  · rw [Vanity.text_one]; decide +kernel
  · rw [foundText, Vanity.text_one]; decide +kernel

/-! A prefix of 13 digits. -/

example : 13 ≤ (ascii "00000000000000").length ∧ (ascii "00000000000000").length < 40 ∧ ∀ c ∈ ascii "00000000000000", IsHexDigit c := by
  decide +kernel

/-! ## C66 -/

/-- The text is an optional `+` followed by at least one decimal digit, and denotes `n`. -/
def UnsignedNumeral (s : List UInt8) (n : Nat) : Prop :=
  ∃ body ds, (s = body ∨ s = 43 :: body) ∧ DigitText 10 body ds ∧ n = horner 10 ds

theorem decimal_digit (c : UInt8) : (48 ≤ c ∧ c ≤ 57) ↔ ∃ d, digitVal c = some d ∧ d < 10 := by
  unfold digitVal
  simp only [UInt8.le_iff_toNat_le]
  have h1 : (48 : UInt8).toNat = 48 := rfl
  have h2 : (57 : UInt8).toNat = 57 := rfl
  rw [h1, h2]
  constructor
  · intro h
    rw [if_pos h]
    exact ⟨_, rfl, by omega⟩
  · rintro ⟨d, h, hd⟩
    split at h
    · assumption
    · split at h
      · cases h; omega
      · split at h
        · cases h; omega
        · cases h

theorem digitText_iff (body : List UInt8) :
    (∃ ds, DigitText 10 body ds ∧ horner 10 ds = body.foldl (fun acc c => acc * 10 + (c.toNat - 48)) 0) ↔
      body ≠ [] ∧ ∀ c ∈ body, 48 ≤ c ∧ c ≤ 57 := by
  constructor
  · rintro ⟨ds, ⟨h1, h2, h3⟩, -⟩
    refine ⟨h1, fun c hc => (decimal_digit c).mpr ?_⟩
    have : digitVal c ∈ ds.map some := h2 ▸ List.mem_map_of_mem hc
    obtain ⟨d, hd, e⟩ := List.mem_map.mp this
    exact ⟨d, e.symm, h3 d hd⟩
  · rintro ⟨h1, h2⟩
    have hv : ∀ c ∈ body, digitVal c = some (c.toNat - 48) := by
      intro c hc
      have := h2 c hc
      simp only [UInt8.le_iff_toNat_le] at this
      exact if_pos this
    refine ⟨body.map fun c => c.toNat - 48, ⟨h1, ?_, ?_⟩, ?_⟩
    · rw [List.map_map]
      exact List.map_congr_left hv
    · intro d hd
      obtain ⟨c, hc, rfl⟩ := List.mem_map.mp hd
      have := h2 c hc
      simp only [UInt8.le_iff_toNat_le] at this
      have h3 : (57 : UInt8).toNat = 57 := rfl
      omega
    · rw [horner, List.foldl_map]

theorem digitText_unique {body : List UInt8} {ds ds' : List Nat} (h : DigitText 10 body ds) (h' : DigitText 10 body ds') : ds = ds' := by
  have := h.2.1.symm.trans h'.2.1
  exact List.map_injective_iff.mpr (Option.some_injective _) this

/-- The standard library's parser. -/
theorem parseU32_iff (s : List UInt8) (n : Nat) : parseU32 s = some n ↔ UnsignedNumeral s n ∧ n < 2 ^ 32 := by
  have key : ∀ body : List UInt8,
      (if body.isEmpty then none
        else if body.all fun c => decide (48 ≤ c ∧ c ≤ 57) then
          let n := body.foldl (fun acc c => acc * 10 + (c.toNat - 48)) 0
          if n < 2 ^ 32 then some n else none
        else none) = some n ↔ (∃ ds, DigitText 10 body ds ∧ n = horner 10 ds) ∧ n < 2 ^ 32 := by
    intro body
    constructor
    · intro h
      split at h
      · cases h
      · rename_i h1
        split at h
        · rename_i h2
          simp only at h
          split at h
          · rename_i h3
            cases h
            obtain ⟨ds, hd, e⟩ := (digitText_iff body).mpr ⟨by simpa using h1, by simpa using h2⟩
            exact ⟨⟨ds, hd, e.symm⟩, h3⟩
          · cases h
        · cases h
    · rintro ⟨⟨ds, hd, rfl⟩, hlt⟩
      obtain ⟨h1, h2⟩ : body ≠ [] ∧ ∀ c ∈ body, 48 ≤ c ∧ c ≤ 57 := by
        refine ⟨hd.1, fun c hc => (decimal_digit c).mpr ?_⟩
        have : digitVal c ∈ ds.map some := hd.2.1 ▸ List.mem_map_of_mem hc
        obtain ⟨d, hd', e⟩ := List.mem_map.mp this
        exact ⟨d, e.symm, hd.2.2 d hd'⟩
      obtain ⟨ds', hd', e⟩ := (digitText_iff body).mpr ⟨h1, h2⟩
      cases digitText_unique hd hd'
      rw [if_neg (by simpa using h1), if_pos (by simpa using h2)]
      simp only
      rw [← e, if_pos hlt]
  have hplus : ∀ body : List UInt8, ∀ ds, ¬ DigitText 10 (43 :: body) ds := by
    intro body ds h
    have : digitVal 43 ∈ ds.map some := h.2.1 ▸ List.mem_map_of_mem List.mem_cons_self
    obtain ⟨d, -, e⟩ := List.mem_map.mp this
    cases e
  unfold parseU32 UnsignedNumeral
  split
  · rename_i rest
    rw [key rest]
    constructor
    · rintro ⟨⟨ds, h, e⟩, hl⟩
      exact ⟨⟨rest, ds, .inr rfl, h, e⟩, hl⟩
    · rintro ⟨⟨body, ds, h | h, hd, e⟩, hl⟩
      · subst h; exact absurd hd (hplus _ _)
      · cases h; exact ⟨⟨ds, hd, e⟩, hl⟩
  · rename_i hs
    rw [key s]
    constructor
    · rintro ⟨⟨ds, h, e⟩, hl⟩
      exact ⟨⟨s, ds, .inl rfl, h, e⟩, hl⟩
    · rintro ⟨⟨body, ds, h | h, hd, e⟩, hl⟩
      · subst h; exact ⟨⟨ds, hd, e⟩, hl⟩
      · exact absurd h (hs body)

/-- The text of an error of the operating system. -/
def errorText : RandomError → List UInt8
  | .AppleSecRandom status => ascii "SecRandomCopyBytes failed with status " ++ decimal status
  | .LinuxGetRandom errno => ascii "getrandom failed with errno " ++ decimal errno
  | .LinuxGetRandomCopiedNumberLessThanRequested => ascii "getrandom failed: the number of bytes copied is less than the number requested"
  | .WindowsBCryptGenRandom status => ascii "BCryptGenRandom failed with status " ++ numeral 10 status.toNat
where decimal (z : Int) : List UInt8 := if z < 0 then ascii "-" ++ numeral 10 z.natAbs else numeral 10 z.natAbs

theorem message_eq (e : RandomError) : randomMessage e = errorText e := by
  have hi : ∀ z, intText z = errorText.decimal z := by
    intro z
    unfold intText errorText.decimal
    rw [decimalText_eq]
    rfl
  cases e <;> simp only [randomMessage, errorText, lit_eq, hi, decimalText_eq]

/-- C66: on Linux, given a decimal numeral below 2^32, the program prints on one line the lower-case hex digits of exactly that many bytes,
which are those that the kernel wrote, or the error of the first call that failed. -/
theorem C66_prints (os : Linux) (hos : ∀ j len, GetrandomContract len (os j len)) (arg : List UInt8) (n : Nat) (hn : UnsignedNumeral arg n)
    (hlt : n < 2 ^ 32) :
    ((∀ c ∈ (askedFor n).zipIdx, (os c.2 c.1).ret = c.1) ∧ ∃ bytes : List UInt8, bytes.length = n ∧
      bytes = ((askedFor n).zipIdx).flatMap (fun c => (os c.2 c.1).written) ∧
      (randomBytes (getRandomLinux os) (some arg) : Out ε _) = .ok (hexOf bytes ++ [10])) ∨
    (∃ k piece, (askedFor n)[k]? = some piece ∧ (∀ j p, j < k → (askedFor n)[j]? = some p → (os j p).ret = p) ∧ (os k piece).ret ≠ piece ∧
      (randomBytes (getRandomLinux os) (some arg) : Out ε _) = .ok (ascii "Error: " ++ errorText
        (if (os k piece).ret = -1 then .LinuxGetRandom (os k piece).errno else .LinuxGetRandomCopiedNumberLessThanRequested) ++ [10])) := by
  have hp := (parseU32_iff arg n).mpr ⟨hn, hlt⟩
  by_cases hall : ∀ c ∈ (askedFor n).zipIdx, (os c.2 c.1).ret = c.1
  · obtain ⟨out, e⟩ := (C52_linux_total os hos n).2 hall
    obtain ⟨h1, h2, -⟩ := C52_linux_ok os hos n out e
    refine .inl ⟨hall, out, h2, h1, ?_⟩
    unfold randomBytes
    rw [unwrap_some, bind_ok, hp, unwrap_some, bind_ok, e]
    simp only [bytesToLowerHex_eq]
    rfl
  · right
    have hex : ∃ k, ∃ piece, (askedFor n)[k]? = some piece ∧ (os k piece).ret ≠ piece := by
      simp only [not_forall] at hall
      obtain ⟨⟨p, k⟩, hm, hne⟩ := hall
      exact ⟨k, p, by simpa using (List.mem_zipIdx_iff_getElem?.mp hm), hne⟩
    classical
    obtain ⟨piece, h1, h2⟩ := Nat.find_spec hex
    have hmin : ∀ j p, j < Nat.find hex → (askedFor n)[j]? = some p → (os j p).ret = p := by
      intro j p hj hjp
      exact Classical.byContradiction fun hne => Nat.find_min hex hj ⟨p, hjp, hne⟩
    generalize Nat.find hex = k at h1 h2 hmin
    refine ⟨k, piece, h1, hmin, h2, ?_⟩
    have e := C52_linux_error os hos n k piece h1 hmin h2
    unfold randomBytes
    rw [unwrap_some, bind_ok, hp, unwrap_some, bind_ok, e]
    by_cases hr : (os k piece).ret = -1
    · simp only [if_pos hr, lit_eq, message_eq]
      rfl
    · simp only [if_neg hr, lit_eq, message_eq]
      rfl

/-- C66: the program panics without an argument, and if the argument is not a decimal numeral below 2^32. -/
theorem C66_panics (random : Nat → Out RandomError (List UInt8)) (arg : Option (List UInt8))
    (h : ∀ a n, arg = some a → UnsignedNumeral a n → 2 ^ 32 ≤ n) : (randomBytes random arg : Out ε _) = .panic := by
  cases arg with
  | none => rfl
  | some a =>
    unfold randomBytes
    rw [unwrap_some, bind_ok]
    cases e : parseU32 a with
    | none => rfl
    | some n =>
      obtain ⟨h1, h2⟩ := (parseU32_iff a n).mp e
      exact absurd h2 (Nat.not_lt.mpr (h a n rfl h1))

/-! The argument `+300`, for which the kernel is called twice. -/

example : UnsignedNumeral (ascii "+300") 300 ∧ askedFor 300 = [256, 44] :=
  ⟨⟨ascii "300", [3, 0, 0], .inr (by decide +kernel), ⟨by decide +kernel, by decide +kernel, by decide⟩, rfl⟩, by decide +kernel⟩

end LCT.Props
