import Verif.Lemmas.Programs
import Verif.Props.Accounts

/-!
# Lemmas about the search for an address
-/

namespace LCT.Examples
open LCT.BigInt LCT.Codecs LCT.Spec LCT.Spec.Eth LCT.Out LCT.Random LCT.Ethereum LCT.Props
variable {ε : Type} (m : Build) (w : Nat) [DigitWidth w]

theorem checksummed_eq (a : Address) : (a.toChecksummedHex m : Out ε _) = .ok (eip55 Sha3.keccak256 a.data) := by
  have h := display_eq (ε := ε) m a
  unfold Address.display at h
  obtain ⟨hex, e, h⟩ := bind_eq_ok.mp h
  cases h
  exact e

theorem report_none (estimate count : Nat) : (vanityReport m estimate count none : Out ε _) = .ok (progressText estimate count none) := rfl

theorem report_eq (estimate count : Nat) (clock : Option Nat) (he : estimate ≠ 0) (hc : ∀ s, clock = some s → 0 < s) (hm : count * 100 < 2 ^ 64) :
    (vanityReport m estimate count clock : Out ε _) = .ok (progressText estimate count clock) := by
  cases clock with
  | none => rfl
  | some s =>
    have hs := hc s rfl
    simp only [vanityReport, mulU64, if_pos hm, divU64, if_neg he, if_neg (Nat.ne_of_gt hs), bind_ok, pure_def, progressText, writeln, lit_eq,
      decimalText_eq, unlines, List.flatMap_cons, List.flatMap_nil, List.append_nil]

/-- One round with a valid key. -/
theorem loop_step (clock : Nat → Option Nat) (random : Nat → Out RandomError (List UInt8)) (pre : List UInt8) (estimate fuel count : Nat)
    (printed report key : List UInt8) (hc : count + 1 < 2 ^ 64) (hr : (vanityReport m estimate (count + 1) (clock (count + 1)) : Out ε _) = .ok report)
    (hk : random (count + 1) = .ok key) (hkey : IsPrivateKey key) :
    (vanityLoop m w clock random pre estimate (fuel + 1) count printed : Out ε _) =
      if pre <+: keyAddressText key then .ok (printed ++ report ++ foundText key)
      else vanityLoop m w clock random pre estimate fuel (count + 1) (printed ++ report) := by
  obtain ⟨hlen, h0, hn⟩ := hkey
  obtain ⟨k, ek, hsome, -⟩ := C47_private_key (ε := ε) m w key hlen
  obtain ⟨sk, rfl⟩ := Option.isSome_iff_exists.mp (hsome.mpr ⟨h0, hn⟩)
  obtain ⟨pk, a, e3, e4, e5⟩ := C47_address m w key hlen sk ek
  have e6 : (a.toChecksummedHex m : Out ε _) = .ok (keyAddressText key) := by rw [checksummed_eq, e5]; rfl
  rw [vanityLoop]
  simp only [addU64, if_pos hc, bind_ok, hr, hk, expect, hlen, dite_true, ek, unwrap_some, e3, e4, e6, List.isPrefixOf_iff_prefix]
  by_cases hp : pre <+: keyAddressText key
  · rw [if_pos hp, if_neg (not_not.mpr hp)]
    simp only [pure_def, foundText, unlines, writeln, lit_eq, bytesToLowerHex_eq, List.flatMap_cons, List.flatMap_nil, List.append_assoc,
      List.append_nil]
  · rw [if_neg hp, if_pos hp]

/-- The progress reports of the rounds `count + 1` to `count + k`. -/
def reports (estimate : Nat) (clock : Nat → Option Nat) (count : Nat) : Nat → List UInt8
  | 0 => []
  | k + 1 => progressText estimate (count + 1) (clock (count + 1)) ++ reports estimate clock (count + 1) k

theorem reports_eq (estimate : Nat) (clock : Nat → Option Nat) (count k : Nat) :
    reports estimate clock count k = (List.range k).flatMap fun i => progressText estimate (count + i + 1) (clock (count + i + 1)) := by
  induction k generalizing count with
  | zero => rfl
  | succ k ih =>
    rw [reports, ih, List.range_succ_eq_map, List.flatMap_cons, List.flatMap_map]
    simp only [Nat.add_zero, Nat.succ_eq_add_one]
    congr 1
    refine List.flatMap_congr fun i _ => ?_
    rw [show count + 1 + i + 1 = count + (i + 1) + 1 by omega]

/-- The rounds before the key is found. -/
theorem loop_skip (clock : Nat → Option Nat) (random : Nat → Out RandomError (List UInt8)) (pre : List UInt8) (estimate : Nat) (he : estimate ≠ 0) :
    ∀ (k fuel count : Nat) (printed : List UInt8), (count + k) * 100 < 2 ^ 64 →
      (∀ i s, count < i → i ≤ count + k → clock i = some s → 0 < s) →
      (∀ i, count < i → i ≤ count + k → ∃ key, random i = .ok key ∧ IsPrivateKey key ∧ ¬ pre <+: keyAddressText key) →
      (vanityLoop m w clock random pre estimate (fuel + k) count printed : Out ε _) =
        vanityLoop m w clock random pre estimate fuel (count + k) (printed ++ reports estimate clock count k) := by
  intro k
  induction k with
  | zero => intro fuel count printed _ _ _; simp [reports]
  | succ k ih =>
    intro fuel count printed hm hc hk
    obtain ⟨key, h1, h2, h3⟩ := hk (count + 1) (by omega) (by omega)
    rw [← Nat.add_assoc, loop_step m w clock random pre estimate (fuel + k) count printed _ key (by omega)
      (report_eq m estimate (count + 1) _ he (fun s hs => hc _ s (by omega) (by omega) hs) (by omega)) h1 h2, if_neg h3,
      ih fuel (count + 1) _ (by omega) (fun i s hi hj => hc i s (by omega) (by omega)) (fun i hi hj => hk i (by omega) (by omega)), reports,
      List.append_assoc, show count + 1 + k = count + (k + 1) by omega]

/-- The same when no report is due. -/
theorem loop_skip_silent (clock : Nat → Option Nat) (random : Nat → Out RandomError (List UInt8)) (pre : List UInt8) (estimate : Nat) :
    ∀ (k fuel count : Nat) (printed : List UInt8), count + k < 2 ^ 64 → (∀ i, count < i → i ≤ count + k → clock i = none) →
      (∀ i, count < i → i ≤ count + k → ∃ key, random i = .ok key ∧ IsPrivateKey key ∧ ¬ pre <+: keyAddressText key) →
      (vanityLoop m w clock random pre estimate (fuel + k) count printed : Out ε _) =
        vanityLoop m w clock random pre estimate fuel (count + k) printed := by
  intro k
  induction k with
  | zero => intro fuel count printed _ _ _; rfl
  | succ k ih =>
    intro fuel count printed hm hc hk
    obtain ⟨key, h1, h2, h3⟩ := hk (count + 1) (by omega) (by omega)
    rw [← Nat.add_assoc, loop_step m w clock random pre estimate (fuel + k) count printed [] key (by omega)
      (by rw [hc (count + 1) (by omega) (by omega)]; rfl) h1 h2, if_neg h3,
      ih fuel (count + 1) _ (by omega) (fun i hi hj => hc i (by omega) (by omega)) (fun i hi hj => hk i (by omega) (by omega)),
      List.append_nil, show count + 1 + k = count + (k + 1) by omega]

/-- A round without a usable key. -/
theorem loop_bad (clock : Nat → Option Nat) (random : Nat → Out RandomError (List UInt8)) (pre : List UInt8) (estimate fuel count : Nat)
    (printed report : List UInt8) (hc : count + 1 < 2 ^ 64) (hr : (vanityReport m estimate (count + 1) (clock (count + 1)) : Out ε _) = .ok report)
    (hk : (∃ e, random (count + 1) = .err e) ∨ ∃ key, random (count + 1) = .ok key ∧ ¬ IsPrivateKey key) :
    (vanityLoop m w clock random pre estimate (fuel + 1) count printed : Out ε _) = .panic := by
  rw [vanityLoop]
  simp only [addU64, if_pos hc, bind_ok, hr]
  rcases hk with ⟨e, he⟩ | ⟨key, hk, hkey⟩
  · rw [he]; rfl
  · rw [hk]
    simp only [expect, bind_ok]
    split
    · rename_i hlen
      obtain ⟨k, ek, hsome, -⟩ := C47_private_key (ε := ε) m w key hlen
      rw [ek, bind_ok]
      cases k with
      | none => rfl
      | some sk => exact absurd ⟨hlen, hsome.mp rfl⟩ hkey
    · rfl

/-- What a search that ends has found. -/
theorem loop_sound (clock : Nat → Option Nat) (random : Nat → Out RandomError (List UInt8)) (pre : List UInt8) (estimate : Nat)
    (he : estimate ≠ 0) :
    ∀ (fuel count : Nat) (printed out : List UInt8), (count + fuel) * 100 < 2 ^ 64 → (∀ i s, clock i = some s → 0 < s) →
      (vanityLoop m w clock random pre estimate fuel count printed : Out ε _) = .ok out →
      ∃ k key, k < fuel ∧
        (∀ i, count < i → i ≤ count + k → ∃ key, random i = .ok key ∧ IsPrivateKey key ∧ ¬ pre <+: keyAddressText key) ∧
        random (count + k + 1) = .ok key ∧ IsPrivateKey key ∧ pre <+: keyAddressText key ∧
        out = printed ++ reports estimate clock count (k + 1) ++ foundText key := by
  intro fuel
  induction fuel with
  | zero => intro count printed out _ _ h; cases h
  | succ fuel ih =>
    intro count printed out hm hc h
    have hr := report_eq (ε := ε) m estimate (count + 1) (clock (count + 1)) he (fun s hs => hc _ s hs) (by omega)
    by_cases hk : (∃ e, random (count + 1) = .err e) ∨ ∃ key, random (count + 1) = .ok key ∧ ¬ IsPrivateKey key
    · rw [loop_bad m w clock random pre estimate fuel count printed _ (by omega) hr hk] at h
      cases h
    · cases e : random (count + 1) with
      | err x => exact absurd (.inl ⟨x, e⟩) hk
      | panic => rw [vanityLoop] at h; simp only [addU64, if_pos (show count + 1 < 2 ^ 64 by omega), bind_ok, hr, e] at h; cases h
      | hang => rw [vanityLoop] at h; simp only [addU64, if_pos (show count + 1 < 2 ^ 64 by omega), bind_ok, hr, e] at h; cases h
      | ok key =>
        have hkey : IsPrivateKey key := Classical.byContradiction fun hn => hk (.inr ⟨key, e, hn⟩)
        rw [loop_step m w clock random pre estimate fuel count printed _ key (by omega) hr e hkey] at h
        split at h
        · rename_i hp
          cases h
          exact ⟨0, key, Nat.succ_pos _, fun i h1 h2 => absurd h1 (by omega), e, hkey, hp, by simp [reports]⟩
        · rename_i hp
          obtain ⟨k, key', h1, h2, h3, h4, h5, h6⟩ := ih (count + 1) _ out (by omega) hc h
          refine ⟨k + 1, key', by omega, fun i hi hj => ?_, by rw [← h3]; congr 1; omega, h4, h5, ?_⟩
          · by_cases hi' : i = count + 1
            · subst hi'; exact ⟨key, e, hkey, hp⟩
            · exact h2 i (by omega) (by omega)
          · rw [h6, reports.eq_def estimate clock count (k + 1 + 1)]
            simp only [List.append_assoc]

theorem pow32_small {n : Nat} (h : n ≤ 12) : (pow32 m n : Out ε _) = .ok (32 ^ n) := by
  unfold pow32
  rw [if_pos (Nat.lt_of_le_of_lt (Nat.pow_le_pow_right (by decide) h) (by decide))]

theorem pow32_large {n : Nat} (h : 13 ≤ n) : (pow32 m n : Out ε _) = if m = .debug then .panic else .ok 0 := by
  unfold pow32
  rw [if_neg (Nat.not_lt.mpr (Nat.le_trans (by decide : 2 ^ 64 ≤ 32 ^ 13) (Nat.pow_le_pow_right (by decide) h)))]
  cases m with
  | debug => rfl
  | release =>
    obtain ⟨k, rfl⟩ := Nat.exists_eq_add_of_le h
    have : (32 : Nat) ^ (13 + k) % 2 ^ 64 = 0 := by
      rw [Nat.pow_add, show (32 : Nat) ^ 13 = 2 ^ 64 * 2 by decide, Nat.mul_assoc]
      exact Nat.mul_mod_right _ _
    simp only [this, reduceCtorEq, if_false]

theorem hex_test (pre : List UInt8) :
    (pre.all fun c => decide ((48 ≤ c ∧ c ≤ 57) ∨ (97 ≤ c ∧ c ≤ 102) ∨ (65 ≤ c ∧ c ≤ 70))) = true ↔ ∀ c ∈ pre, IsHexDigit c := by
  have key : ∀ c : UInt8, ((48 ≤ c ∧ c ≤ 57) ∨ (97 ≤ c ∧ c ≤ 102) ∨ (65 ≤ c ∧ c ≤ 70)) ↔ IsHexDigit c := by
    intro c
    unfold IsHexDigit hexVal
    simp only [UInt8.le_iff_toNat_le]
    split
    · rename_i h; simp; left; exact h
    · split
      · rename_i h; simp; right; left; exact h
      · split
        · rename_i h; simp; right; right; exact h
        · rename_i h1 h2 h3
          simp only [Option.isSome_none, Bool.false_eq_true, iff_false]
          rintro (h | h | h)
          · exact h1 h
          · exact h2 h
          · exact h3 h
  simp only [List.all_eq_true, decide_eq_true_eq, key]

end LCT.Examples

