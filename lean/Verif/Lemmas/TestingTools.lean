import Verif.Model.TestingTools
import Verif.Spec.RandomTests
import Verif.Lemmas.RandomTests

/-! # Lemmas about the testing tools -/

namespace LCT.TestingTools
open LCT.Out LCT.Spec
variable {ε : Type}

theorem valid_ascii (bytes : List UInt8) (h : ∀ c ∈ bytes, c.toNat < 128) : ByteArray.IsValidUTF8 ⟨bytes.toArray⟩ := by
  induction bytes using List.reverseRecOn with
  | nil => exact ⟨[], rfl⟩
  | append_singleton bs c ih =>
    have hc := h c (by simp)
    have hv : (c.toNat).isValidChar := by left; omega
    have e : (Char.ofNat c.toNat).toUInt8 = c := by
      have : (Char.ofNat c.toNat).toNat = c.toNat := by
        rw [Char.ofNat, dif_pos hv]; rfl
      unfold Char.toUInt8
      apply UInt8.toNat_inj.mp
      rw [UInt32.toNat_toUInt8]
      have h2 : (Char.ofNat c.toNat).val.toNat = c.toNat := this
      rw [h2]
      have := c.toNat_lt
      omega
    have hs : (Char.ofNat c.toNat).utf8Size = 1 := by
      have : (Char.ofNat c.toNat).val.toNat = c.toNat := by
        rw [Char.ofNat, dif_pos hv]; rfl
      unfold Char.utf8Size
      rw [if_pos]
      rw [UInt32.le_iff_toNat_le, this]
      show c.toNat ≤ 127
      omega
    have := (ih fun c hc => h c (by simp [hc])).push hs
    rw [e] at this
    have e2 : (⟨(bs ++ [c]).toArray⟩ : ByteArray) = ByteArray.push ⟨bs.toArray⟩ c := by
      simp [ByteArray.push]
    rw [e2]
    exact this

theorem utf8_ascii {bytes : List UInt8} (h : ∀ c ∈ bytes, c.toNat < 128) : (utf8 bytes : Out ε _) = .ok bytes := by
  unfold utf8 String.fromUTF8?
  rw [dif_pos (valid_ascii bytes h)]
  rfl

theorem chooseMany_ok {chars : List UInt8} (hne : chars ≠ []) (n : Nat) (g : Gen) :
    ∃ cs g', (chooseMany chars n g : Out ε _) = .ok (cs, g') ∧ cs.length = n ∧ ∀ c ∈ cs, c ∈ chars := by
  induction n generalizing g with
  | zero => exact ⟨[], g, rfl, rfl, nofun⟩
  | succ n ih =>
    obtain ⟨cs, g', e, h1, h2⟩ := ih fun i => g (i + 1)
    have hlt : g 0 % chars.length < chars.length := Nat.mod_lt _ (List.length_pos_iff.mpr hne)
    refine ⟨chars[g 0 % chars.length] :: cs, g', ?_, by rw [List.length_cons, h1], ?_⟩
    · simp only [chooseMany, choose, List.getElem?_eq_getElem hlt, unwrap, Out.bind_ok, e]
      rfl
    · intro c hc
      rcases List.mem_cons.mp hc with rfl | hc
      · exact List.getElem_mem _
      · exact h2 c hc

theorem chooseMany_all {chars : List UInt8} (cs : List UInt8) (h : ∀ c ∈ cs, c ∈ chars) (g' : Gen) :
    ∃ g, (chooseMany chars cs.length g : Out ε _) = .ok (cs, g') := by
  induction cs with
  | nil => exact ⟨g', rfl⟩
  | cons c cs ih =>
    obtain ⟨g, e⟩ := ih fun c hc => h c (List.mem_cons_of_mem _ hc)
    obtain ⟨i, hi, e1⟩ := List.mem_iff_getElem.mp (h c List.mem_cons_self)
    refine ⟨fun j => match j with | 0 => i | j + 1 => g j, ?_⟩
    have e2 : chars[i % chars.length]? = some c := by rw [Nat.mod_eq_of_lt hi, List.getElem?_eq_getElem hi, e1]
    simp only [List.length_cons, chooseMany, choose, e2, unwrap, Out.bind_ok]
    rw [show (fun j => g j) = g from rfl, e]
    rfl

theorem hexVec_ok {size : Nat} (hs : 0 < size) (he : size % 2 = 0) (g : Gen) :
    ∃ v g', (hexVec size g : Out ε _) = .ok (v, g') ∧ v ≠ [] ∧ v.length % 2 = 0 ∧ v.length ≤ size ∧ ∀ c ∈ v, c ∈ hexChars := by
  obtain ⟨v, g1, e1, h1, h2⟩ := chooseMany_ok (ε := ε) (show hexChars ≠ [] from nofun) (g 0 % size) fun i => g (i + 1)
  have hlt : g 0 % size < size := Nat.mod_lt _ hs
  unfold hexVec
  simp only [e1, Out.bind_ok]
  by_cases c1 : v.length = 0
  · obtain ⟨v2, g2, e2, h3, h4⟩ := chooseMany_ok (ε := ε) (show hexChars ≠ [] from nofun) 2 g1
    rw [if_pos c1, e2]
    exact ⟨v2, g2, rfl, List.length_pos_iff.mp (by omega), by omega, by omega, h4⟩
  · rw [if_neg c1]
    have hv : v ≠ [] := by rintro rfl; exact c1 rfl
    by_cases c2 : v.length % 2 ≠ 0
    · obtain ⟨v2, g2, e2, h3, h4⟩ := chooseMany_ok (ε := ε) (show hexChars ≠ [] from nofun) 1 g1
      rw [if_pos c2, e2]
      refine ⟨v ++ v2, g2, rfl, by simp [hv], by rw [List.length_append]; omega, by rw [List.length_append]; omega, ?_⟩
      intro c hc
      rcases List.mem_append.mp hc with hc | hc
      · exact h2 c hc
      · exact h4 c hc
    · rw [if_neg c2]
      exact ⟨v, g1, rfl, hv, by omega, by omega, h2⟩

theorem hexVec_all {size : Nat} (v : List UInt8) (hne : v ≠ []) (he : v.length % 2 = 0) (hl : v.length ≤ size) (hc : ∀ c ∈ v, c ∈ hexChars)
    (g' : Gen) : ∃ g, (hexVec size g : Out ε _) = .ok (v, g') := by
  obtain ⟨v1, c, rfl⟩ : ∃ v1 c, v = v1 ++ [c] := ⟨_, _, (List.dropLast_concat_getLast hne).symm⟩
  rw [List.length_append, List.length_singleton] at he hl
  obtain ⟨g2, e2⟩ := chooseMany_all (ε := ε) (chars := hexChars) [c] (fun x hx => hc x (by simp_all)) g'
  obtain ⟨g1, e1⟩ := chooseMany_all (ε := ε) (chars := hexChars) v1 (fun x hx => hc x (by simp [hx])) g2
  refine ⟨fun j => match j with | 0 => v1.length | j + 1 => g1 j, ?_⟩
  unfold hexVec
  simp only [Nat.mod_eq_of_lt (show v1.length < size by omega)]
  rw [show (fun j => g1 j) = g1 from rfl, e1]
  simp only [Out.bind_ok]
  rw [if_neg (by omega), if_pos (by omega)]
  rw [List.length_singleton] at e2
  rw [e2]
  rfl

private theorem byte_forall {P : UInt8 → Prop} (h : ∀ i : Fin 256, P (UInt8.ofNat i)) (c : UInt8) : P c := by
  have := h ⟨c.toNat, c.toNat_lt⟩
  simpa using this

theorem mem_hexChars (c : UInt8) : c ∈ hexChars ↔ IsHexDigit c := by
  revert c
  exact byte_forall (by decide +kernel)

theorem mem_lowerHexChars (c : UInt8) : c ∈ lowerHexChars ↔ IsHexDigit c ∧ lowerChar c = c := by
  revert c
  exact byte_forall (by decide +kernel)

theorem ascii_of_hex {c : UInt8} : IsHexDigit c → c.toNat < 128 :=
  byte_forall (P := fun c => IsHexDigit c → c.toNat < 128) (by decide +kernel) c

end LCT.TestingTools
