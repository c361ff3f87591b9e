import Verif.Model.Ethereum.Display
import Verif.Spec.Display
import Verif.Lemmas.Ethereum.Address
import Verif.Lemmas.Ethereum.Transaction

/-!
# Lemmas about printed transactions
-/

namespace LCT.Ethereum
open LCT.BigInt LCT.Codecs LCT.Spec LCT.Spec.Eth LCT.Out
variable {ε : Type}

/-! ## Numerals -/

theorem numeral_small {b n : Nat} (hb : 1 < b) (hn : n < b) : numeral b n = [hexDigit n] := by
  unfold numeral
  split
  · rename_i h; subst h; rfl
  · rename_i h
    rw [Nat.digits_of_lt b n h hn]; rfl

theorem numeral_big {b n : Nat} (hb : 1 < b) (hn : b ≤ n) : numeral b n = numeral b (n / b) ++ [hexDigit (n % b)] := by
  unfold numeral
  rw [if_neg (by omega), if_neg (by have := Nat.div_pos hn (by omega); omega), Nat.digits_def' hb (by omega)]
  simp

theorem lowerHexU64_eq (n : Nat) : lowerHexU64 n = numeral 16 n := by
  induction n using Nat.strongRecOn with
  | ind n ih =>
    have hd : ∀ k : Fin 16, (if k.val < 10 then 48 + UInt8.ofNat k.val else 87 + UInt8.ofNat k.val) = hexDigit k.val := by decide
    have hd := hd ⟨n % 16, Nat.mod_lt _ (by decide)⟩
    rw [lowerHexU64]
    simp only at hd ⊢
    rw [hd]
    split
    · rename_i h
      rw [numeral_small (by decide) h, Nat.mod_eq_of_lt h]
    · rename_i h
      rw [ih _ (by omega), ← numeral_big (by decide) (by omega)]

theorem decimalText_eq (n : Nat) : decimalText n = numeral 10 n := by
  induction n using Nat.strongRecOn with
  | ind n ih =>
    have hd : ∀ k : Fin 10, 48 + UInt8.ofNat k.val = hexDigit k.val := by decide
    have hd := hd ⟨n % 10, Nat.mod_lt _ (by decide)⟩
    rw [decimalText]
    simp only at hd ⊢
    rw [hd]
    split
    · rename_i h
      rw [numeral_small (by decide) h, Nat.mod_eq_of_lt h]
    · rename_i h
      rw [ih _ (by omega), ← numeral_big (by decide) (by omega)]

theorem hexDigit_inj {i j : Nat} (hi : i < 16) (hj : j < 16) (h : hexDigit i = hexDigit j) : i = j := by
  have : ∀ i j : Fin 16, hexDigit i.val = hexDigit j.val → i = j := by decide +kernel
  exact congrArg Fin.val (this ⟨i, hi⟩ ⟨j, hj⟩ h)

theorem numeral_inj {b : Nat} (hb : 1 < b) (hb16 : b ≤ 16) {n k : Nat} (h : numeral b n = numeral b k) : n = k := by
  induction n using Nat.strongRecOn generalizing k with
  | ind n ih =>
    have pos : ∀ n, numeral b n ≠ [] := fun n e => by
      rcases Nat.lt_or_ge n b with hn | hn
      · rw [numeral_small hb hn] at e; cases e
      · rw [numeral_big hb hn] at e; simp at e
    rcases Nat.lt_or_ge n b with hn | hn <;> rcases Nat.lt_or_ge k b with hk | hk
    · rw [numeral_small hb hn, numeral_small hb hk] at h
      injection h with h
      exact hexDigit_inj (by omega) (by omega) h
    · rw [numeral_small hb hn, numeral_big hb hk, show [hexDigit n] = [] ++ [hexDigit n] from rfl] at h
      exact absurd (List.append_inj' h rfl).1.symm (pos _)
    · rw [numeral_small hb hk, numeral_big hb hn, show [hexDigit k] = [] ++ [hexDigit k] from rfl] at h
      exact absurd (List.append_inj' h rfl).1 (pos _)
    · rw [numeral_big hb hn, numeral_big hb hk] at h
      obtain ⟨h1, h2⟩ := List.append_inj' h rfl
      injection h2 with h2
      have h2 := hexDigit_inj (by have := Nat.mod_lt n (show b > 0 by omega); omega) (by have := Nat.mod_lt k (show b > 0 by omega); omega) h2
      have h1 := ih _ (Nat.div_lt_self (by omega) hb) h1
      rw [← Nat.div_add_mod n b, ← Nat.div_add_mod k b, h1, h2]

theorem hexDigit_ne {i : Nat} (hi : i < 16) : hexDigit i ≠ 10 ∧ hexDigit i ≠ 32 := by
  have : ∀ i : Fin 16, hexDigit i.val ≠ 10 ∧ hexDigit i.val ≠ 32 := by decide
  exact this ⟨i, hi⟩

theorem numeral_char {b n : Nat} (hb : 1 < b) (hb16 : b ≤ 16) {c : UInt8} (hc : c ∈ numeral b n) : ∃ i < 16, c = hexDigit i := by
  unfold numeral at hc
  split at hc
  · simp at hc; exact ⟨0, by decide, hc⟩
  · simp only [List.mem_reverse, List.mem_map] at hc
    obtain ⟨d, hd, rfl⟩ := hc
    exact ⟨d, by have := Nat.digits_lt_base hb hd; omega, rfl⟩

theorem hexText_nat (n : Nat) : hexText n = hexOf (if n = 0 then [0] else minBE n) := by
  unfold hexText
  split
  · rename_i h
    rw [if_pos (by omega)]; rfl
  · rw [if_neg (by omega), if_neg (by omega)]; rfl

theorem hexText_inj {n k : Nat} (h : hexText n = hexText k) : n = k := by
  rw [hexText_nat, hexText_nat] at h
  have h := congrArg ofBE (hexOf_injective h)
  have : ∀ n, ofBE (if n = 0 then [0] else minBE n) = n := fun n => by
    split
    · rename_i h; subst h; rfl
    · exact ofBE_minBE n
  rwa [this, this] at h

theorem eip55_inj {h : List UInt8 → List UInt8} {a b : List UInt8} (e : eip55 h a = eip55 h b) : a = b := by
  have := (eip55_lower h a).1
  rw [e, (eip55_lower h b).1] at this
  exact (hexOf_injective this).symm

/-! ## Lines -/

theorem unlines_cons (l : List UInt8) (ls : List (List UInt8)) : unlines (l :: ls) = l ++ 10 :: unlines ls := by
  simp [unlines]

theorem unlines_append (a b : List (List UInt8)) : unlines (a ++ b) = unlines a ++ unlines b := by
  simp [unlines]

theorem cut {a b x y : List UInt8} (ha : 10 ∉ a) (hb : 10 ∉ b) (h : a ++ 10 :: x = b ++ 10 :: y) : a = b ∧ x = y := by
  induction a generalizing b with
  | nil =>
    cases b with
    | nil => simpa using h
    | cons c b => simp only [List.nil_append, List.cons_append, List.cons.injEq] at h; exact absurd h.1 (fun e => hb (e ▸ List.mem_cons_self))
  | cons c a ih =>
    cases b with
    | nil => simp only [List.nil_append, List.cons_append, List.cons.injEq] at h; exact absurd h.1.symm (fun e => ha (e ▸ List.mem_cons_self))
    | cons d b =>
      simp only [List.cons_append, List.cons.injEq] at h
      obtain ⟨e1, e2⟩ := ih (fun h => ha (List.mem_cons_of_mem _ h)) (fun h => hb (List.mem_cons_of_mem _ h)) h.2
      exact ⟨by rw [h.1, e1], e2⟩

theorem unlines_inj {a b : List (List UInt8)} (ha : ∀ l ∈ a, 10 ∉ l) (hb : ∀ l ∈ b, 10 ∉ l) (h : unlines a = unlines b) : a = b := by
  induction a generalizing b with
  | nil =>
    cases b with
    | nil => rfl
    | cons d b => rw [unlines_cons] at h; simp [unlines] at h
  | cons c a ih =>
    cases b with
    | nil => rw [unlines_cons] at h; simp [unlines] at h
    | cons d b =>
      rw [unlines_cons, unlines_cons] at h
      obtain ⟨e1, e2⟩ := cut (ha _ List.mem_cons_self) (hb _ List.mem_cons_self) h
      rw [e1, ih (fun l hl => ha l (List.mem_cons_of_mem _ hl)) (fun l hl => hb l (List.mem_cons_of_mem _ hl)) e2]

/-! ## The lines of a transaction -/

theorem hex_ne {c : UInt8} (h : IsHexDigit c) : c ≠ 10 := by
  rintro rfl
  exact absurd h (by decide)

theorem small_plain (n : Nat) : 10 ∉ smallNum n := by
  intro h
  rcases List.mem_append.mp h with h | h
  · exact absurd h (by decide)
  · obtain ⟨i, hi, e⟩ := numeral_char (by decide) (by decide) h
    exact (hexDigit_ne hi).1 e.symm

theorem numeral10_plain (n : Nat) : 10 ∉ numeral 10 n := by
  intro h
  obtain ⟨i, hi, e⟩ := numeral_char (by decide) (by decide) h
  exact (hexDigit_ne hi).1 e.symm

theorem bytes_plain (bs : List UInt8) : 10 ∉ bytesText bs := by
  intro h
  rcases List.mem_append.mp h with h | h
  · exact absurd h (by decide)
  · exact hex_ne (lower_upper (hexOf_char h)).2.2.1 rfl

theorem big_plain (n : Nat) : 10 ∉ bigNum n := by
  unfold bigNum
  rw [hexText_nat]
  exact bytes_plain _

theorem address_plain (a : List UInt8) : 10 ∉ addressText a := by
  intro h
  rcases List.mem_append.mp h with h | h
  · exact absurd h (by decide)
  · exact hex_ne ((eip55_lower _ a).2 _ h).1 rfl

theorem parity_plain (y : Nat) : 10 ∉ parityText y := by
  intro h
  rcases List.mem_append.mp h with h | h
  · exact numeral10_plain y h
  · split at h <;> exact absurd h (by decide)

theorem plain_append {a b : List UInt8} (ha : 10 ∉ a) (hb : 10 ∉ b) : 10 ∉ a ++ b := fun h => (List.mem_append.mp h).elim ha hb

theorem access_plain (a : Access) : ∀ l ∈ a.lines, 10 ∉ l := by
  intro l hl
  simp only [Access.lines, List.mem_append, List.mem_cons, List.mem_map, List.not_mem_nil, or_false] at hl
  rcases hl with ((rfl | rfl) | ⟨k, -, rfl⟩) | rfl | rfl
  · exact plain_append (plain_append (by decide) (address_plain _)) (by decide)
  · decide
  · exact plain_append (plain_append (by decide) (bytes_plain _)) (by decide)
  · decide
  · decide

theorem accessLines_plain (l : List Access) : ∀ x ∈ accessLines l, 10 ∉ x := by
  intro x hx
  simp only [accessLines, List.mem_append, List.mem_cons, List.mem_flatMap, List.not_mem_nil, or_false] at hx
  rcases hx with (rfl | ⟨a, -, h⟩) | rfl
  · decide
  · exact access_plain a x h
  · decide

theorem signed_plain (x : Signed) : ∀ l ∈ x.lines, 10 ∉ l := by
  have hs := small_plain
  have hb := big_plain
  have ha := address_plain
  have hy := bytes_plain
  have hn := numeral10_plain
  have hp := parity_plain
  intro l hl
  cases x <;>
  simp only [Signed.lines, frame, Legacy.lines, Eip155.lines, Eip2930.lines, Eip1559.lines, List.mem_append, List.mem_cons, List.not_mem_nil,
    or_false] at hl
  · rcases hl with (((rfl | rfl | rfl | rfl | rfl | rfl | rfl) | (rfl | rfl | rfl | rfl | rfl | rfl)) | (rfl | rfl | rfl | rfl)) |
      (rfl | rfl | rfl) <;> (try simp only [List.mem_append, hs, hb, ha, hy, hn, hp, or_false]) <;> decide
  · rcases hl with (((rfl | rfl | rfl | rfl | rfl | rfl | rfl) | (rfl | rfl | rfl | rfl | rfl | rfl | rfl)) | (rfl | rfl | rfl | rfl)) |
      (rfl | rfl | rfl) <;> (try simp only [List.mem_append, hs, hb, ha, hy, hn, hp, or_false]) <;> decide
  · rcases hl with (((rfl | rfl | rfl | rfl | rfl | rfl | rfl) | ((rfl | rfl | rfl | rfl | rfl | rfl | rfl) | h)) | (rfl | rfl | rfl | rfl)) |
      (rfl | rfl | rfl)
    case inl.inl.inr.inr => exact accessLines_plain _ _ h
    all_goals try simp only [List.mem_append, hs, hb, ha, hy, hn, hp, or_false]
    all_goals decide
  · rcases hl with (((rfl | rfl | rfl | rfl | rfl | rfl | rfl) | ((rfl | rfl | rfl | rfl | rfl | rfl | rfl | rfl) | h)) |
      (rfl | rfl | rfl | rfl)) | (rfl | rfl | rfl)
    case inl.inl.inr.inr => exact accessLines_plain _ _ h
    all_goals try simp only [List.mem_append, hs, hb, ha, hy, hn, hp, or_false]
    all_goals decide

/-! ## Different transactions have different lines -/

theorem small_inj {n k : Nat} (h : smallNum n = smallNum k) : n = k :=
  numeral_inj (by decide) (by decide) (List.append_cancel_left h)

theorem big_inj {n k : Nat} (h : bigNum n = bigNum k) : n = k := hexText_inj (List.append_cancel_left h)

theorem addressText_inj {a b : List UInt8} (h : addressText a = addressText b) : a = b := eip55_inj (List.append_cancel_left h)

theorem bytesText_inj {a b : List UInt8} (h : bytesText a = bytesText b) : a = b := hexOf_injective (List.append_cancel_left h)

/-- Cutting at the first space. -/
theorem cut_space {a b x y : List UInt8} (ha : 32 ∉ a) (hb : 32 ∉ b) (h : a ++ 32 :: x = b ++ 32 :: y) : a = b := by
  induction a generalizing b with
  | nil =>
    cases b with
    | nil => rfl
    | cons c b => simp only [List.nil_append, List.cons_append, List.cons.injEq] at h; exact absurd h.1 (fun e => hb (e ▸ List.mem_cons_self))
  | cons c a ih =>
    cases b with
    | nil => simp only [List.nil_append, List.cons_append, List.cons.injEq] at h; exact absurd h.1.symm (fun e => ha (e ▸ List.mem_cons_self))
    | cons d b =>
      simp only [List.cons_append, List.cons.injEq] at h
      rw [h.1, ih (fun h => ha (List.mem_cons_of_mem _ h)) (fun h => hb (List.mem_cons_of_mem _ h)) h.2]

theorem numeral_space (b n : Nat) (hb : 1 < b) (hb16 : b ≤ 16) : 32 ∉ numeral b n := by
  intro h
  obtain ⟨i, hi, e⟩ := numeral_char hb hb16 h
  exact (hexDigit_ne hi).2 e.symm

theorem parity_inj {y z : Nat} (h : parityText y = parityText z) : y = z := by
  have h1 : ∀ y, ∃ t, parityText y = numeral 10 y ++ 32 :: t := fun y => by
    unfold parityText
    split
    · exact ⟨ascii "(even)", rfl⟩
    · exact ⟨ascii "(odd)", rfl⟩
  obtain ⟨t, e⟩ := h1 y
  obtain ⟨t', e'⟩ := h1 z
  rw [e, e'] at h
  exact numeral_inj (by decide) (by decide) (cut_space (numeral_space 10 _ (by decide) (by decide)) (numeral_space 10 _ (by decide) (by decide)) h)

theorem v_inj {v v' : Nat} (h : ascii "v: " ++ smallNum v ++ ascii " (" ++ numeral 10 v ++ ascii ")" =
    ascii "v: " ++ smallNum v' ++ ascii " (" ++ numeral 10 v' ++ ascii ")") : v = v' := by
  simp only [smallNum, List.append_assoc] at h
  have h := List.append_cancel_left (List.append_cancel_left h)
  rw [show ascii " (" = [32, 40] by decide] at h
  exact numeral_inj (by decide) (by decide) (cut_space (numeral_space 16 _ (by decide) (by decide)) (numeral_space 16 _ (by decide) (by decide)) h)

theorem keys_inj {ks ks' : List (List UInt8)} {r r' : List (List UInt8)}
    (h : ks.map (fun k => ascii "    " ++ bytesText k ++ ascii ",") ++ ascii "  ]" :: r =
      ks'.map (fun k => ascii "    " ++ bytesText k ++ ascii ",") ++ ascii "  ]" :: r') : ks = ks' ∧ r = r' := by
  have hne : ∀ k, ascii "    " ++ bytesText k ++ ascii "," ≠ ascii "  ]" := fun k e => by
    rw [show ascii "    " = [32, 32, 32, 32] by decide, show ascii "  ]" = [32, 32, 93] by decide] at e
    simp at e
  induction ks generalizing ks' with
  | nil =>
    cases ks' with
    | nil => simpa using h
    | cons k ks' => simp only [List.map_nil, List.nil_append, List.map_cons, List.cons_append, List.cons.injEq] at h; exact absurd h.1.symm (hne k)
  | cons k ks ih =>
    cases ks' with
    | nil => simp only [List.map_nil, List.nil_append, List.map_cons, List.cons_append, List.cons.injEq] at h; exact absurd h.1 (hne k)
    | cons k' ks' =>
      simp only [List.map_cons, List.cons_append, List.cons.injEq] at h
      obtain ⟨e1, e2⟩ := ih h.2
      refine ⟨?_, e2⟩
      rw [e1, bytesText_inj (List.append_cancel_left (List.append_cancel_right h.1))]

theorem entries_inj {l l' : List Access} {r r' : List (List UInt8)}
    (h : l.flatMap Access.lines ++ ascii "]" :: r = l'.flatMap Access.lines ++ ascii "]" :: r') : l = l' ∧ r = r' := by
  have hne : ∀ a, ascii "  " ++ addressText a ++ ascii ": " ≠ ascii "]" := fun k e => by
    rw [show ascii "  " = [32, 32] by decide, show ascii "]" = [93] by decide] at e
    simp at e
  induction l generalizing l' with
  | nil =>
    cases l' with
    | nil => simpa using h
    | cons a l' =>
      simp only [List.flatMap_nil, List.nil_append, List.flatMap_cons, Access.lines, List.cons_append, List.cons.injEq] at h
      exact absurd h.1.symm (hne _)
  | cons a l ih =>
    cases l' with
    | nil =>
      simp only [List.flatMap_nil, List.nil_append, List.flatMap_cons, Access.lines, List.cons_append, List.cons.injEq] at h
      exact absurd h.1 (hne _)
    | cons a' l' =>
      simp only [List.flatMap_cons, Access.lines, List.cons_append, List.nil_append, List.append_assoc, List.cons.injEq, true_and] at h
      obtain ⟨h1, h2⟩ := h
      obtain ⟨h2, h3⟩ := keys_inj h2
      simp only [List.cons.injEq, true_and] at h3
      obtain ⟨e1, e2⟩ := ih h3
      refine ⟨?_, e2⟩
      obtain ⟨x, ks⟩ := a
      obtain ⟨x', ks'⟩ := a'
      have h1 := addressText_inj (List.append_cancel_right (List.append_cancel_left h1))
      simp only at h1 h2
      rw [e1, h1, h2]

theorem signed_inj {x y : Signed} (h : x.lines = y.lines) : x = y := by
  have n1 : ascii "Transaction Legacy" ≠ ascii "Transaction EIP 155" := by decide
  have n2 : ascii "Transaction Legacy" ≠ ascii "Transaction EIP 2930" := by decide
  have n3 : ascii "Transaction Legacy" ≠ ascii "Transaction EIP 1559" := by decide
  have n4 : ascii "Transaction EIP 155" ≠ ascii "Transaction EIP 2930" := by decide
  have n5 : ascii "Transaction EIP 155" ≠ ascii "Transaction EIP 1559" := by decide
  have n6 : ascii "Transaction EIP 2930" ≠ ascii "Transaction EIP 1559" := by decide
  cases x with
  | legacy t v r s =>
    cases y <;> simp only [Signed.lines, frame, Legacy.lines, List.cons_append, List.nil_append, List.cons.injEq, n1, n2, n3, false_and, and_false,
      true_and, and_true, List.append_cancel_left_eq] at h
    obtain ⟨h1, h2, h3, h4, h5, h6, h7, h8, h9⟩ := h
    rename_i t' v' r' s'
    obtain ⟨a1, a2, a3, a4, a5, a6⟩ := t
    obtain ⟨b1, b2, b3, b4, b5, b6⟩ := t'
    rw [v_inj h7, big_inj h8, big_inj h9]
    simp only at h1 h2 h3 h4 h5 h6
    rw [small_inj h1, big_inj h2, small_inj h3, addressText_inj h4, big_inj h5, bytesText_inj h6]
  | eip155 t v r s =>
    cases y <;> simp only [Signed.lines, frame, Eip155.lines, List.cons_append, List.nil_append, List.cons.injEq, n1.symm, n4, n5, false_and,
      and_false, true_and, and_true, List.append_cancel_left_eq] at h
    obtain ⟨h0, h1, h2, h3, h4, h5, h6, h7, h8, h9⟩ := h
    rename_i t' v' r' s'
    obtain ⟨a0, a1, a2, a3, a4, a5, a6⟩ := t
    obtain ⟨b0, b1, b2, b3, b4, b5, b6⟩ := t'
    simp only at h0 h1 h2 h3 h4 h5 h6
    rw [big_inj h7, big_inj h8, big_inj h9, big_inj h0, small_inj h1, big_inj h2, small_inj h3, addressText_inj h4, big_inj h5, bytesText_inj h6]
  | eip2930 t v r s =>
    cases y <;> simp only [Signed.lines, frame, Eip2930.lines, accessLines, List.append_assoc, List.cons_append, List.nil_append, List.cons.injEq,
      n2.symm, n4.symm, n6, false_and, and_false, true_and, and_true, List.append_cancel_left_eq] at h
    rename_i t' v' r' s'
    obtain ⟨h0, h1, h2, h3, h4, h5, h6, h7⟩ := h
    obtain ⟨h7, h8⟩ := entries_inj h7
    simp only [List.cons.injEq, List.append_cancel_left_eq, true_and, and_true] at h8
    obtain ⟨h8, h9, h10⟩ := h8
    obtain ⟨a0, a1, a2, a3, a4, a5, a6, a7⟩ := t
    obtain ⟨b0, b1, b2, b3, b4, b5, b6, b7⟩ := t'
    simp only at h0 h1 h2 h3 h4 h5 h6 h7
    rw [parity_inj h8, big_inj h9, big_inj h10, big_inj h0, small_inj h1, big_inj h2, small_inj h3, addressText_inj h4, big_inj h5,
      bytesText_inj h6, h7]
  | eip1559 t v r s =>
    cases y <;> simp only [Signed.lines, frame, Eip1559.lines, accessLines, List.append_assoc, List.cons_append, List.nil_append, List.cons.injEq,
      n3.symm, n5.symm, n6.symm, false_and, and_false, true_and, and_true, List.append_cancel_left_eq] at h
    rename_i t' v' r' s'
    obtain ⟨h0, h1, h2, h3, h4, h5, h6, h6', h7⟩ := h
    obtain ⟨h7, h8⟩ := entries_inj h7
    simp only [List.cons.injEq, List.append_cancel_left_eq, true_and, and_true] at h8
    obtain ⟨h8, h9, h10⟩ := h8
    obtain ⟨a0, a1, a2, a3, a4, a5, a6, a7, a8⟩ := t
    obtain ⟨b0, b1, b2, b3, b4, b5, b6, b7, b8⟩ := t'
    simp only at h0 h1 h2 h3 h4 h5 h6 h6' h7
    rw [parity_inj h8, big_inj h9, big_inj h10, big_inj h0, small_inj h1, big_inj h2, big_inj h3, small_inj h4, addressText_inj h5, big_inj h6,
      bytesText_inj h6', h7]

/-! ## What the model writes -/

section
variable (m : Build) {w : Nat} [DigitWidth w]

theorem lit_eq (s : String) : lit s = ascii s := rfl

theorem lit0x : (48 :: 120 :: l : List UInt8) = ascii "0x" ++ l := rfl

theorem displayUint_eq {x : BInt} {n : Nat} (h : Denotes w x n) :
    (displayUint m w x : Out ε _) = .ok (bigNum n) ∧ (Wei.display m w x : Out ε _) = .ok (bigNum n) := by
  obtain ⟨k, -, rfl⟩ := DigitWidth.bytes (w := w)
  simp [displayUint, Wei.display, BInt.display, toLowerHex_eq m h.1, h.2, bigNum, lit0x]

theorem address_display (a : Address) : (a.display m : Out ε _) = .ok (addressText a.data) := display_eq m a

theorem nonce_display (n : EoaNonce) : n.display = smallNum n.value.toNat := by
  rw [EoaNonce.display, lowerHexU64_eq]; rfl

theorem bytes_display (b : List UInt8) : ascii "0x" ++ bytesToLowerHex b = bytesText b := by
  rw [bytesToLowerHex_eq]; rfl

theorem key_display (k : StorageKey) : k.display = bytesText k.data := by
  rw [StorageKey.display, bytesToLowerHex_eq]; rfl

theorem keys_fold (ks : List StorageKey) (f : List UInt8) :
    ks.foldl (fun f k => f ++ writeln (lit "    " ++ k.display ++ lit ",")) f =
      f ++ unlines ((ks.map (·.data)).map fun k => ascii "    " ++ bytesText k ++ ascii ",") := by
  induction ks generalizing f with
  | nil => simp [unlines]
  | cons k ks ih =>
    rw [List.foldl_cons, ih]
    simp [unlines_cons, writeln, key_display, lit_eq]

theorem item_display (it : AccessListItem) :
    ∃ t, (it.display m : Out ε _) = .ok t ∧ writeln (lit "  " ++ t) = unlines (Access.lines ⟨it.address.data, it.storageKeys.map (·.data)⟩) := by
  rw [AccessListItem.display, address_display, bind_ok, pure_def, keys_fold]
  refine ⟨_, rfl, ?_⟩
  simp [Access.lines, unlines_cons, unlines_append, writeln, lit_eq]
  simp [unlines]

theorem items_display (l : List AccessListItem) (f : List UInt8) :
    (displayItems m l f : Out ε _) = .ok (f ++ unlines ((accesses l).flatMap Access.lines)) := by
  induction l generalizing f with
  | nil => simp [displayItems, accesses, unlines]
  | cons it l ih =>
    obtain ⟨t, e, ht⟩ := item_display (ε := ε) m it
    rw [displayItems, e, bind_ok, ih, ht, List.append_assoc, ← unlines_append]; rfl

theorem accessList_display (l : AccessList) :
    ∃ t, (l.display m : Out ε _) = .ok t ∧ writeln (lit "access_list: " ++ t) = unlines (accessLines (accesses l)) := by
  rw [AccessList.display, items_display, bind_ok, pure_def]
  refine ⟨_, rfl, ?_⟩
  simp [accessLines, unlines_cons, unlines_append, writeln, lit_eq]
  simp [unlines, ascii]

theorem legacy_display {p : PayloadLegacy} {t : Legacy} (h : LegacyOf w p t) : (p.display m w : Out ε _) = .ok (unlines t.lines) := by
  simp only [PayloadLegacy.display, (displayUint_eq m h.gasPrice).2, (displayUint_eq m h.amount).2, bind_ok, address_display, pure_def,
    nonce_display, lowerHexU64_eq, bytesToLowerHex_eq]
  simp [Legacy.lines, unlines_cons, unlines, writeln, lit_eq, h.nonce, h.gasLimit, h.recipient, h.data, smallNum, bytesText]
  simp [ascii]

theorem eip155_display {p : PayloadEip155} {t : Eip155} (h : Eip155Of w p t) : (p.display m w : Out ε _) = .ok (unlines t.lines) := by
  simp only [PayloadEip155.display, (displayUint_eq m h.gasPrice).2, (displayUint_eq m h.amount).2, (displayUint_eq m h.chainId).1, bind_ok,
    address_display, pure_def, nonce_display, lowerHexU64_eq, bytesToLowerHex_eq]
  simp [Eip155.lines, unlines_cons, unlines, writeln, lit_eq, h.nonce, h.gasLimit, h.recipient, h.data, smallNum, bytesText]
  simp [ascii]

theorem eip2930_display {p : PayloadEip2930} {t : Eip2930} (h : Eip2930Of w p t) : (p.display m w : Out ε _) = .ok (unlines t.lines) := by
  obtain ⟨a, e, ha⟩ := accessList_display (ε := ε) m p.accessList
  simp only [PayloadEip2930.display, (displayUint_eq m h.gasPrice).2, (displayUint_eq m h.amount).2, (displayUint_eq m h.chainId).1, bind_ok,
    address_display, pure_def, nonce_display, lowerHexU64_eq, bytesToLowerHex_eq, e, ha, h.accessList]
  simp [Eip2930.lines, unlines_cons, unlines_append, writeln, lit_eq, h.nonce, h.gasLimit, h.recipient, h.data, smallNum, bytesText]
  simp [ascii, unlines]

theorem eip1559_display {p : PayloadEip1559} {t : Eip1559} (h : Eip1559Of w p t) : (p.display m w : Out ε _) = .ok (unlines t.lines) := by
  obtain ⟨a, e, ha⟩ := accessList_display (ε := ε) m p.accessList
  simp only [PayloadEip1559.display, (displayUint_eq m h.maxPriorityFee).2, (displayUint_eq m h.maxFee).2, (displayUint_eq m h.amount).2,
    (displayUint_eq m h.chainId).1, bind_ok, address_display, pure_def, nonce_display, lowerHexU64_eq, bytesToLowerHex_eq, e, ha, h.accessList]
  simp [Eip1559.lines, unlines_cons, unlines_append, writeln, lit_eq, h.nonce, h.gasLimit, h.recipient, h.data, smallNum, bytesText]
  simp [ascii, unlines]

theorem parity_display (y : LCT.Crypto.YParity) : YParity.display y = parityText y.toU8.toNat := by
  cases y
  · rw [YParity.display, decimalText_eq]; rfl
  · rw [YParity.display, decimalText_eq]; rfl

end

end LCT.Ethereum
