import Verif.Model.RlpTarget
import Verif.Spec.RlpTarget
import Verif.Lemmas.RlpPanic

/-!
# RLP decoding on targets with other pointer widths
-/

namespace LCT.Rlp
open LCT.Spec

/-- The type of item that a long header with first byte `base + k` introduces. -/
def longType (base : Nat) : ItemType := if base = 183 then .SingleValue else .List

/-- The forms of a header. -/
inductive View : List UInt8 → Prop where
  | nil : View []
  | single (b : UInt8) (rest : List UInt8) (h : b.toNat < 128) : View (b :: rest)
  | short (n : Nat) (rest : List UInt8) (h : n ≤ 55) : View (UInt8.ofNat (128 + n) :: rest)
  | shortList (n : Nat) (rest : List UInt8) (h : n ≤ 55) : View (UInt8.ofNat (192 + n) :: rest)
  | cut (base k : Nat) (rest : List UInt8) (hb : base = 183 ∨ base = 247) (h1 : 1 ≤ k) (h8 : k ≤ 8) (h : rest.length < k) :
      View (UInt8.ofNat (base + k) :: rest)
  | long (base : Nat) (l rest : List UInt8) (hb : base = 183 ∨ base = 247) (h1 : 1 ≤ l.length) (h8 : l.length ≤ 8) :
      View (UInt8.ofNat (base + l.length) :: l ++ rest)

theorem view : (data : List UInt8) → View data
  | [] => .nil
  | b :: rest => by
    have hb := b.toNat_lt
    have hbase : ∀ base, base = 183 ∨ base = 247 → base < b.toNat → b.toNat ≤ base + 8 → View (b :: rest) := by
      intro base hbase h1 h2
      by_cases hc : rest.length < b.toNat - base
      · have := View.cut base (b.toNat - base) rest hbase (by omega) (by omega) hc
        rwa [show base + (b.toNat - base) = b.toNat by omega, UInt8.ofNat_toNat] at this
      · have hl : (rest.take (b.toNat - base)).length = b.toNat - base := by rw [List.length_take]; omega
        have := View.long base (rest.take (b.toNat - base)) (rest.drop (b.toNat - base)) hbase (by omega) (by omega)
        rwa [hl, show base + (b.toNat - base) = b.toNat by omega, UInt8.ofNat_toNat, List.cons_append, List.take_append_drop] at this
    by_cases c1 : b.toNat < 128
    · exact .single b rest c1
    by_cases c2 : b.toNat ≤ 183
    · have := View.short (b.toNat - 128) rest (by omega)
      rwa [show 128 + (b.toNat - 128) = b.toNat by omega, UInt8.ofNat_toNat] at this
    by_cases c3 : b.toNat ≤ 191
    · exact hbase 183 (.inl rfl) (by omega) (by omega)
    by_cases c4 : b.toNat ≤ 247
    · have := View.shortList (b.toNat - 192) rest (by omega)
      rwa [show 192 + (b.toNat - 192) = b.toNat by omega, UInt8.ofNat_toNat] at this
    exact hbase 247 (.inr rfl) (by omega) (by omega)

theorem addUsize_ok {ε : Type} {pw a b : Nat} (m : Build) (h : a + b < 2 ^ pw) : (addUsize pw m a b : Out ε Nat) = .ok (a + b) := by
  cases m <;> simp only [addUsize, if_pos h]

theorem addUsize_64 {ε : Type} (m : Build) (a b : Nat) : (addUsize 64 m a b : Out ε Nat) = addU64 m a b := by
  unfold addUsize addU64
  cases m <;> rfl

/-- The header decoder by the numeric value of the first byte. -/
theorem decodeDataHeaderT_cons (pw : Nat) (m : Build) (first : UInt8) (rest : List UInt8) :
    decodeDataHeaderT pw m (first :: rest) =
      if first.toNat ≤ 127 then .ok (.SingleValue, 0, 1)
      else if first.toNat ≤ 183 then .ok (.SingleValue, 1, first.toNat - 128)
      else if first.toNat ≤ 191 then decodeLongHeaderT pw m .SingleValue (first.toNat - 183) (first :: rest)
      else if first.toNat ≤ 247 then .ok (.List, 1, first.toNat - 192)
      else decodeLongHeaderT pw m .List (first.toNat - 247) (first :: rest) := by
  have hsub : ∀ k : UInt8, k.toNat ≤ first.toNat → (first - k).toNat = first.toNat - k.toNat := fun k hk => by
    rw [UInt8.toNat_sub_of_le]; rw [UInt8.le_iff_toNat_le]; exact hk
  simp only [decodeDataHeaderT, UInt8.le_iff_toNat_le]
  show (if first.toNat ≤ 127 then _ else if first.toNat ≤ 183 then _ else if first.toNat ≤ 191 then _
    else if first.toNat ≤ 247 then _ else _) = _
  split
  · rfl
  · rw [hsub 0x80 (by show 128 ≤ _; omega)]
    split
    · rfl
    · rw [hsub 0xb7 (by show 183 ≤ _; omega)]
      split
      · rfl
      · rw [hsub 0xc0 (by show 192 ≤ _; omega)]
        split
        · rfl
        · rw [hsub 0xf7 (by show 247 ≤ _; omega)]; rfl

theorem header_single (pw : Nat) (m : Build) (b : UInt8) (rest : List UInt8) (h : b.toNat < 128) :
    decodeDataHeaderT pw m (b :: rest) = .ok (.SingleValue, 0, 1) := by
  rw [decodeDataHeaderT_cons, if_pos (by omega)]

theorem header_short (pw : Nat) (m : Build) (n : Nat) (rest : List UInt8) (h : n ≤ 55) :
    decodeDataHeaderT pw m (UInt8.ofNat (128 + n) :: rest) = .ok (.SingleValue, 1, n) := by
  have e := ofNat_toNat_lt (128 + n) (by omega)
  rw [decodeDataHeaderT_cons, e, if_neg (by omega), if_pos (by omega), show 128 + n - 128 = n by omega]

theorem header_shortList (pw : Nat) (m : Build) (n : Nat) (rest : List UInt8) (h : n ≤ 55) :
    decodeDataHeaderT pw m (UInt8.ofNat (192 + n) :: rest) = .ok (.List, 1, n) := by
  have e := ofNat_toNat_lt (192 + n) (by omega)
  rw [decodeDataHeaderT_cons, e, if_neg (by omega), if_neg (by omega), if_neg (by omega), if_pos (by omega), show 192 + n - 192 = n by omega]

theorem header_base (pw : Nat) (m : Build) (base k : Nat) (rest : List UInt8) (hb : base = 183 ∨ base = 247) (h1 : 1 ≤ k) (h8 : k ≤ 8) :
    decodeDataHeaderT pw m (UInt8.ofNat (base + k) :: rest) = decodeLongHeaderT pw m (longType base) k (UInt8.ofNat (base + k) :: rest) := by
  rcases hb with rfl | rfl
  · have e := ofNat_toNat_lt (183 + k) (by omega)
    rw [decodeDataHeaderT_cons, e, if_neg (by omega), if_neg (by omega), if_pos (by omega), show 183 + k - 183 = k by omega]
    rfl
  · have e := ofNat_toNat_lt (247 + k) (by omega)
    rw [decodeDataHeaderT_cons, e, if_neg (by omega), if_neg (by omega), if_neg (by omega), if_neg (by omega), show 247 + k - 247 = k by omega]
    rfl

theorem header_cut (pw : Nat) (m : Build) (base k : Nat) (rest : List UInt8) (hb : base = 183 ∨ base = 247) (h1 : 1 ≤ k) (h8 : k ≤ 8)
    (h : rest.length < k) : decodeDataHeaderT pw m (UInt8.ofNat (base + k) :: rest) = .err .InvalidFormat := by
  rw [header_base pw m base k rest hb h1 h8, decodeLongHeaderT, if_pos (by simp; omega)]

/-- A long header: the declared length is reduced, and the sum with the length of the header is a `usize`. -/
theorem header_long (pw : Nat) (m : Build) (base : Nat) (l rest : List UInt8) (hb : base = 183 ∨ base = 247) (h1 : 1 ≤ l.length)
    (h8 : l.length ≤ 8) :
    decodeDataHeaderT pw m (UInt8.ofNat (base + l.length) :: l ++ rest) =
      (addUsize pw m (1 + l.length) (ofBE l % 2 ^ pw)).bind fun total =>
        if 1 + l.length + rest.length < total then .err .InvalidFormat else .ok (longType base, 1 + l.length, ofBE l % 2 ^ pw) := by
  rw [List.cons_append, header_base pw m base _ _ hb h1 h8, decodeLongHeaderT, if_neg (by simp; omega)]
  simp only [fromBE_eq, ofBE_pad, List.drop_succ_cons, List.drop_zero, List.take_left, List.length_cons, List.length_append]
  rw [show l.length + rest.length + 1 = 1 + l.length + rest.length by omega]

theorem header_long_fits (pw : Nat) (m : Build) (base : Nat) (l rest : List UInt8) (hb : base = 183 ∨ base = 247) (h1 : 1 ≤ l.length)
    (h8 : l.length ≤ 8) (hf : 1 + l.length + ofBE l % 2 ^ pw < 2 ^ pw) :
    decodeDataHeaderT pw m (UInt8.ofNat (base + l.length) :: l ++ rest) =
      if rest.length < ofBE l % 2 ^ pw then .err .InvalidFormat else .ok (longType base, 1 + l.length, ofBE l % 2 ^ pw) := by
  rw [header_long pw m base l rest hb h1 h8, addUsize_ok m hf, out_bind_ok]
  by_cases hc : rest.length < ofBE l % 2 ^ pw
  · rw [if_pos hc, if_pos (by omega)]
  · rw [if_neg hc, if_neg (by omega)]

theorem overflow_wraps {a r pw : Nat} (hr : r < 2 ^ pw) (ha : a < 2 ^ pw) (h : ¬ a + r < 2 ^ pw) : (a + r) % 2 ^ pw < a := by
  rw [Nat.mod_eq_sub_mod (by omega), Nat.mod_eq_of_lt (by omega)]
  omega

theorem header_long_overflow (pw : Nat) (hpw : 8 ≤ pw) (m : Build) (base : Nat) (l rest : List UInt8) (hb : base = 183 ∨ base = 247)
    (h1 : 1 ≤ l.length) (h8 : l.length ≤ 8) (hf : ¬ 1 + l.length + ofBE l % 2 ^ pw < 2 ^ pw) :
    decodeDataHeaderT pw m (UInt8.ofNat (base + l.length) :: l ++ rest) =
      match m with
      | .debug => .panic
      | .release => .ok (longType base, 1 + l.length, ofBE l % 2 ^ pw) := by
  have h2 : 2 ^ 8 ≤ 2 ^ pw := Nat.pow_le_pow_right (by decide) hpw
  rw [header_long pw m base l rest hb h1 h8]
  cases m with
  | debug => simp only [addUsize, if_neg hf]; rfl
  | release =>
    have := overflow_wraps (a := 1 + l.length) (Nat.mod_lt (ofBE l) (show 2 ^ pw > 0 by omega)) (by omega) hf
    simp only [addUsize, if_neg hf]
    rw [out_bind_ok, if_neg (by omega)]

/-! ## The spec's notions on the forms of a header -/

theorem declares_iff (data : List UInt8) (k n : Nat) :
    Declares data k n ↔ ∃ base l rest, (base = 183 ∨ base = 247) ∧ 1 ≤ l.length ∧ l.length ≤ 8 ∧ data = UInt8.ofNat (base + l.length) :: l ++ rest ∧
      k = l.length ∧ n = ofBE l := by
  constructor
  · intro h
    cases h with
    | string l rest h1 h8 => exact ⟨183, l, rest, .inl rfl, h1, h8, rfl, rfl, rfl⟩
    | list l rest h1 h8 => exact ⟨247, l, rest, .inr rfl, h1, h8, rfl, rfl, rfl⟩
  · rintro ⟨base, l, rest, rfl | rfl, h1, h8, rfl, rfl, rfl⟩
    · exact .string l rest h1 h8
    · exact .list l rest h1 h8

theorem ofNat_inj {a b : Nat} (ha : a < 256) (hb : b < 256) (h : UInt8.ofNat a = UInt8.ofNat b) : a = b := by
  have := congrArg UInt8.toNat h
  rwa [ofNat_toNat_lt a ha, ofNat_toNat_lt b hb] at this

theorem declares_long {base : Nat} {l rest : List UInt8} {k n : Nat} (hb : base = 183 ∨ base = 247) (h1 : 1 ≤ l.length) (h8 : l.length ≤ 8) :
    Declares (UInt8.ofNat (base + l.length) :: l ++ rest) k n ↔ k = l.length ∧ n = ofBE l := by
  rw [declares_iff]
  constructor
  · rintro ⟨base', l', rest', hb', h1', h8', e, rfl, rfl⟩
    simp only [List.cons_append, List.cons.injEq] at e
    have := ofNat_inj (by omega) (by omega) e.1
    have hl : l.length = l'.length := by omega
    obtain ⟨rfl, -⟩ := List.append_inj e.2 hl
    exact ⟨rfl, rfl⟩
  · rintro ⟨rfl, rfl⟩
    exact ⟨base, l, rest, hb, h1, h8, rfl, rfl, rfl⟩

theorem not_declares_byte {b : UInt8} {rest : List UInt8} {k n : Nat} (h : b.toNat ≤ 183 ∨ (192 ≤ b.toNat ∧ b.toNat ≤ 247)) :
    ¬ Declares (b :: rest) k n := by
  rw [declares_iff]
  rintro ⟨base', l', rest', hb', h1', h8', e, rfl, rfl⟩
  simp only [List.cons_append, List.cons.injEq] at e
  have e1 := ofNat_toNat_lt (base' + l'.length) (by omega)
  rw [← e.1] at e1
  omega

theorem not_declares_cut {base k : Nat} {rest : List UInt8} {k' n : Nat} (hb : base = 183 ∨ base = 247) (h1 : 1 ≤ k) (h8 : k ≤ 8)
    (h : rest.length < k) : ¬ Declares (UInt8.ofNat (base + k) :: rest) k' n := by
  rw [declares_iff]
  rintro ⟨base', l', rest', hb', h1', h8', e, rfl, rfl⟩
  simp only [List.cons_append, List.cons.injEq] at e
  have := ofNat_inj (by omega) (by omega) e.1
  rw [e.2, List.length_append] at h
  omega

theorem truncated_ne_nil {pw : Nat} {t : ItemType} {p d : List UInt8} (h : TruncatedItem pw t p d) : d ≠ [] := by
  cases h <;> simp

theorem truncated_le {pw : Nat} {t : ItemType} {p d : List UInt8} (h : TruncatedItem pw t p d) : p.length ≤ d.length := by
  cases h <;> simp <;> omega

theorem longItem {pw base : Nat} (hb : base = 183 ∨ base = 247) (l p : List UInt8) (h1 : 1 ≤ l.length) (h8 : l.length ≤ 8)
    (hl : ofBE l % 2 ^ pw = p.length) : TruncatedItem pw (longType base) p (UInt8.ofNat (base + l.length) :: l ++ p) := by
  rcases hb with rfl | rfl
  · exact .long l p h1 h8 hl
  · exact .listLong l p h1 h8 hl

/-- The header decoder on data that starts with an item. -/
theorem truncated_header (pw : Nat) (m : Build) {t : ItemType} {p d : List UInt8} (rest : List UInt8)
    (h : TruncatedItem pw t p d) (hlen : d.length < 2 ^ pw) :
    ∃ n, decodeDataHeaderT pw m (d ++ rest) = .ok (t, n, p.length) ∧ d.length = n + p.length ∧ d.drop n = p := by
  have long : ∀ base, base = 183 ∨ base = 247 → ∀ l p : List UInt8, 1 ≤ l.length → l.length ≤ 8 → ofBE l % 2 ^ pw = p.length →
      (UInt8.ofNat (base + l.length) :: l ++ p).length < 2 ^ pw →
      ∃ n, decodeDataHeaderT pw m (UInt8.ofNat (base + l.length) :: l ++ p ++ rest) = .ok (longType base, n, p.length) ∧
        (UInt8.ofNat (base + l.length) :: l ++ p).length = n + p.length ∧ (UInt8.ofNat (base + l.length) :: l ++ p).drop n = p := by
    intro base hb l p h1 h8 hl hlen
    refine ⟨1 + l.length, ?_, by simp; omega, by rw [Nat.add_comm 1]; simp⟩
    simp only [List.length_cons, List.length_append, List.cons_append] at hlen
    rw [List.append_assoc, header_long_fits pw m base l (p ++ rest) hb h1 h8 (by omega), if_neg (by simp; omega), hl]
  cases h with
  | single b h => exact ⟨0, header_single pw m b rest h, rfl, rfl⟩
  | short p h => exact ⟨1, header_short pw m p.length (p ++ rest) h, by simp; omega, rfl⟩
  | long l p h1 h8 hl => exact long 183 (.inl rfl) l p h1 h8 hl hlen
  | listShort p h => exact ⟨1, header_shortList pw m p.length (p ++ rest) h, by simp; omega, rfl⟩
  | listLong l p h1 h8 hl => exact long 247 (.inr rfl) l p h1 h8 hl hlen

/-- What the header decoder does on any data. -/
theorem header_casesT (pw : Nat) (hpw : 8 ≤ pw) (m : Build) (data : List UInt8) :
    (OverflowsTarget pw data ∧
      ((m = .debug ∧ decodeDataHeaderT pw m data = .panic) ∨
       (m = .release ∧ ∃ t h n, decodeDataHeaderT pw m data = .ok (t, h, n) ∧ ¬ h + n < 2 ^ pw ∧ n < 2 ^ pw ∧ h < 2 ^ pw ∧ h ≤ data.length))) ∨
    (¬ OverflowsTarget pw data ∧
      (decodeDataHeaderT pw m data = .err .InvalidFormat ∨
       ∃ t h n, decodeDataHeaderT pw m data = .ok (t, h, n) ∧ h + n < 2 ^ pw ∧ h ≤ data.length ∧
        (h + n ≤ data.length → TruncatedItem pw t ((data.take (h + n)).drop h) (data.take (h + n))))) := by
  have h2 : 2 ^ 8 ≤ 2 ^ pw := Nat.pow_le_pow_right (by decide) hpw
  have h2' : (2 : Nat) ^ 8 = 256 := by decide
  have short : ∀ (b : UInt8) (rest : List UInt8), b.toNat ≤ 183 ∨ (192 ≤ b.toNat ∧ b.toNat ≤ 247) → ¬ OverflowsTarget pw (b :: rest) := by
    rintro b rest h ⟨k, n, hd, _⟩
    exact not_declares_byte h hd
  cases view data with
  | nil =>
    refine .inr ⟨?_, .inl rfl⟩
    rintro ⟨k, n, hd, _⟩
    cases hd
  | single b rest h =>
    refine .inr ⟨short b rest (by omega), .inr ⟨_, _, _, header_single pw m b rest h, by omega, by omega, fun _ => ?_⟩⟩
    exact .single b h
  | short n rest h =>
    have e := ofNat_toNat_lt (128 + n) (by omega)
    refine .inr ⟨short _ rest (by omega), .inr ⟨_, _, _, header_short pw m n rest h, by omega, by simp, fun hl => ?_⟩⟩
    simp only [List.length_cons] at hl
    have hn : (rest.take n).length = n := by rw [List.length_take]; omega
    rw [Nat.add_comm 1 n, List.take_succ_cons, List.drop_succ_cons, List.drop_zero]
    have := TruncatedItem.short (pw := pw) (rest.take n) (by omega)
    rwa [hn] at this
  | shortList n rest h =>
    have e := ofNat_toNat_lt (192 + n) (by omega)
    refine .inr ⟨short _ rest (by omega), .inr ⟨_, _, _, header_shortList pw m n rest h, by omega, by simp, fun hl => ?_⟩⟩
    simp only [List.length_cons] at hl
    have hn : (rest.take n).length = n := by rw [List.length_take]; omega
    rw [Nat.add_comm 1 n, List.take_succ_cons, List.drop_succ_cons, List.drop_zero]
    have := TruncatedItem.listShort (pw := pw) (rest.take n) (by omega)
    rwa [hn] at this
  | cut base k rest hb h1 h8 h =>
    refine .inr ⟨?_, .inl (header_cut pw m base k rest hb h1 h8 h)⟩
    rintro ⟨k', n, hd, _⟩
    exact not_declares_cut hb h1 h8 h hd
  | long base l rest hb h1 h8 =>
    by_cases hf : 1 + l.length + ofBE l % 2 ^ pw < 2 ^ pw
    · refine .inr ⟨?_, ?_⟩
      · rintro ⟨k, n, hd, ho⟩
        obtain ⟨rfl, rfl⟩ := (declares_long hb h1 h8).mp hd
        omega
      · rw [header_long_fits pw m base l rest hb h1 h8 hf]
        by_cases hc : rest.length < ofBE l % 2 ^ pw
        · exact .inl (if_pos hc)
        · refine .inr ⟨_, _, _, if_neg hc, hf, by simp; omega, fun _ => ?_⟩
          have hn : (rest.take (ofBE l % 2 ^ pw)).length = ofBE l % 2 ^ pw := by rw [List.length_take]; omega
          have e1 : (UInt8.ofNat (base + l.length) :: l ++ rest).take (1 + l.length + ofBE l % 2 ^ pw) =
              UInt8.ofNat (base + l.length) :: l ++ rest.take (ofBE l % 2 ^ pw) := by
            rw [show 1 + l.length + ofBE l % 2 ^ pw = (l.length + ofBE l % 2 ^ pw) + 1 by omega, List.cons_append, List.take_succ_cons,
              List.take_length_add_append]
            rfl
          rw [e1]
          have e2 : (UInt8.ofNat (base + l.length) :: l ++ rest.take (ofBE l % 2 ^ pw)).drop (1 + l.length) = rest.take (ofBE l % 2 ^ pw) := by
            rw [Nat.add_comm 1]; simp
          rw [e2]
          exact longItem hb l _ h1 h8 hn.symm
    · refine .inl ⟨⟨l.length, ofBE l, (declares_long hb h1 h8).mpr ⟨rfl, rfl⟩, by omega⟩, ?_⟩
      have := header_long_overflow pw hpw m base l rest hb h1 h8 hf
      cases m with
      | debug => exact .inl ⟨rfl, this⟩
      | release => exact .inr ⟨rfl, _, _, _, this, hf, Nat.mod_lt _ (by omega), by omega, by simp; omega⟩

/-! ## One item -/

theorem truncated_decodeData (pw : Nat) (m : Build) {t : ItemType} {p d : List UInt8} (h : TruncatedItem pw t p d) (hlen : d.length < 2 ^ pw) :
    decodeDataT pw m d = .ok (t, p) := by
  obtain ⟨n, hn, hl, hp⟩ := truncated_header pw m [] h hlen
  rw [List.append_nil] at hn
  simp only [decodeDataT, hn, out_bind_ok]
  rw [addUsize_ok m (by omega), out_bind_ok, if_neg (by omega), sliceFrom, if_pos (by omega), hp]
  rfl

theorem decodeDataT_overflow (pw : Nat) (hpw : 8 ≤ pw) (m : Build) (data : List UInt8) (h : OverflowsTarget pw data) :
    decodeDataT pw m data = match m with | .debug => .panic | .release => .err .InvalidFormat := by
  rcases header_casesT pw hpw m data with ⟨_, ⟨rfl, hh⟩ | ⟨rfl, t, k, n, hh, ho, hn, hk, hle⟩⟩ | ⟨hn, _⟩
  · simp only [decodeDataT, hh]; rfl
  · simp only [decodeDataT, hh, out_bind_ok, addUsize, if_neg ho]
    have := overflow_wraps hn hk ho
    rw [if_pos (by omega)]
  · exact absurd h hn

theorem decodeDataT_iff (pw : Nat) (hpw : 8 ≤ pw) (m : Build) (data : List UInt8) (t : ItemType) (p : List UInt8) (hlen : data.length < 2 ^ pw) :
    decodeDataT pw m data = .ok (t, p) ↔ TruncatedItem pw t p data := by
  refine ⟨fun h => ?_, fun h => truncated_decodeData pw m h hlen⟩
  rcases header_casesT pw hpw m data with ⟨ho, _⟩ | ⟨_, hh | ⟨t', k, n, hh, hlt, hle, hi⟩⟩
  · rw [decodeDataT_overflow pw hpw m data ho] at h
    cases m <;> cases h
  · simp only [decodeDataT, hh] at h
    cases h
  · simp only [decodeDataT, hh, out_bind_ok] at h
    rw [addUsize_ok m hlt, out_bind_ok] at h
    split at h
    · cases h
    · rename_i hc
      have hc : data.length = k + n := by omega
      rw [sliceFrom, if_pos hle] at h
      cases h
      have := hi (by omega)
      rwa [List.take_of_length_le (by omega)] at this

theorem decodeDataT_panic_iff (pw : Nat) (hpw : 8 ≤ pw) (m : Build) (data : List UInt8) :
    (¬ (decodeDataT pw m data).Returns ↔ m = .debug ∧ OverflowsTarget pw data) ∧ decodeDataT pw m data ≠ .hang := by
  rcases header_casesT pw hpw m data with ⟨ho, _⟩ | ⟨hn, hh | ⟨t', k, n, hh, hlt, hle, hi⟩⟩
  · rw [decodeDataT_overflow pw hpw m data ho]
    cases m <;> simp [ho, Out.Returns]
  · simp only [decodeDataT, hh, Out.bind]
    simp [hn, Out.Returns]
  · simp only [decodeDataT, hh, out_bind_ok]
    rw [addUsize_ok m hlt, out_bind_ok]
    by_cases hc : data.length ≠ k + n
    · rw [if_pos hc]; simp [hn, Out.Returns]
    · rw [if_neg hc, sliceFrom, if_pos hle]; simp [hn, Out.Returns, Out.bind]

/-! ## Lists -/

theorem decodeListLoopT_cons (pw : Nat) (m : Build) (fuel : Nat) {t : ItemType} {p d : List UInt8} (rest : List UInt8)
    (h : TruncatedItem pw t p d) (hlen : d.length < 2 ^ pw) :
    decodeListLoopT pw m (fuel + 1) (d ++ rest) = (decodeListLoopT pw m fuel rest).bind fun items => .ok ((t, p) :: items) := by
  obtain ⟨n, hn, hl, hp⟩ := truncated_header pw m rest h hlen
  have hne : ¬ (d ++ rest).isEmpty := by
    have := truncated_ne_nil h
    cases d <;> simp at this ⊢
  simp only [decodeListLoopT, if_neg hne, hn, out_bind_ok]
  rw [addUsize_ok m (by omega)]
  simp only [out_bind_ok]
  rw [if_neg (by simp; omega), ← hl, List.take_left, List.drop_left]
  simp only [sliceFrom]
  rw [if_pos (by omega), hp]
  rfl

theorem decodeListLoopT_overflow (pw : Nat) (hpw : 8 ≤ pw) (m : Build) (fuel : Nat) (data : List UInt8) (h : OverflowsTarget pw data) :
    decodeListLoopT pw m (fuel + 1) data = .panic := by
  have hne : ¬ data.isEmpty := by
    obtain ⟨k, n, hd, _⟩ := h
    cases hd <;> simp
  rcases header_casesT pw hpw m data with ⟨_, ⟨rfl, hh⟩ | ⟨rfl, t, k, n, hh, ho, hn, hk, hle⟩⟩ | ⟨hn, _⟩
  · simp only [decodeListLoopT, if_neg hne, hh]; rfl
  · simp only [decodeListLoopT, if_neg hne, hh, out_bind_ok, addUsize, if_neg ho]
    have := overflow_wraps hn hk ho
    rw [if_neg (by omega), sliceFrom, if_neg (by rw [List.length_take]; omega)]
    rfl
  · exact absurd h hn

/-- One step of the loop, in general. -/
theorem decodeListLoopT_step (pw : Nat) (hpw : 8 ≤ pw) (m : Build) (fuel : Nat) (data : List UInt8) :
    (data = [] ∧ decodeListLoopT pw m (fuel + 1) data = .ok []) ∨
    (OverflowsTarget pw data ∧ decodeListLoopT pw m (fuel + 1) data = .panic) ∨
    (decodeListLoopT pw m (fuel + 1) data = .err .InvalidFormat) ∨
    ∃ t p d rest, TruncatedItem pw t p d ∧ data = d ++ rest := by
  by_cases h0 : data = []
  · subst h0; exact Or.inl ⟨rfl, rfl⟩
  refine Or.inr ?_
  have hne : ¬ data.isEmpty := by cases data <;> simp at h0 ⊢
  rcases header_casesT pw hpw m data with ⟨ho, _⟩ | ⟨_, hh | ⟨t', k, n, hh, hlt, hle, hi⟩⟩
  · exact .inl ⟨ho, decodeListLoopT_overflow pw hpw m fuel data ho⟩
  · refine .inr (.inl ?_)
    simp only [decodeListLoopT, if_neg hne, hh, out_bind_err]
  · refine .inr ?_
    by_cases hc : data.length < k + n
    · refine .inl ?_
      simp only [decodeListLoopT, if_neg hne, hh, out_bind_ok]
      rw [addUsize_ok m hlt, out_bind_ok, if_pos hc]
    · exact .inr ⟨_, _, _, _, hi (by omega), (List.take_append_drop _ _).symm⟩

theorem decodeListLoopT_iff (pw : Nat) (hpw : 8 ≤ pw) (m : Build) (fuel : Nat) (data : List UInt8) (items : List (ItemType × List UInt8))
    (hf : data.length < fuel) (hlen : data.length < 2 ^ pw) : decodeListLoopT pw m fuel data = .ok items ↔ TruncatedSeq pw items data := by
  induction fuel generalizing data items with
  | zero => omega
  | succ fuel ih =>
    constructor
    · intro h
      rcases decodeListLoopT_step pw hpw m fuel data with ⟨rfl, h1⟩ | ⟨_, h1⟩ | h1 | ⟨t, p, d, rest, hi, rfl⟩
      · rw [h1] at h; cases h; exact .nil
      · rw [h1] at h; cases h
      · rw [h1] at h; cases h
      · have hd : d.length ≠ 0 := by simpa using truncated_ne_nil hi
        simp only [List.length_append] at hlen hf
        rw [decodeListLoopT_cons pw m fuel rest hi (by omega)] at h
        obtain ⟨xs, h2, h3⟩ := out_bind_eq_ok.mp h
        cases h3
        exact .cons _ _ _ _ _ hi ((ih rest xs (by omega) (by omega)).mp h2)
    · intro h
      cases h with
      | nil => rfl
      | cons t p d xs ds h hs =>
        have hd : d.length ≠ 0 := by simpa using truncated_ne_nil h
        simp only [List.length_append] at hlen hf
        rw [decodeListLoopT_cons pw m fuel ds h (by omega), (ih ds xs (by omega) (by omega)).mpr hs]
        rfl

theorem decodeListLoopT_panic_iff (pw : Nat) (hpw : 8 ≤ pw) (m : Build) (fuel : Nat) (data : List UInt8) (hf : data.length < fuel)
    (hlen : data.length < 2 ^ pw) :
    decodeListLoopT pw m fuel data = .panic ↔ ∃ items a s, data = a ++ s ∧ TruncatedSeq pw items a ∧ OverflowsTarget pw s := by
  induction fuel generalizing data with
  | zero => omega
  | succ fuel ih =>
    constructor
    · intro h
      rcases decodeListLoopT_step pw hpw m fuel data with ⟨rfl, h1⟩ | ⟨hh, h1⟩ | h1 | ⟨t, p, d, rest, hi, rfl⟩
      · rw [h1] at h; cases h
      · exact ⟨[], [], data, rfl, .nil, hh⟩
      · rw [h1] at h; cases h
      · have hd : d.length ≠ 0 := by simpa using truncated_ne_nil hi
        simp only [List.length_append] at hlen hf
        rw [decodeListLoopT_cons pw m fuel rest hi (by omega)] at h
        have h2 : decodeListLoopT pw m fuel rest = .panic := by
          cases hx : decodeListLoopT pw m fuel rest <;> rw [hx] at h <;> first | rfl | cases h
        obtain ⟨items, a, s, rfl, hs, hh⟩ := (ih rest (by omega) (by omega)).mp h2
        exact ⟨_, d ++ a, s, by simp, .cons _ _ _ _ _ hi hs, hh⟩
    · rintro ⟨items, a, s, rfl, hs, hh⟩
      cases hs with
      | nil => exact decodeListLoopT_overflow pw hpw m fuel s hh
      | cons t p d xs ds h hs =>
        have hd : d.length ≠ 0 := by simpa using truncated_ne_nil h
        simp only [List.length_append] at hlen hf
        rw [List.append_assoc, decodeListLoopT_cons pw m fuel _ h (by omega),
          (ih (ds ++ s) (by simp; omega) (by simp; omega)).mpr ⟨xs, ds, s, rfl, hs, hh⟩]
        rfl

/-! ## Agreement of targets -/

/-- No header in `data` declares a length of `2^pw - 9` or more. -/
def Modest (pw : Nat) (data : List UInt8) : Prop := ∀ s, s <:+: data → ∀ k n, Declares s k n → n < 2 ^ pw - 9

theorem header_agree (pw pw' : Nat) (hpw : 8 ≤ pw) (hle : pw ≤ pw') (m : Build) (data : List UInt8)
    (h : ∀ k n, Declares data k n → n < 2 ^ pw - 9) :
    decodeDataHeaderT pw m data = decodeDataHeaderT pw' m data ∧ ∀ t k n, decodeDataHeaderT pw m data = .ok (t, k, n) → k + n < 2 ^ pw := by
  have h2 : 2 ^ 8 ≤ 2 ^ pw := Nat.pow_le_pow_right (by decide) hpw
  have h2' : (2 : Nat) ^ 8 = 256 := by decide
  have h3 : 2 ^ pw ≤ 2 ^ pw' := Nat.pow_le_pow_right (by decide) hle
  cases view data with
  | nil => exact ⟨rfl, nofun⟩
  | single b rest hb =>
    rw [header_single pw m b rest hb, header_single pw' m b rest hb]
    refine ⟨rfl, fun t k n e => ?_⟩
    cases e; omega
  | short n rest hb =>
    rw [header_short pw m n rest hb, header_short pw' m n rest hb]
    refine ⟨rfl, fun t k n e => ?_⟩
    cases e; omega
  | shortList n rest hb =>
    rw [header_shortList pw m n rest hb, header_shortList pw' m n rest hb]
    refine ⟨rfl, fun t k n e => ?_⟩
    cases e; omega
  | cut base k rest hb h1 h8 hc =>
    rw [header_cut pw m base k rest hb h1 h8 hc, header_cut pw' m base k rest hb h1 h8 hc]
    exact ⟨rfl, nofun⟩
  | long base l rest hb h1 h8 =>
    have hd := h _ _ ((declares_long hb h1 h8).mpr ⟨rfl, rfl⟩)
    have e1 : ofBE l % 2 ^ pw = ofBE l := Nat.mod_eq_of_lt (by omega)
    have e2 : ofBE l % 2 ^ pw' = ofBE l := Nat.mod_eq_of_lt (by omega)
    rw [header_long_fits pw m base l rest hb h1 h8 (by omega), header_long_fits pw' m base l rest hb h1 h8 (by omega), e1, e2]
    refine ⟨rfl, fun t k n e => ?_⟩
    split at e
    · cases e
    · cases e; omega

theorem Modest.infix {pw : Nat} {d e : List UInt8} (h : Modest pw d) (he : e <:+: d) : Modest pw e :=
  fun s hs => h s (hs.trans he)

theorem Modest.self {pw : Nat} {d : List UInt8} (h : Modest pw d) : ∀ k n, Declares d k n → n < 2 ^ pw - 9 := h d List.infix_rfl

theorem decodeDataT_agree (pw pw' : Nat) (hpw : 8 ≤ pw) (hle : pw ≤ pw') (m : Build) (data : List UInt8) (h : Modest pw data) :
    decodeDataT pw m data = decodeDataT pw' m data := by
  have h3 : 2 ^ pw ≤ 2 ^ pw' := Nat.pow_le_pow_right (by decide) hle
  obtain ⟨e, hb⟩ := header_agree pw pw' hpw hle m data h.self
  unfold decodeDataT
  rw [← e]
  cases hd : decodeDataHeaderT pw m data with
  | ok r =>
    obtain ⟨t, k, n⟩ := r
    have := hb t k n hd
    simp only [out_bind_ok]
    rw [addUsize_ok m this, addUsize_ok m (by omega)]
  | err _ => rfl
  | panic => rfl
  | hang => rfl

theorem decodeListLoopT_agree (pw pw' : Nat) (hpw : 8 ≤ pw) (hle : pw ≤ pw') (m : Build) (fuel : Nat) :
    ∀ data, Modest pw data → decodeListLoopT pw m fuel data = decodeListLoopT pw' m fuel data := by
  have h3 : 2 ^ pw ≤ 2 ^ pw' := Nat.pow_le_pow_right (by decide) hle
  induction fuel with
  | zero => intro data _; rfl
  | succ fuel ih =>
    intro data h
    obtain ⟨e, hb⟩ := header_agree pw pw' hpw hle m data h.self
    simp only [decodeListLoopT]
    rw [← e]
    cases hd : decodeDataHeaderT pw m data with
    | ok r =>
      obtain ⟨t, k, n⟩ := r
      have := hb t k n hd
      simp only [out_bind_ok]
      rw [addUsize_ok m this, addUsize_ok m (by omega)]
      simp only [out_bind_ok]
      rw [ih (data.drop (k + n)) (h.infix (List.drop_suffix _ _).isInfix)]
    | err _ => rfl
    | panic => rfl
    | hang => rfl

/-- The payloads of a list stand in it. -/
theorem listLoop_infix (pw : Nat) (m : Build) (fuel : Nat) : ∀ data items, decodeListLoopT pw m fuel data = .ok items →
    ∀ a ∈ items, a.2 <:+: data := by
  induction fuel with
  | zero => intro data items h; cases h
  | succ fuel ih =>
    intro data items h a ha
    simp only [decodeListLoopT] at h
    split at h
    · cases h; cases ha
    · obtain ⟨⟨t, k, n⟩, -, h⟩ := out_bind_eq_ok.mp h
      obtain ⟨total, -, h⟩ := out_bind_eq_ok.mp h
      split at h
      · cases h
      · obtain ⟨p, hp, h⟩ := out_bind_eq_ok.mp h
        obtain ⟨rest, hr, h⟩ := out_bind_eq_ok.mp h
        cases h
        rcases List.mem_cons.mp ha with rfl | ha
        · rw [sliceFrom] at hp
          split at hp
          · cases hp
            exact (List.drop_suffix _ _).isInfix.trans (List.take_prefix _ _).isInfix
          · cases hp
        · exact (ih _ _ hr a ha).trans (List.drop_suffix _ _).isInfix

theorem decAll_congr {α : Type} {dec dec' : Dec α} {ds : List DecItem} (h : ∀ d ∈ ds, dec d = dec' d) : decAll dec ds = decAll dec' ds := by
  induction ds with
  | nil => rfl
  | cons d ds ih =>
    rw [decAll, decAll, h d List.mem_cons_self, ih fun x hx => h x (List.mem_cons_of_mem _ hx)]

theorem decVecT_agree {α : Type} (pw pw' : Nat) (hpw : 8 ≤ pw) (hle : pw ≤ pw') (m : Build) (dec dec' : Dec α) (d : DecItem)
    (h : Modest pw d.payload) (hd : ∀ e : DecItem, e.payload <:+: d.payload → dec e = dec' e) : decVecT pw m dec d = decVecT pw' m dec' d := by
  unfold decVecT decodeListPayloadT
  rw [← decodeListLoopT_agree pw pw' hpw hle m _ _ h]
  congr 1
  funext _
  split
  · rfl
  · cases hx : decodeListLoopT pw m (d.payload.length + 1) d.payload with
    | ok items =>
      simp only [out_bind_ok]
      apply decAll_congr
      intro e he
      obtain ⟨a, ha, rfl⟩ := List.mem_map.mp he
      exact hd _ (listLoop_infix pw m _ _ _ hx a ha)
    | err _ => rfl
    | panic => rfl
    | hang => rfl

theorem decTreeT_agree (pw pw' : Nat) (hpw : 8 ≤ pw) (hle : pw ≤ pw') (m : Build) (fuel : Nat) :
    ∀ d : DecItem, Modest pw d.payload → decTreeT pw m fuel d = decTreeT pw' m fuel d := by
  induction fuel with
  | zero => intro d _; rfl
  | succ fuel ih =>
    rintro ⟨t, p⟩ h
    cases t with
    | SingleValue => rfl
    | List =>
      simp only [decTreeT]
      rw [decVecT_agree pw pw' hpw hle m _ _ ⟨.List, p⟩ h fun e he => ih e (h.infix he)]

theorem decodeDataT_infix {pw : Nat} {m : Build} {data : List UInt8} {t : ItemType} {p : List UInt8} (h : decodeDataT pw m data = .ok (t, p)) :
    p <:+: data := by
  unfold decodeDataT at h
  obtain ⟨⟨t', k, n⟩, -, h⟩ := out_bind_eq_ok.mp h
  obtain ⟨total, -, h⟩ := out_bind_eq_ok.mp h
  split at h
  · cases h
  · obtain ⟨q, hq, h⟩ := out_bind_eq_ok.mp h
    cases h
    rw [sliceFrom] at hq
    split at hq
    · cases hq; exact (List.drop_suffix _ _).isInfix
    · cases hq

theorem decodeT_agree {α : Type} (pw pw' : Nat) (hpw : 8 ≤ pw) (hle : pw ≤ pw') (m : Build) (dec dec' : Dec α) (data : List UInt8)
    (h : Modest pw data) (hd : ∀ e : DecItem, Modest pw e.payload → dec e = dec' e) : decodeT pw m dec data = decodeT pw' m dec' data := by
  unfold decodeT
  rw [← decodeDataT_agree pw pw' hpw hle m data h]
  cases hx : decodeDataT pw m data with
  | ok r =>
    obtain ⟨t, p⟩ := r
    exact hd _ (h.infix (decodeDataT_infix hx))
  | err _ => rfl
  | panic => rfl
  | hang => rfl

theorem decodeTreeT_agree (pw pw' : Nat) (hpw : 8 ≤ pw) (hle : pw ≤ pw') (m : Build) (data : List UInt8) (h : Modest pw data) :
    decodeTreeT pw m data = decodeTreeT pw' m data :=
  decodeT_agree pw pw' hpw hle m _ _ data h fun e he => decTreeT_agree pw pw' hpw hle m _ e he

/-- Declarations only depend on the beginning. -/
theorem declares_append {d : List UInt8} {k n : Nat} (h : Declares d k n) (rest : List UInt8) : Declares (d ++ rest) k n := by
  cases h with
  | string l r h1 h8 => rw [List.append_assoc]; exact .string l _ h1 h8
  | list l r h1 h8 => rw [List.append_assoc]; exact .list l _ h1 h8

theorem modest_iff (pw : Nat) (data : List UInt8) : Modest pw data ↔ ∀ s, s <:+ data → ∀ k n, Declares s k n → n < 2 ^ pw - 9 := by
  refine ⟨fun h s hs => h s hs.isInfix, fun h s hs k n hd => ?_⟩
  obtain ⟨a, b, rfl⟩ := hs
  exact h (s ++ b) ⟨a, by simp⟩ k n (declares_append hd b)

/-! ## 64-bit targets -/

theorem longHeader_64 (m : Build) (t : ItemType) (k : Nat) (hk : k ≤ 8) (data : List UInt8) :
    decodeLongHeaderT 64 m t k data = decodeLongHeader m t k data := by
  have h : fromBE (List.replicate (8 - k) 0 ++ (data.drop 1).take k) % 2 ^ 64 = fromBE (List.replicate (8 - k) 0 ++ (data.drop 1).take k) := by
    apply Nat.mod_eq_of_lt
    rw [fromBE_eq, ofBE_pad]
    have h1 := ofBE_take_lt (data.drop 1) k
    have h2 : 256 ^ k ≤ 256 ^ 8 := Nat.pow_le_pow_right (by decide) hk
    have : (256 : Nat) ^ 8 = 2 ^ 64 := by decide
    omega
  unfold decodeLongHeaderT decodeLongHeader
  simp only [h, addUsize_64]

theorem header_64 (m : Build) (data : List UInt8) : decodeDataHeaderT 64 m data = decodeDataHeader m data := by
  cases data with
  | nil => rfl
  | cons b rest =>
    have hb := b.toNat_lt
    rw [decodeDataHeaderT_cons, decodeDataHeader_cons]
    split
    · rfl
    · split
      · rfl
      · split
        · exact longHeader_64 m _ _ (by omega) _
        · split
          · rfl
          · exact longHeader_64 m _ _ (by omega) _

theorem decodeData_64 (m : Build) (data : List UInt8) : decodeDataT 64 m data = decodeData m data := by
  unfold decodeDataT decodeData
  rw [header_64]
  simp only [addUsize_64]

theorem decodeListLoop_64 (m : Build) (fuel : Nat) : ∀ data, decodeListLoopT 64 m fuel data = decodeListLoop m fuel data := by
  induction fuel with
  | zero => intro data; rfl
  | succ fuel ih =>
    intro data
    simp only [decodeListLoopT, decodeListLoop, header_64, addUsize_64, ih]

theorem decodeListPayload_64 (m : Build) (data : List UInt8) : decodeListPayloadT 64 m data = decodeListPayload m data :=
  decodeListLoop_64 m _ data

theorem decVec_64 {α : Type} (m : Build) (dec : Dec α) (d : DecItem) : decVecT 64 m dec d = decVec m dec d := by
  unfold decVecT decVec DecItem.decodeAsItems
  rw [decodeListPayload_64]
  congr 1
  funext _
  split
  · rfl
  · cases decodeListPayload m d.payload <;> rfl

theorem decTree_64 (m : Build) (fuel : Nat) : ∀ d, decTreeT 64 m fuel d = decTree m fuel d := by
  induction fuel with
  | zero => intro d; rfl
  | succ fuel ih =>
    rintro ⟨t, p⟩
    cases t with
    | SingleValue => rfl
    | List =>
      simp only [decTreeT, decTree, decVec_64]
      rw [show decTreeT 64 m fuel = decTree m fuel from funext ih]

theorem decode_64 {α : Type} (m : Build) (dec : Dec α) (data : List UInt8) : decodeT 64 m dec data = decode m dec data := by
  unfold decodeT decode DecItem.newFromData
  rw [decodeData_64]
  cases decodeData m data <;> rfl

theorem decodeTree_64 (m : Build) (data : List UInt8) : decodeTreeT 64 m data = decodeTree m data := by
  unfold decodeTreeT decodeTree
  rw [decode_64, show decTreeT 64 m (data.length + 1) = decTree m (data.length + 1) from funext (decTree_64 m _)]

end LCT.Rlp
