import Verif.Lemmas.Ethereum.Accept
import Verif.Lemmas.Crypto.Rfc6979

/-!
# The canonical encoding of a transaction against the other accepted ones
-/

namespace LCT.Ethereum
open LCT.BigInt LCT.Rlp LCT.Spec LCT.Spec.Eth LCT.Out

theorem laxNum_num (n : Nat) : LaxNum n (num n) := ⟨_, rfl, ofBE_minBE n⟩

theorem laxU64_num {n : Nat} (h : n < 2 ^ 64) : LaxU64 n (num n) :=
  ⟨_, rfl, minBE_length_le n 8 (by omega), ofBE_minBE n⟩

theorem laxNum_of_u64 {n : Nat} {x : Item} (h : LaxU64 n x) : LaxNum n x :=
  let ⟨b, h1, _, h3⟩ := h
  ⟨b, h1, h3⟩

theorem encodeSingle_length (p : List UInt8) (h : p.length < 2 ^ 64) :
    (encodeItem .SingleValue p).length = if p.length = 1 ∧ ∀ b ∈ p, b.toNat < 128 then 1
      else if p.length < 56 then p.length + 1 else 1 + (minBE p.length).length + p.length := by
  rw [encodeItem_single_eq p h, rlpBytes]
  split
  · rename_i h; exact h.1
  · split
    · simp
    · simp; omega

theorem encodeSingle_le {p q : List UInt8} (h : p.length < q.length) (hq : q.length < 2 ^ 64) :
    (encodeItem .SingleValue p).length ≤ (encodeItem .SingleValue q).length := by
  rw [encodeSingle_length p (by omega), encodeSingle_length q hq]
  have := minBE_length_mono (Nat.le_of_lt h)
  have : 1 ≤ q.length := by omega
  repeat' split
  all_goals omega

theorem lax_le {n : Nat} {x : Item} (h : LaxNum n x) (hl : (treeBytes x).length < 2 ^ 64) :
    (treeBytes (num n)).length ≤ (treeBytes x).length := by
  obtain ⟨b, rfl, rfl⟩ := h
  rw [num]
  rw [treeBytes] at hl
  simp only [treeBytes]
  have := payload_le .SingleValue b
  rcases length_bytes_min b with h | h
  · rw [h]
  · exact encodeSingle_le h (by omega)

theorem treesBytes_cons_le {x y : Item} {xs ys : List Item} (h : (treeBytes x).length < 2 ^ 64 → (treeBytes y).length ≤ (treeBytes x).length)
    (hs : (treesBytes xs).length < 2 ^ 64 → (treesBytes ys).length ≤ (treesBytes xs).length) :
    (treesBytes (x :: xs)).length < 2 ^ 64 → (treesBytes (y :: ys)).length ≤ (treesBytes (x :: xs)).length := by
  intro hl
  simp only [treesBytes, List.length_append] at hl ⊢
  have := h (by omega)
  have := hs (by omega)
  omega

theorem lists_le {xs ys : List Item} (h : (treesBytes xs).length < 2 ^ 64 → (treesBytes ys).length ≤ (treesBytes xs).length) {data : List UInt8}
    (hd : RelaxedTree (.list xs) data) (hl : data.length < 2 ^ 64) : (rlp (.list ys)).length ≤ data.length ∧ (rlp (.list ys)).length < 2 ^ 64 := by
  have h0 : (treeBytes (.list xs)).length ≤ data.length := by
    rcases tree_shortest _ _ hd hl with h | h
    · rw [← h]
    · omega
  have h1 := payload_le .List (treesBytes xs)
  have h2 := h0
  rw [treeBytes] at h2
  have h3 : (treeBytes (.list ys)).length ≤ data.length := by
    rw [treeBytes]
    have h5 := h (by omega)
    rcases Nat.lt_or_eq_of_le h5 with h4 | h4
    · have := encodeList_length_lt h4 (by omega)
      omega
    · have h6 : (treesBytes ys).length < 2 ^ 64 := by omega
      rw [encodeList_length _ (by omega)] at h2
      rw [encodeList_length _ h6, h4]; exact h2
  have h4 := treeBytes_rlp (.list ys) (by omega)
  rw [← h4]
  exact ⟨h3, by omega⟩

theorem trees_nil_le : (treesBytes []).length < 2 ^ 64 → (treesBytes []).length ≤ (treesBytes []).length := fun _ => Nat.le_refl _

theorem legacy_le {t : Legacy} {v r s : Nat} {data : List UInt8} (h : IsListOf (t.kinds v r s) data) (hl : data.length < 2 ^ 64) :
    (rlp (signedList t.fields v r s)).length ≤ data.length ∧ (rlp (signedList t.fields v r s)).length < 2 ^ 64 := by
  obtain ⟨xs, hd, hf⟩ := h
  match xs, hf with
  | [i1, i2, i3, i4, i5, i6, i7, i8, i9], ⟨l1, l2, l3, l4, l5, l6, l7, l8, l9, _⟩ =>
  subst l4 l6
  exact lists_le (treesBytes_cons_le (lax_le (laxNum_of_u64 l1)) <| treesBytes_cons_le (lax_le l2) <|
    treesBytes_cons_le (lax_le (laxNum_of_u64 l3)) <| treesBytes_cons_le (fun _ => Nat.le_refl _) <| treesBytes_cons_le (lax_le l5) <|
    treesBytes_cons_le (fun _ => Nat.le_refl _) <| treesBytes_cons_le (lax_le (laxNum_of_u64 l7)) <| treesBytes_cons_le (lax_le l8) <|
    treesBytes_cons_le (lax_le l9) trees_nil_le) hd hl

theorem eip155_le {t : Eip155} {v r s : Nat} {data : List UInt8} (h : IsListOf (t.kinds v r s) data) (hl : data.length < 2 ^ 64) :
    (rlp (signedList t.fields v r s)).length ≤ data.length ∧ (rlp (signedList t.fields v r s)).length < 2 ^ 64 := by
  obtain ⟨xs, hd, hf⟩ := h
  match xs, hf with
  | [i1, i2, i3, i4, i5, i6, i7, i8, i9], ⟨l1, l2, l3, l4, l5, l6, l7, l8, l9, _⟩ =>
  subst l4 l6
  exact lists_le (treesBytes_cons_le (lax_le (laxNum_of_u64 l1)) <| treesBytes_cons_le (lax_le l2) <|
    treesBytes_cons_le (lax_le (laxNum_of_u64 l3)) <| treesBytes_cons_le (fun _ => Nat.le_refl _) <| treesBytes_cons_le (lax_le l5) <|
    treesBytes_cons_le (fun _ => Nat.le_refl _) <| treesBytes_cons_le (lax_le l7) <| treesBytes_cons_le (lax_le l8) <|
    treesBytes_cons_le (lax_le l9) trees_nil_le) hd hl

theorem eip2930_le {t : Eip2930} {v r s : Nat} {data : List UInt8} (h : IsListOf (t.kinds v r s) data) (hl : data.length < 2 ^ 64) :
    (rlp (signedList t.fields v r s)).length ≤ data.length ∧ (rlp (signedList t.fields v r s)).length < 2 ^ 64 := by
  obtain ⟨xs, hd, hf⟩ := h
  match xs, hf with
  | [i0, i1, i2, i3, i4, i5, i6, il, i7, i8, i9], ⟨l0, l1, l2, l3, l4, l5, l6, ll, l7, l8, l9, _⟩ =>
  subst l4 l6 ll
  exact lists_le (treesBytes_cons_le (lax_le l0) <| treesBytes_cons_le (lax_le (laxNum_of_u64 l1)) <| treesBytes_cons_le (lax_le l2) <|
    treesBytes_cons_le (lax_le (laxNum_of_u64 l3)) <| treesBytes_cons_le (fun _ => Nat.le_refl _) <| treesBytes_cons_le (lax_le l5) <|
    treesBytes_cons_le (fun _ => Nat.le_refl _) <| treesBytes_cons_le (fun _ => Nat.le_refl _) <|
    treesBytes_cons_le (lax_le (laxNum_of_u64 l7)) <| treesBytes_cons_le (lax_le l8) <|
    treesBytes_cons_le (lax_le l9) trees_nil_le) hd hl

theorem eip1559_le {t : Eip1559} {v r s : Nat} {data : List UInt8} (h : IsListOf (t.kinds v r s) data) (hl : data.length < 2 ^ 64) :
    (rlp (signedList t.fields v r s)).length ≤ data.length ∧ (rlp (signedList t.fields v r s)).length < 2 ^ 64 := by
  obtain ⟨xs, hd, hf⟩ := h
  match xs, hf with
  | [i0, i1, if', i2, i3, i4, i5, i6, il, i7, i8, i9], ⟨l0, l1, lf, l2, l3, l4, l5, l6, ll, l7, l8, l9, _⟩ =>
  subst l4 l6 ll
  exact lists_le (treesBytes_cons_le (lax_le l0) <| treesBytes_cons_le (lax_le (laxNum_of_u64 l1)) <| treesBytes_cons_le (lax_le lf) <|
    treesBytes_cons_le (lax_le l2) <|
    treesBytes_cons_le (lax_le (laxNum_of_u64 l3)) <| treesBytes_cons_le (fun _ => Nat.le_refl _) <| treesBytes_cons_le (lax_le l5) <|
    treesBytes_cons_le (fun _ => Nat.le_refl _) <| treesBytes_cons_le (fun _ => Nat.le_refl _) <|
    treesBytes_cons_le (lax_le (laxNum_of_u64 l7)) <| treesBytes_cons_le (lax_le l8) <|
    treesBytes_cons_le (lax_le l9) trees_nil_le) hd hl

theorem legacy_fits {t : Legacy} (h : t.Valid) {v r s : Nat} (hv : v < 2 ^ 64) : Fits (t.kinds v r s) (t.fields ++ [num v, num r, num s]) :=
  ⟨laxU64_num (by have := h.1; omega), laxNum_num _, laxU64_num h.2.1, rfl, laxNum_num _, rfl, laxU64_num hv, laxNum_num _, laxNum_num _,
    trivial⟩

theorem eip155_fits {t : Eip155} (h : t.Valid) {v r s : Nat} : Fits (t.kinds v r s) (t.fields ++ [num v, num r, num s]) :=
  ⟨laxU64_num (by have := h.1; omega), laxNum_num _, laxU64_num h.2.1, rfl, laxNum_num _, rfl, laxNum_num _, laxNum_num _, laxNum_num _,
    trivial⟩

theorem eip2930_fits {t : Eip2930} (h : t.Valid) {v r s : Nat} (hv : v < 2 ^ 64) :
    Fits (t.kinds v r s) (t.fields ++ [num v, num r, num s]) :=
  ⟨laxNum_num _, laxU64_num (by have := h.1; omega), laxNum_num _, laxU64_num h.2.1, rfl, laxNum_num _, rfl, rfl, laxU64_num hv, laxNum_num _,
    laxNum_num _, trivial⟩

theorem eip1559_fits {t : Eip1559} (h : t.Valid) {v r s : Nat} (hv : v < 2 ^ 64) :
    Fits (t.kinds v r s) (t.fields ++ [num v, num r, num s]) :=
  ⟨laxNum_num _, laxU64_num (by have := h.1; omega), laxNum_num _, laxNum_num _, laxU64_num h.2.1, rfl, laxNum_num _, rfl, rfl, laxU64_num hv,
    laxNum_num _, laxNum_num _, trivial⟩

/-- Besides the canonical one, a list has an encoding with an eight-byte length. -/
theorem other_encoding {kinds : List (Item → Prop)} {ys : List Item} (hf : Fits kinds ys) (hl : (rlp (.list ys)).length < 2 ^ 56) :
    IsListOf kinds (rlp (.list ys)) ∧ ∃ d, d ≠ rlp (.list ys) ∧ d.length < 2 ^ 64 ∧ IsListOf kinds d := by
  have ht := rlp_treeBytes _ (show (rlp (.list ys)).length < 2 ^ 64 by omega)
  rw [← ht] at hl ⊢
  have hr := relaxed_treeBytes (.list ys) (by omega)
  refine ⟨⟨ys, hr, hf⟩, ?_⟩
  have hp := payload_le .List (treesBytes ys)
  rw [treeBytes] at hl ⊢
  have hts := relaxed_treesBytes ys (by omega)
  generalize treesBytes ys = p at *
  have ho : ofBE (octets 8 p.length) = p.length := by
    rw [← Crypto.octets_minBE (by omega), ofBE_pad, ofBE_minBE]
  have h8 : (octets 8 p.length).length = 8 := Crypto.octets_length _ _
  refine ⟨UInt8.ofNat (247 + (octets 8 p.length).length) :: octets 8 p.length ++ p, ?_, ?_,
    ys, .list _ p _ hts (.listLong _ p (by omega) (by omega) ho), hf⟩
  · rw [encodeList_eq _ (by omega), rlpListOf]
    intro h
    have h2 := congrArg List.length h
    split at h2
    · simp [h8] at h2
    · have := minBE_length_le p.length 7 (by omega)
      simp [h8] at h2
      omega
  · simp [h8]; omega

end LCT.Ethereum
