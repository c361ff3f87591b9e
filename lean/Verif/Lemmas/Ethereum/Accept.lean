import Verif.Lemmas.RlpSeq
import Verif.Lemmas.Ethereum.Transaction

/-!
# Exactly which byte strings the transaction decoders accept
-/

namespace LCT.Ethereum
open LCT.BigInt LCT.Rlp LCT.Spec LCT.Spec.Eth LCT.Out LCT.Crypto
variable {ε : Type} (m : Build) {w : Nat} [DigitWidth w]

/-! ## Items and sequences -/

/-- The item that the shallow decoder shows as type and payload. -/
def Opens : ItemType × List UInt8 → Item → Prop
  | a, .bytes b => a = (.SingleValue, b)
  | a, .list ys => a.1 = .List ∧ RelaxedTrees ys a.2

def OpensAll : List (ItemType × List UInt8) → List Item → Prop
  | [], [] => True
  | a :: as, x :: xs => Opens a x ∧ OpensAll as xs
  | _, _ => False

theorem tree_iff_opens {x : Item} {d : List UInt8} : RelaxedTree x d ↔ ∃ a, RelaxedItem a.1 a.2 d ∧ Opens a x := by
  constructor
  · intro h
    cases h with
    | bytes p _ h => exact ⟨(_, p), h, rfl⟩
    | list xs p _ hs h => exact ⟨(_, p), h, rfl, hs⟩
  · rintro ⟨⟨t, p⟩, h, ho⟩
    cases x with
    | bytes b => cases ho; exact .bytes _ _ h
    | list ys => obtain ⟨rfl, hs⟩ := ho; exact .list _ _ _ hs h

theorem trees_iff_opens {xs : List Item} {d : List UInt8} : RelaxedTrees xs d ↔ ∃ as, RelaxedSeq as d ∧ OpensAll as xs := by
  induction xs generalizing d with
  | nil =>
    constructor
    · intro h; cases h; exact ⟨[], .nil, trivial⟩
    · rintro ⟨as, hs, ho⟩
      cases as with
      | nil => cases hs; exact .nil
      | cons => exact ho.elim
  | cons x xs ih =>
    constructor
    · intro h
      cases h with
      | cons _ _ d ds h hs =>
        obtain ⟨a, h1, h2⟩ := tree_iff_opens.mp h
        obtain ⟨as, h3, h4⟩ := ih.mp hs
        exact ⟨a :: as, .cons _ _ _ _ _ h1 h3, h2, h4⟩
    · rintro ⟨as, hs, ho⟩
      cases as with
      | nil => exact ho.elim
      | cons a as =>
        cases hs with
        | cons t p d _ ds h hs => exact .cons _ _ _ _ (tree_iff_opens.mpr ⟨_, h, ho.1⟩) (ih.mpr ⟨as, hs, ho.2⟩)

theorem isListOf_iff {ks : List (Item → Prop)} {data : List UInt8} :
    IsListOf ks data ↔ ∃ p as xs, RelaxedItem .List p data ∧ RelaxedSeq as p ∧ OpensAll as xs ∧ Fits ks xs := by
  constructor
  · rintro ⟨xs, h, hf⟩
    cases h with
    | list _ p _ hs h =>
      obtain ⟨as, h1, h2⟩ := trees_iff_opens.mp hs
      exact ⟨p, as, xs, h, h1, h2, hf⟩
  · rintro ⟨p, as, xs, h, h1, h2, hf⟩
    exact ⟨xs, .list _ _ _ (trees_iff_opens.mpr ⟨as, h1, h2⟩) h, hf⟩

/-! ## The typed decoders on one item -/

theorem decU64_ok_iff {a : ItemType × List UInt8} {n : UInt64} :
    decU64 ⟨a.1, a.2⟩ = .ok n ↔ ∃ x, Opens a x ∧ LaxU64 n.toNat x := by
  obtain ⟨t, p⟩ := a
  have hp : p.length ≤ 8 → ofBE p < 2 ^ 64 := fun h =>
    Nat.lt_of_lt_of_le (ofBE_lt p) (Nat.le_trans (Nat.pow_le_pow_right (by decide) h) (by decide))
  constructor
  · intro h
    unfold decU64 at h
    split at h
    · cases h
    · split at h
      · cases h
      · rename_i h1 h2
        simp only [ne_eq, Decidable.not_not] at h1
        simp only at h2
        subst h1
        rw [fromBE_eq, ofBE_pad] at h
        cases h
        exact ⟨.bytes p, rfl, p, rfl, by omega, (u64_toNat (hp (by omega))).symm⟩
  · rintro ⟨x, ho, b, rfl, hb, hn⟩
    cases ho
    simp only [decU64, ne_eq, not_true_eq_false, if_false]
    rw [if_neg (by omega), fromBE_eq, ofBE_pad, hn]
    simp

theorem decNonce_ok_iff {a : ItemType × List UInt8} {n : EoaNonce} :
    decNonce ⟨a.1, a.2⟩ = .ok n ↔ n.value.toNat < 2 ^ 64 - 1 ∧ ∃ x, Opens a x ∧ LaxU64 n.value.toNat x := by
  have key : ∀ k : UInt64, k = 0xffffffffffffffff ↔ ¬ k.toNat < 2 ^ 64 - 1 := by
    intro k
    have := k.toNat_lt
    constructor
    · rintro rfl; decide
    · intro h; apply UInt64.toNat_inj.mp
      show k.toNat = 2 ^ 64 - 1
      omega
  constructor
  · intro h
    obtain ⟨k, h1, h⟩ := bind_eq_ok.mp h
    unfold EoaNonce.fromU64 at h
    split at h
    · rename_i h2
      split at h2
      · cases h2
      · rename_i hk
        cases h2; cases h
        rw [key] at hk
        exact ⟨by simpa using hk, decU64_ok_iff.mp h1⟩
    · cases h
  · rintro ⟨h1, h2⟩
    rw [decNonce, decU64_ok_iff.mpr h2]
    have : ¬ n.value = 0xffffffffffffffff := by rw [key]; simpa using h1
    simp only [bind_ok, EoaNonce.fromU64, if_neg this]

theorem decBig_ok {a : ItemType × List UInt8} {x : BInt} (h : decBig w ⟨a.1, a.2⟩ = .ok x) :
    ∃ n i, Denotes w x (n : Nat) ∧ Opens a i ∧ LaxNum n i := by
  obtain ⟨t, p⟩ := a
  obtain ⟨be, h1, h2⟩ := bind_eq_ok.mp h
  unfold decBigUintBytes at h1
  split at h1
  · cases h1
  · rename_i ht
    simp only [ne_eq, Decidable.not_not] at ht
    subst ht
    cases h1
    refine ⟨ofBE p, .bytes p, ?_, rfl, p, rfl, rfl⟩
    split at h2
    · rename_i hp
      have : p = [] := by simpa using hp
      subst this
      obtain ⟨y, e, d⟩ := fromBeBytes_y (ε := RlpErr) w [0] (by simp)
      rw [show BUint.fromBeBytes w [0] = BInt.fromBeBytes w [0] .positive from rfl, e] at h2
      cases h2
      exact d
    · rename_i hp
      obtain ⟨y, e, d⟩ := fromBeBytes_y (ε := RlpErr) w p (by simpa using hp)
      rw [show BUint.fromBeBytes w p = BInt.fromBeBytes w p .positive from rfl, e] at h2
      cases h2
      exact d

theorem decBig_lax {a : ItemType × List UInt8} {n : Nat} {i : Item} (ho : Opens a i) (hn : LaxNum n i) :
    (decBig w ⟨a.1, a.2⟩).Yields (Denotes w · n) := by
  obtain ⟨b, rfl, rfl⟩ := hn
  cases ho
  have : decBigUintBytes ⟨.SingleValue, b⟩ = .ok (if b.isEmpty then [0] else b) := by simp [decBigUintBytes]
  rw [decBig, this]
  show (BUint.fromBeBytes w _).Yields _
  split
  · rename_i h
    have : b = [] := by simpa using h
    subst this
    exact fromBeBytes_y w [0] (by simp)
  · rename_i h
    exact fromBeBytes_y (ε := RlpErr) w b (by simpa using h)

theorem decAddress_ok_iff {a : ItemType × List UInt8} {x : Address} : decAddress ⟨a.1, a.2⟩ = .ok x ↔ Opens a (.bytes x.data) := by
  obtain ⟨t, p⟩ := a
  constructor
  · intro h
    cases t with
    | SingleValue =>
      simp only [decAddress, DecItem.decodeAsBytes, ne_eq, not_true_eq_false, if_false, bind_ok, Address.fromBytes] at h
      split at h
      · rename_i h2
        split at h2
        · cases h2; cases h; rfl
        · cases h2
      · cases h
    | List => cases h
  · intro h
    cases h
    exact decAddress_bytes x

theorem decVecU8_ok_iff {a : ItemType × List UInt8} {x : List UInt8} : decVecU8 ⟨a.1, a.2⟩ = .ok x ↔ Opens a (.bytes x) := by
  obtain ⟨t, p⟩ := a
  constructor
  · intro h
    cases t with
    | SingleValue => cases h; rfl
    | List => cases h
  · intro h; cases h; rfl

theorem decStorageKey_ok_iff {a : ItemType × List UInt8} {x : StorageKey} :
    decStorageKey ⟨a.1, a.2⟩ = .ok x ↔ Opens a (.bytes x.data) := by
  obtain ⟨t, p⟩ := a
  constructor
  · intro h
    cases t with
    | SingleValue =>
      simp only [decStorageKey, DecItem.decodeAsBytes, ne_eq, not_true_eq_false, if_false, bind_ok, StorageKey.fromBytes] at h
      split at h
      · cases h
      · rename_i h2
        split at h2
        · cases h2; cases h; rfl
        · cases h2
    | List => cases h
  · intro h
    cases h
    exact decStorageKey_bytes x

theorem u8FromU64_ok_iff {n : UInt64} {b : UInt8} : u8FromU64 n = .ok b ↔ n.toNat = b.toNat := by
  have := b.toNat_lt
  unfold u8FromU64
  split
  · rename_i h
    simp only [Out.ok.injEq]
    constructor
    · rintro rfl; rw [ofNat_toNat_lt _ h]
    · intro h; rw [h]; simp
  · rename_i h
    simp only [reduceCtorEq, false_iff]
    omega

theorem yParityFromU8_ok_iff {n : UInt8} {y : YParity} : yParityFromU8 n = .ok y ↔ n = y.toU8 := by
  constructor
  · intro h
    unfold yParityFromU8 YParity.fromU8 at h
    split at h
    · cases h
    · rename_i h2
      cases h
      split at h2 <;> cases h2 <;> rfl
  · rintro rfl; exact (yParity_dec y).2.2

/-- Reading a list of values, given how one is read. -/
theorem decVec_ok_iff {α : Type} {dec : Dec α} {tree : α → Item}
    (h : ∀ (a : ItemType × List UInt8) (v : α), a.2.length < 2 ^ 64 → (dec ⟨a.1, a.2⟩ = .ok v ↔ Opens a (tree v)))
    {a : ItemType × List UInt8} (hl : a.2.length < 2 ^ 64) {vs : List α} :
    decVec m dec ⟨a.1, a.2⟩ = .ok vs ↔ Opens a (.list (vs.map tree)) := by
  have all : ∀ (as : List (ItemType × List UInt8)) (d : List UInt8) (vs : List α), RelaxedSeq as d → d.length < 2 ^ 64 →
      (decAll dec (as.map fun x => ⟨x.1, x.2⟩) = .ok vs ↔ OpensAll as (vs.map tree)) := by
    intro as
    induction as with
    | nil =>
      intro d vs _ _
      cases vs with
      | nil => simp [decAll, OpensAll]
      | cons => simp [decAll, OpensAll]
    | cons a as ih =>
      intro d vs hs hd
      cases hs with
      | cons t p d _ ds hi hs =>
        rw [List.length_append] at hd
        have hp := relaxed_le hi
        simp only [List.map_cons, decAll]
        constructor
        · intro hh
          obtain ⟨v, hv, hh⟩ := out_bind_eq_ok.mp hh
          obtain ⟨vs', hvs, hh⟩ := out_bind_eq_ok.mp hh
          cases hh
          exact ⟨(h (t, p) v (by simp only; omega)).mp hv, (ih ds vs' hs (by omega)).mp hvs⟩
        · intro hh
          cases vs with
          | nil => exact hh.elim
          | cons v vs =>
            rw [(h (t, p) v (by simp only; omega)).mpr hh.1, out_bind_ok, (ih ds vs hs (by omega)).mpr hh.2]
            rfl
  obtain ⟨t, p⟩ := a
  simp only at hl
  cases t with
  | SingleValue =>
    have : decVec m dec ⟨.SingleValue, p⟩ ≠ .ok vs := by
      cases m <;> simp [decVec, dassert, rassert, DecItem.decodeAsItems]
    simp [this, Opens]
  | List =>
    rw [decVec_list]
    constructor
    · intro hh
      obtain ⟨as, h1, hh⟩ := out_bind_eq_ok.mp hh
      have hs := (decodeListPayload_iff m p as hl).mp h1
      exact ⟨rfl, trees_iff_opens.mpr ⟨as, hs, (all as p vs hs hl).mp hh⟩⟩
    · rintro ⟨_, ht⟩
      obtain ⟨as, hs, ho⟩ := trees_iff_opens.mp ht
      rw [(decodeListPayload_iff m p as hl).mpr hs, out_bind_ok, (all as p vs hs hl).mpr ho]

theorem seq_two {as : List (ItemType × List UInt8)} (h : as.length = 2) : ∃ a b, as = [a, b] := by
  match as, h with
  | [a, b], _ => exact ⟨a, b, rfl⟩

theorem seq_mem_le {as : List (ItemType × List UInt8)} {d : List UInt8} (hs : RelaxedSeq as d) : ∀ a ∈ as, a.2.length ≤ d.length := by
  induction hs with
  | nil => simp
  | cons t p d xs ds h _ ih =>
    intro a ha
    rw [List.length_append]
    rcases List.mem_cons.mp ha with rfl | ha
    · have := relaxed_le h; simp only; omega
    · have := ih a ha; omega

theorem decodeAsItems_ok_iff {p : List UInt8} (hl : p.length < 2 ^ 64) {ds : List DecItem} :
    DecItem.decodeAsItems m ⟨.List, p⟩ = .ok ds ↔ ∃ as, RelaxedSeq as p ∧ ds = as.map fun x => ⟨x.1, x.2⟩ := by
  simp only [DecItem.decodeAsItems, ne_eq, not_true_eq_false, if_false]
  constructor
  · intro h
    obtain ⟨as, h1, h⟩ := out_bind_eq_ok.mp h
    cases h
    exact ⟨as, (decodeListPayload_iff m p as hl).mp h1, rfl⟩
  · rintro ⟨as, hs, rfl⟩
    rw [(decodeListPayload_iff m p as hl).mpr hs]; rfl

theorem decAccessListItem_ok_iff {a : ItemType × List UInt8} (hl : a.2.length < 2 ^ 64) {v : AccessListItem} :
    decAccessListItem m ⟨a.1, a.2⟩ = .ok v ↔ Opens a (entryItem v) := by
  obtain ⟨t, p⟩ := a
  simp only at hl
  cases t with
  | SingleValue => simp [decAccessListItem, Opens, entryItem]
  | List =>
    simp only [decAccessListItem]
    constructor
    · intro h
      obtain ⟨ds, h1, h⟩ := bind_eq_ok.mp h
      obtain ⟨as, hs, rfl⟩ := (decodeAsItems_ok_iff m hl).mp h1
      split at h
      · cases h
      · rename_i h2
        obtain ⟨a, b, rfl⟩ := seq_two (by simpa using h2)
        simp only [List.map_cons, List.map_nil, nextItem, bind_ok] at h
        obtain ⟨ad, h3, h⟩ := bind_eq_ok.mp h
        obtain ⟨ks, h4, h⟩ := bind_eq_ok.mp h
        cases h
        have hb : b.2.length < 2 ^ 64 := Nat.lt_of_le_of_lt (seq_mem_le hs b (by simp)) hl
        have h5 := (decVec_ok_iff m (fun a v _ => decStorageKey_ok_iff (a := a) (x := v)) hb).mp h4
        exact ⟨rfl, trees_iff_opens.mpr ⟨_, hs, decAddress_ok_iff.mp h3, h5, trivial⟩⟩
    · rintro ⟨_, ht⟩
      obtain ⟨as, hs, ho⟩ := trees_iff_opens.mp ht
      match as, ho with
      | [a, b], ⟨h1, h2, _⟩ =>
        have hb : b.2.length < 2 ^ 64 := Nat.lt_of_le_of_lt (seq_mem_le hs b (by simp)) hl
        rw [(decodeAsItems_ok_iff m hl).mpr ⟨_, hs, rfl⟩]
        simp only [bind_ok, List.map_cons, List.map_nil, List.length_cons, List.length_nil, ne_eq, not_true_eq_false, if_false, nextItem]
        rw [decAddress_ok_iff.mpr h1]
        simp only [bind_ok]
        rw [(decVec_ok_iff m (fun a v _ => decStorageKey_ok_iff (a := a) (x := v)) hb).mpr h2]
        rfl

theorem decAccessList_ok_iff {a : ItemType × List UInt8} (hl : a.2.length < 2 ^ 64) {v : AccessList} :
    decAccessList m ⟨a.1, a.2⟩ = .ok v ↔ Opens a (accessItem (accesses v)) := by
  rw [accessItem_eq]
  obtain ⟨t, p⟩ := a
  cases t with
  | SingleValue => simp [decAccessList, Opens]
  | List =>
    have : decAccessList m ⟨.List, p⟩ = decVec m (decAccessListItem m) ⟨.List, p⟩ := rfl
    rw [this]
    exact decVec_ok_iff m (fun a v ha => decAccessListItem_ok_iff m ha) (a := (.List, p)) hl

/-! ## The list around them -/

theorem decode_list_iff {α : Type} {dec : Dec α} (hd : ∀ p, dec ⟨.SingleValue, p⟩ = .err .InvalidFormat) {data : List UInt8}
    (hl : data.length < 2 ^ 64) {x : α} : decode m dec data = .ok x ↔ ∃ p, RelaxedItem .List p data ∧ dec ⟨.List, p⟩ = .ok x := by
  unfold decode DecItem.newFromData
  constructor
  · intro h
    obtain ⟨d, h1, h⟩ := out_bind_eq_ok.mp h
    obtain ⟨⟨t, p⟩, h2, h1⟩ := out_bind_eq_ok.mp h1
    cases h1
    cases t with
    | SingleValue => simp only [hd] at h; cases h
    | List => exact ⟨p, (decodeData_iff m data _ p hl).mp h2, h⟩
  · rintro ⟨p, h1, h⟩
    rw [(decodeData_iff m data _ p hl).mpr h1]
    exact h

theorem seq_nine {as : List (ItemType × List UInt8)} (h : as.length = 9) :
    ∃ a1 a2 a3 a4 a5 a6 a7 a8 a9, as = [a1, a2, a3, a4, a5, a6, a7, a8, a9] := by
  match as, h with
  | [a1, a2, a3, a4, a5, a6, a7, a8, a9], _ => exact ⟨_, _, _, _, _, _, _, _, _, rfl⟩

theorem seq_eleven {as : List (ItemType × List UInt8)} (h : as.length = 11) :
    ∃ a1 a2 a3 a4 a5 a6 a7 a8 a9 a10 a11, as = [a1, a2, a3, a4, a5, a6, a7, a8, a9, a10, a11] := by
  match as, h with
  | [a1, a2, a3, a4, a5, a6, a7, a8, a9, a10, a11], _ => exact ⟨_, _, _, _, _, _, _, _, _, _, _, rfl⟩

theorem seq_twelve {as : List (ItemType × List UInt8)} (h : as.length = 12) :
    ∃ a1 a2 a3 a4 a5 a6 a7 a8 a9 a10 a11 a12, as = [a1, a2, a3, a4, a5, a6, a7, a8, a9, a10, a11, a12] := by
  match as, h with
  | [a1, a2, a3, a4, a5, a6, a7, a8, a9, a10, a11, a12], _ => exact ⟨_, _, _, _, _, _, _, _, _, _, _, _, rfl⟩

theorem legacy_accept {data : List UInt8} (hl : data.length < 2 ^ 64) {x : TransactionLegacy}
    (h : decode m (decTransactionLegacy m w) data = .ok x) :
    ∃ t r s, LegacyOf w x.payload t ∧ Denotes w x.r (r : Nat) ∧ Denotes w x.s (s : Nat) ∧ IsListOf (t.kinds x.v.toNat r s) data := by
  obtain ⟨p, hi, h⟩ := (decode_list_iff m (fun _ => rfl) hl).mp h
  have hp : p.length < 2 ^ 64 := Nat.lt_of_le_of_lt (relaxed_le hi) hl
  simp only [decTransactionLegacy] at h
  obtain ⟨ds, h1, h⟩ := bind_eq_ok.mp h
  obtain ⟨as, hs, rfl⟩ := (decodeAsItems_ok_iff m hp).mp h1
  split at h
  · cases h
  rename_i h9
  obtain ⟨a1, a2, a3, a4, a5, a6, a7, a8, a9, rfl⟩ := seq_nine (by simpa using h9)
  simp only [List.map_cons, List.map_nil, nextItem, bind_ok, pure_def, bind_eq_ok, Out.ok.injEq] at h
  obtain ⟨_, ⟨nonce, e1, rfl⟩, _, ⟨gp, e2, rfl⟩, _, ⟨gl, e3, rfl⟩, _, ⟨ad, e4, rfl⟩, _, ⟨am, e5, rfl⟩, _, ⟨dt, e6, rfl⟩, pl, e7, v, e8, v', e9, r,
    e10, s, e11, rfl⟩ := h
  rw [built_legacy _ rfl rfl rfl rfl rfl] at e7
  cases e7
  obtain ⟨n1, i1, o1, l1⟩ := decNonce_ok_iff.mp e1
  obtain ⟨g, i2, d2, o2, l2⟩ := decBig_ok e2
  obtain ⟨i3, o3, l3⟩ := decU64_ok_iff.mp e3
  obtain ⟨a, i5, d5, o5, l5⟩ := decBig_ok e5
  obtain ⟨i8, o8, l8⟩ := decU64_ok_iff.mp e8
  obtain ⟨r', i10, d10, o10, l10⟩ := decBig_ok e10
  obtain ⟨s', i11, d11, o11, l11⟩ := decBig_ok e11
  rw [u8FromU64_ok_iff.mp e9] at l8
  exact ⟨⟨nonce.value.toNat, g, gl.toNat, ad.data, a, dt⟩, r', s', ⟨rfl, n1, d2, rfl, rfl, d5, rfl⟩, d10, d11,
    isListOf_iff.mpr ⟨p, _, [i1, i2, i3, .bytes ad.data, i5, .bytes dt, i8, i10, i11], hi, hs,
      ⟨o1, o2, o3, decAddress_ok_iff.mp e4, o5, decVecU8_ok_iff.mp e6, o8, o10, o11, trivial⟩,
      ⟨l1, l2, l3, rfl, l5, rfl, l8, l10, l11, trivial⟩⟩⟩

theorem legacy_accepts {data : List UInt8} (hl : data.length < 2 ^ 64) {t : Legacy} (ht : t.Valid) {v r s : Nat} (hv : v < 256)
    (h : IsListOf (t.kinds v r s) data) :
    (decode m (decTransactionLegacy m w) data).Yields fun x =>
      LegacyOf w x.payload t ∧ x.v.toNat = v ∧ Denotes w x.r r ∧ Denotes w x.s s := by
  obtain ⟨h1, h2, h3⟩ := ht
  obtain ⟨p, as, xs, hi, hs, ho, hf⟩ := isListOf_iff.mp h
  have hp : p.length < 2 ^ 64 := Nat.lt_of_le_of_lt (relaxed_le hi) hl
  match xs, hf with
  | [i1, i2, i3, i4, i5, i6, i7, i8, i9], ⟨l1, l2, l3, l4, l5, l6, l7, l8, l9, _⟩ =>
  match as, ho with
  | [a1, a2, a3, a4, a5, a6, a7, a8, a9], ⟨o1, o2, o3, o4, o5, o6, o7, o8, o9, _⟩ =>
  subst l4 l6
  have e1 := decNonce_ok_iff (a := a1) (n := ⟨UInt64.ofNat t.nonce⟩)|>.mpr (by
    simp only [u64_toNat (show t.nonce < 2 ^ 64 by omega)]; exact ⟨h1, i1, o1, l1⟩)
  obtain ⟨gp, e2, d2⟩ := decBig_lax (w := w) o2 l2
  have e3 := decU64_ok_iff (a := a3) (n := UInt64.ofNat t.gasLimit)|>.mpr (by rw [u64_toNat h2]; exact ⟨i3, o3, l3⟩)
  have e4 := decAddress_ok_iff (a := a4) (x := ⟨t.recipient, h3⟩)|>.mpr o4
  obtain ⟨am, e5, d5⟩ := decBig_lax (w := w) o5 l5
  have e6 := decVecU8_ok_iff.mpr o6
  have e7 := decU64_ok_iff (a := a7) (n := UInt64.ofNat v)|>.mpr (by rw [u64_toNat (by omega)]; exact ⟨i7, o7, l7⟩)
  obtain ⟨r', e8, d8⟩ := decBig_lax (w := w) o8 l8
  obtain ⟨s', e9, d9⟩ := decBig_lax (w := w) o9 l9
  refine ⟨⟨⟨⟨UInt64.ofNat t.nonce⟩, gp, UInt64.ofNat t.gasLimit, ⟨t.recipient, h3⟩, am, t.data⟩, UInt8.ofNat v, r', s'⟩, ?_, ?_⟩
  · refine (decode_list_iff m (fun _ => rfl) hl).mpr ⟨p, hi, ?_⟩
    simp only [decTransactionLegacy]
    rw [(decodeAsItems_ok_iff m hp).mpr ⟨_, hs, rfl⟩]
    simp only [bind_ok, List.map_cons, List.map_nil, List.length_cons, List.length_nil, ne_eq, Nat.reduceAdd, not_true_eq_false, if_false,
      nextItem, pure_def, e1, e2, e3, e4, e5, e6, e7, e8, e9, u8FromU64_ofNat hv]
    rw [built_legacy _ rfl rfl rfl rfl rfl]
    rfl
  · exact ⟨⟨u64_toNat (by omega), h1, d2, u64_toNat h2, rfl, d5, rfl⟩, by simp; omega, d8, d9⟩

/-! ## EIP-155 -/

/-- The value of a decoded `v`, reduced by 35 and shifted by two bits. -/
theorem eip155_chain {x : BInt} {v : Nat} (hx : Denotes w x v) (hv : 35 ≤ v) :
    ∃ n35 c c', (BUint.ofNat w 35 : Out RlpErr _) = .ok n35 ∧ (BInt.lt m x n35 : Out RlpErr _) = .ok false ∧
      (BInt.sub m w x n35 : Out RlpErr _) = .ok c ∧ (BInt.shr m w c 2 : Out RlpErr _) = .ok c' ∧ Denotes w c' ((v - 35) / 4 : Nat) := by
  obtain ⟨n35, e6, d6⟩ := ofNat_u (ε := RlpErr) (w := w) (k := 35) (by decide)
  obtain ⟨_, e7, rfl⟩ := lt_y (ε := RlpErr) m hx d6
  obtain ⟨c, e8, d8⟩ := sub_y (ε := RlpErr) m hx d6
  obtain ⟨c', e9, d9⟩ := shr_y (ε := RlpErr) m d8 2
  refine ⟨n35, c, c', e6, ?_, e8, e9, ?_⟩
  · rw [e7, show decide ((v : Int) < (35 : Nat)) = false by simp; omega]
  · have : (((v : Int) - (35 : Nat)).tdiv (2 ^ 2)) = (((v - 35) / 4 : Nat) : Int) := by
      rw [← Int.ofNat_sub hv]; rfl
    rwa [this] at d9

theorem eip155_small {x : BInt} {v : Nat} (hx : Denotes w x v) (hv : v < 35) :
    ∃ n35, (BUint.ofNat w 35 : Out RlpErr _) = .ok n35 ∧ (BInt.lt m x n35 : Out RlpErr _) = .ok true := by
  obtain ⟨n35, e6, d6⟩ := ofNat_u (ε := RlpErr) (w := w) (k := 35) (by decide)
  obtain ⟨_, e7, rfl⟩ := lt_y (ε := RlpErr) m hx d6
  refine ⟨n35, e6, ?_⟩
  rw [e7, show decide ((v : Int) < (35 : Nat)) = true by simp; omega]

theorem eip155_accept {data : List UInt8} (hl : data.length < 2 ^ 64) {x : TransactionEip155}
    (h : decode m (decTransactionEip155 m w) data = .ok x) :
    ∃ t v r s, 35 ≤ v ∧ t.chainId = (v - 35) / 4 ∧ Eip155Of w x.payload t ∧ Denotes w x.v (v : Nat) ∧ Denotes w x.r (r : Nat) ∧
      Denotes w x.s (s : Nat) ∧ IsListOf (t.kinds v r s) data := by
  obtain ⟨p, hi, h⟩ := (decode_list_iff m (fun _ => rfl) hl).mp h
  have hp : p.length < 2 ^ 64 := Nat.lt_of_le_of_lt (relaxed_le hi) hl
  simp only [decTransactionEip155] at h
  obtain ⟨ds, h1, h⟩ := bind_eq_ok.mp h
  obtain ⟨as, hs, rfl⟩ := (decodeAsItems_ok_iff m hp).mp h1
  split at h
  · cases h
  rename_i h9
  obtain ⟨a1, a2, a3, a4, a5, a6, a7, a8, a9, rfl⟩ := seq_nine (by simpa using h9)
  simp only [List.map_cons, List.map_nil, nextItem, bind_ok, pure_def] at h
  obtain ⟨nonce, e1, h⟩ := bind_eq_ok.mp h
  obtain ⟨gp, e2, h⟩ := bind_eq_ok.mp h
  obtain ⟨gl, e3, h⟩ := bind_eq_ok.mp h
  obtain ⟨ad, e4, h⟩ := bind_eq_ok.mp h
  obtain ⟨am, e5, h⟩ := bind_eq_ok.mp h
  obtain ⟨dt, e6, h⟩ := bind_eq_ok.mp h
  obtain ⟨v, e8, h⟩ := bind_eq_ok.mp h
  obtain ⟨r, e10, h⟩ := bind_eq_ok.mp h
  obtain ⟨s, e11, h⟩ := bind_eq_ok.mp h
  obtain ⟨n1, i1, o1, l1⟩ := decNonce_ok_iff.mp e1
  obtain ⟨g, i2, d2, o2, l2⟩ := decBig_ok e2
  obtain ⟨i3, o3, l3⟩ := decU64_ok_iff.mp e3
  obtain ⟨a, i5, d5, o5, l5⟩ := decBig_ok e5
  obtain ⟨v', i8, d8, o8, l8⟩ := decBig_ok e8
  obtain ⟨r', i10, d10, o10, l10⟩ := decBig_ok e10
  obtain ⟨s', i11, d11, o11, l11⟩ := decBig_ok e11
  by_cases hv : 35 ≤ v'
  · obtain ⟨n35, c, c', q1, q2, q3, q4, q5⟩ := eip155_chain m d8 hv
    simp only [q1, q2, q3, q4, bind_ok, Bool.false_eq_true, if_false] at h
    rw [built_eip155 _ rfl rfl rfl rfl rfl rfl] at h
    cases h
    exact ⟨⟨(v' - 35) / 4, nonce.value.toNat, g, gl.toNat, ad.data, a, dt⟩, v', r', s', hv, rfl, ⟨q5, rfl, n1, d2, rfl, rfl, d5, rfl⟩,
      d8, d10, d11, isListOf_iff.mpr ⟨p, _, [i1, i2, i3, .bytes ad.data, i5, .bytes dt, i8, i10, i11], hi, hs,
        ⟨o1, o2, o3, decAddress_ok_iff.mp e4, o5, decVecU8_ok_iff.mp e6, o8, o10, o11, trivial⟩,
        ⟨l1, l2, l3, rfl, l5, rfl, l8, l10, l11, trivial⟩⟩⟩
  · obtain ⟨n35, q1, q2⟩ := eip155_small m d8 (by omega)
    simp only [q1, q2, bind_ok, if_true] at h
    cases h

theorem eip155_accepts {data : List UInt8} (hl : data.length < 2 ^ 64) {t : Eip155} (ht : t.Valid) {v r s : Nat}
    (h : IsListOf (t.kinds v r s) data) :
    (35 ≤ v → (decode m (decTransactionEip155 m w) data).Yields fun x =>
      Eip155Of w x.payload { t with chainId := (v - 35) / 4 } ∧ Denotes w x.v v ∧ Denotes w x.r r ∧ Denotes w x.s s) ∧
    (v < 35 → decode m (decTransactionEip155 m w) data = .err .TransactionTypeMismatch) := by
  obtain ⟨h1, h2, h3⟩ := ht
  obtain ⟨p, as, xs, hi, hs, ho, hf⟩ := isListOf_iff.mp h
  have hp : p.length < 2 ^ 64 := Nat.lt_of_le_of_lt (relaxed_le hi) hl
  match xs, hf with
  | [i1, i2, i3, i4, i5, i6, i7, i8, i9], ⟨l1, l2, l3, l4, l5, l6, l7, l8, l9, _⟩ =>
  match as, ho with
  | [a1, a2, a3, a4, a5, a6, a7, a8, a9], ⟨o1, o2, o3, o4, o5, o6, o7, o8, o9, _⟩ =>
  subst l4 l6
  have e1 := decNonce_ok_iff (a := a1) (n := ⟨UInt64.ofNat t.nonce⟩)|>.mpr (by
    simp only [u64_toNat (show t.nonce < 2 ^ 64 by omega)]; exact ⟨h1, i1, o1, l1⟩)
  obtain ⟨gp, e2, d2⟩ := decBig_lax (w := w) o2 l2
  have e3 := decU64_ok_iff (a := a3) (n := UInt64.ofNat t.gasLimit)|>.mpr (by rw [u64_toNat h2]; exact ⟨i3, o3, l3⟩)
  have e4 := decAddress_ok_iff (a := a4) (x := ⟨t.recipient, h3⟩)|>.mpr o4
  obtain ⟨am, e5, d5⟩ := decBig_lax (w := w) o5 l5
  have e6 := decVecU8_ok_iff.mpr o6
  obtain ⟨v', e7, d7⟩ := decBig_lax (w := w) o7 l7
  obtain ⟨r', e8, d8⟩ := decBig_lax (w := w) o8 l8
  obtain ⟨s', e9, d9⟩ := decBig_lax (w := w) o9 l9
  constructor
  · intro hv
    obtain ⟨n35, c, c', q1, q2, q3, q4, q5⟩ := eip155_chain m d7 hv
    refine ⟨⟨⟨c', ⟨UInt64.ofNat t.nonce⟩, gp, UInt64.ofNat t.gasLimit, ⟨t.recipient, h3⟩, am, t.data⟩, v', r', s'⟩, ?_, ?_⟩
    · refine (decode_list_iff m (fun _ => rfl) hl).mpr ⟨p, hi, ?_⟩
      simp only [decTransactionEip155]
      rw [(decodeAsItems_ok_iff m hp).mpr ⟨_, hs, rfl⟩]
      simp only [bind_ok, List.map_cons, List.map_nil, List.length_cons, List.length_nil, ne_eq, Nat.reduceAdd, not_true_eq_false, if_false,
        nextItem, pure_def, e1, e2, e3, e4, e5, e6, e7, e8, e9, q1, q2, q3, q4, Bool.false_eq_true]
      rw [built_eip155 _ rfl rfl rfl rfl rfl rfl]
      rfl
    · exact ⟨⟨q5, u64_toNat (by omega), h1, d2, u64_toNat h2, rfl, d5, rfl⟩, d7, d8, d9⟩
  · intro hv
    obtain ⟨n35, q1, q2⟩ := eip155_small m d7 hv
    unfold decode DecItem.newFromData
    rw [(decodeData_iff m data _ p hl).mpr hi]
    simp only [out_bind_ok, decTransactionEip155]
    rw [(decodeAsItems_ok_iff m hp).mpr ⟨_, hs, rfl⟩]
    simp only [bind_ok, List.map_cons, List.map_nil, List.length_cons, List.length_nil, ne_eq, Nat.reduceAdd, not_true_eq_false, if_false,
      nextItem, pure_def, e1, e2, e3, e4, e5, e6, e7, e8, e9, q1, q2, if_true]

/-! ### The type mismatch comes from nowhere else -/

def NoMismatch {α : Type} (x : Out RlpErr α) : Prop := x ≠ .err .TransactionTypeMismatch

theorem NoMismatch.bind {α β : Type} {x : Out RlpErr α} {f : α → Out RlpErr β} (hx : NoMismatch x) (h : (x >>= f) = .err .TransactionTypeMismatch) :
    ∃ a, x = .ok a ∧ f a = .err .TransactionTypeMismatch := by
  cases x with
  | ok a => exact ⟨a, rfl, h⟩
  | err e => exact absurd (by cases h; rfl) hx
  | panic => cases h
  | hang => cases h

theorem nm_bind {α β : Type} {x : Out RlpErr α} {f : α → Out RlpErr β} (hx : NoMismatch x) (hf : ∀ a, NoMismatch (f a)) :
    NoMismatch (x.bind f) := by
  cases x with
  | ok a => exact hf a
  | err e => exact fun h => hx (by cases h; rfl)
  | panic => exact fun h => by cases h
  | hang => exact fun h => by cases h

theorem addU64_nm (a b : Nat) : NoMismatch (addU64 m a b) := by
  unfold addU64 NoMismatch
  cases m <;> simp only <;> split <;> simp

theorem decodeLongHeader_nm (t : ItemType) (k : Nat) (d : List UInt8) : NoMismatch (decodeLongHeader m t k d) := by
  unfold decodeLongHeader
  split
  · simp [NoMismatch]
  · refine nm_bind (addU64_nm m _ _) fun a => ?_
    split <;> simp [NoMismatch]

theorem decodeDataHeader_nm (d : List UInt8) : NoMismatch (decodeDataHeader m d) := by
  cases d with
  | nil => simp [decodeDataHeader, NoMismatch]
  | cons b d =>
    rw [decodeDataHeader_cons]
    split
    · simp [NoMismatch]
    · split
      · simp [NoMismatch]
      · split
        · exact decodeLongHeader_nm m _ _ _
        · split
          · simp [NoMismatch]
          · exact decodeLongHeader_nm m _ _ _

theorem sliceFrom_nm (s : List UInt8) (i : Nat) : NoMismatch (sliceFrom s i) := by
  unfold sliceFrom NoMismatch
  split <;> simp

theorem decodeData_nm (d : List UInt8) : NoMismatch (decodeData m d) := by
  unfold decodeData
  refine nm_bind (decodeDataHeader_nm m d) fun a => nm_bind (addU64_nm m _ _) fun b => ?_
  split
  · simp [NoMismatch]
  · exact nm_bind (sliceFrom_nm _ _) fun c => by simp [NoMismatch]

theorem decodeListLoop_nm (fuel : Nat) (d : List UInt8) : NoMismatch (decodeListLoop m fuel d) := by
  induction fuel generalizing d with
  | zero => simp [decodeListLoop, NoMismatch]
  | succ fuel ih =>
    unfold decodeListLoop
    split
    · simp [NoMismatch]
    · refine nm_bind (decodeDataHeader_nm m d) fun a => nm_bind (addU64_nm m _ _) fun b => ?_
      split
      · simp [NoMismatch]
      · exact nm_bind (sliceFrom_nm _ _) fun c => nm_bind (ih _) fun c => by simp [NoMismatch]

theorem decU64_nm (d : DecItem) : NoMismatch (decU64 d) := by
  unfold decU64 NoMismatch
  split
  · simp
  · split <;> simp

theorem decNonce_nm (d : DecItem) : NoMismatch (decNonce d) := by
  refine nm_bind (decU64_nm d) fun n => ?_
  split <;> simp [NoMismatch]

theorem decVecU8_nm (d : DecItem) : NoMismatch (decVecU8 d) := by
  unfold decVecU8 NoMismatch
  split <;> simp

theorem decAddress_nm (d : DecItem) : NoMismatch (decAddress d) := by
  unfold decAddress
  split
  · refine nm_bind ?_ fun n => ?_
    · unfold DecItem.decodeAsBytes NoMismatch; split <;> simp
    · split <;> simp [NoMismatch]
  · simp [NoMismatch]

theorem decBig_nm (d : DecItem) : NoMismatch (decBig w d) := by
  unfold decBig decBigUintBytes
  split
  · simp [NoMismatch]
  · simp only [bind_ok]
    obtain ⟨y, e, -⟩ := fromBeBytes_y (ε := RlpErr) w (if d.payload.isEmpty then [0] else d.payload) (by
      split
      · simp
      · rename_i h; simpa using h)
    rw [show BUint.fromBeBytes w _ = BInt.fromBeBytes w _ .positive from rfl, e]
    simp [NoMismatch]

theorem eip155_mismatch {data : List UInt8} (hl : data.length < 2 ^ 64)
    (h : decode m (decTransactionEip155 m w) data = .err .TransactionTypeMismatch) :
    ∃ t v r s, v < 35 ∧ t.Valid ∧ IsListOf (Eip155.kinds t v r s) data := by
  unfold decode DecItem.newFromData at h
  obtain ⟨d, h1, h⟩ := NoMismatch.bind (nm_bind (decodeData_nm m data) fun _ => by simp [NoMismatch]) h
  obtain ⟨⟨t, p⟩, h2, h1⟩ := out_bind_eq_ok.mp h1
  cases h1
  have hi := (decodeData_iff m data t p hl).mp h2
  have hp : p.length < 2 ^ 64 := Nat.lt_of_le_of_lt (relaxed_le hi) hl
  cases t with
  | SingleValue => cases h
  | List =>
    simp only [decTransactionEip155] at h
    obtain ⟨ds, h1, h⟩ := NoMismatch.bind (by
      simp only [DecItem.decodeAsItems, ne_eq, not_true_eq_false, if_false]
      exact nm_bind (decodeListLoop_nm m _ _) fun _ => by simp [NoMismatch]) h
    obtain ⟨as, hs, rfl⟩ := (decodeAsItems_ok_iff m hp).mp h1
    split at h
    · cases h
    rename_i h9
    obtain ⟨a1, a2, a3, a4, a5, a6, a7, a8, a9, rfl⟩ := seq_nine (by simpa using h9)
    simp only [List.map_cons, List.map_nil, nextItem, bind_ok, pure_def] at h
    obtain ⟨nonce, e1, h⟩ := NoMismatch.bind (decNonce_nm _) h
    obtain ⟨gp, e2, h⟩ := NoMismatch.bind (decBig_nm _) h
    obtain ⟨gl, e3, h⟩ := NoMismatch.bind (decU64_nm _) h
    obtain ⟨ad, e4, h⟩ := NoMismatch.bind (decAddress_nm _) h
    obtain ⟨am, e5, h⟩ := NoMismatch.bind (decBig_nm _) h
    obtain ⟨dt, e6, h⟩ := NoMismatch.bind (decVecU8_nm _) h
    obtain ⟨v, e8, h⟩ := NoMismatch.bind (decBig_nm _) h
    obtain ⟨r, e10, h⟩ := NoMismatch.bind (decBig_nm _) h
    obtain ⟨s, e11, h⟩ := NoMismatch.bind (decBig_nm _) h
    obtain ⟨n1, i1, o1, l1⟩ := decNonce_ok_iff.mp e1
    obtain ⟨g, i2, d2, o2, l2⟩ := decBig_ok e2
    obtain ⟨i3, o3, l3⟩ := decU64_ok_iff.mp e3
    obtain ⟨a, i5, d5, o5, l5⟩ := decBig_ok e5
    obtain ⟨v', i8, d8, o8, l8⟩ := decBig_ok e8
    obtain ⟨r', i10, d10, o10, l10⟩ := decBig_ok e10
    obtain ⟨s', i11, d11, o11, l11⟩ := decBig_ok e11
    by_cases hv : 35 ≤ v'
    · obtain ⟨n35, c, c', q1, q2, q3, q4, q5⟩ := eip155_chain m d8 hv
      simp only [q1, q2, q3, q4, bind_ok, Bool.false_eq_true, if_false] at h
      rw [built_eip155 _ rfl rfl rfl rfl rfl rfl] at h
      cases h
    · exact ⟨⟨0, nonce.value.toNat, g, gl.toNat, ad.data, a, dt⟩, v', r', s', by omega, ⟨n1, gl.toNat_lt, ad.len⟩,
        isListOf_iff.mpr ⟨p, _, [i1, i2, i3, .bytes ad.data, i5, .bytes dt, i8, i10, i11], hi, hs,
        ⟨o1, o2, o3, decAddress_ok_iff.mp e4, o5, decVecU8_ok_iff.mp e6, o8, o10, o11, trivial⟩,
        ⟨l1, l2, l3, rfl, l5, rfl, l8, l10, l11, trivial⟩⟩⟩

/-! ## EIP-2930 and EIP-1559 -/

theorem eip2930_accept {data : List UInt8} (hl : data.length < 2 ^ 64) {x : TransactionEip2930}
    (h : decode m (decTransactionEip2930 m w) data = .ok x) :
    ∃ t r s, Eip2930Of w x.payload t ∧ Denotes w x.r (r : Nat) ∧ Denotes w x.s (s : Nat) ∧
      IsListOf (t.kinds x.yParity.toU8.toNat r s) data := by
  obtain ⟨p, hi, h⟩ := (decode_list_iff m (fun _ => rfl) hl).mp h
  have hp : p.length < 2 ^ 64 := Nat.lt_of_le_of_lt (relaxed_le hi) hl
  simp only [decTransactionEip2930] at h
  obtain ⟨ds, h1, h⟩ := bind_eq_ok.mp h
  obtain ⟨as, hs, rfl⟩ := (decodeAsItems_ok_iff m hp).mp h1
  split at h
  · cases h
  rename_i h9
  obtain ⟨a0, a1, a2, a3, a4, a5, a6, al, a7, a8, a9, rfl⟩ := seq_eleven (by simpa using h9)
  have hal : al.2.length < 2 ^ 64 := Nat.lt_of_le_of_lt (seq_mem_le hs al (by simp)) hp
  simp only [List.map_cons, List.map_nil, nextItem, bind_ok, pure_def, bind_eq_ok, Out.ok.injEq] at h
  obtain ⟨_, ⟨ci, e0, rfl⟩, _, ⟨nonce, e1, rfl⟩, _, ⟨gp, e2, rfl⟩, _, ⟨gl, e3, rfl⟩, _, ⟨ad, e4, rfl⟩, _, ⟨am, e5, rfl⟩, _, ⟨dt, e6, rfl⟩,
    _, ⟨acc, el, rfl⟩, pl, e7, v, e8, v', e9, y, ey, r, e10, s, e11, rfl⟩ := h
  rw [built_eip2930 _ rfl rfl rfl rfl rfl rfl] at e7
  cases e7
  obtain ⟨c, i0, d0, o0, l0⟩ := decBig_ok e0
  obtain ⟨n1, i1, o1, l1⟩ := decNonce_ok_iff.mp e1
  obtain ⟨g, i2, d2, o2, l2⟩ := decBig_ok e2
  obtain ⟨i3, o3, l3⟩ := decU64_ok_iff.mp e3
  obtain ⟨a, i5, d5, o5, l5⟩ := decBig_ok e5
  obtain ⟨i8, o8, l8⟩ := decU64_ok_iff.mp e8
  obtain ⟨r', i10, d10, o10, l10⟩ := decBig_ok e10
  obtain ⟨s', i11, d11, o11, l11⟩ := decBig_ok e11
  rw [u8FromU64_ok_iff.mp e9, yParityFromU8_ok_iff.mp ey] at l8
  exact ⟨⟨c, nonce.value.toNat, g, gl.toNat, ad.data, a, dt, accesses acc⟩, r', s', ⟨d0, rfl, n1, d2, rfl, rfl, d5, rfl, rfl⟩, d10, d11,
    isListOf_iff.mpr ⟨p, _, [i0, i1, i2, i3, .bytes ad.data, i5, .bytes dt, accessItem (accesses acc), i8, i10, i11], hi, hs,
      ⟨o0, o1, o2, o3, decAddress_ok_iff.mp e4, o5, decVecU8_ok_iff.mp e6, (decAccessList_ok_iff m hal).mp el, o8, o10, o11, trivial⟩,
      ⟨l0, l1, l2, l3, rfl, l5, rfl, rfl, l8, l10, l11, trivial⟩⟩⟩

theorem eip2930_accepts {data : List UInt8} (hl : data.length < 2 ^ 64) {t : Eip2930} (ht : t.Valid) {y : YParity} {r s : Nat}
    (h : IsListOf (t.kinds y.toU8.toNat r s) data) :
    (decode m (decTransactionEip2930 m w) data).Yields fun x =>
      Eip2930Of w x.payload t ∧ x.yParity = y ∧ Denotes w x.r r ∧ Denotes w x.s s := by
  obtain ⟨h1, h2, h3, h4⟩ := ht
  obtain ⟨acc, ea⟩ := exists_accesses _ h4
  obtain ⟨p, as, xs, hi, hs, ho, hf⟩ := isListOf_iff.mp h
  have hp : p.length < 2 ^ 64 := Nat.lt_of_le_of_lt (relaxed_le hi) hl
  match xs, hf with
  | [i0, i1, i2, i3, i4, i5, i6, il, i7, i8, i9], ⟨l0, l1, l2, l3, l4, l5, l6, ll, l7, l8, l9, _⟩ =>
  match as, ho with
  | [a0, a1, a2, a3, a4, a5, a6, al, a7, a8, a9], ⟨o0, o1, o2, o3, o4, o5, o6, ol, o7, o8, o9, _⟩ =>
  subst l4 l6 ll
  have hal : al.2.length < 2 ^ 64 := Nat.lt_of_le_of_lt (seq_mem_le hs al (by simp)) hp
  have e1 := decNonce_ok_iff (a := a1) (n := ⟨UInt64.ofNat t.nonce⟩)|>.mpr (by
    simp only [u64_toNat (show t.nonce < 2 ^ 64 by omega)]; exact ⟨h1, i1, o1, l1⟩)
  obtain ⟨ci, e0, d0⟩ := decBig_lax (w := w) o0 l0
  obtain ⟨gp, e2, d2⟩ := decBig_lax (w := w) o2 l2
  have e3 := decU64_ok_iff (a := a3) (n := UInt64.ofNat t.gasLimit)|>.mpr (by rw [u64_toNat h2]; exact ⟨i3, o3, l3⟩)
  have e4 := decAddress_ok_iff (a := a4) (x := ⟨t.recipient, h3⟩)|>.mpr o4
  obtain ⟨am, e5, d5⟩ := decBig_lax (w := w) o5 l5
  have e6 := decVecU8_ok_iff.mpr o6
  have el := (decAccessList_ok_iff m hal).mpr (ea ▸ ol)
  have e7 := decU64_ok_iff (a := a7) (n := UInt64.ofNat y.toU8.toNat)|>.mpr (by
    rw [u64_toNat (by have := y.toU8.toNat_lt; omega)]; exact ⟨i7, o7, l7⟩)
  obtain ⟨-, f1, f2⟩ := yParity_dec y
  obtain ⟨r', e8, d8⟩ := decBig_lax (w := w) o8 l8
  obtain ⟨s', e9, d9⟩ := decBig_lax (w := w) o9 l9
  refine ⟨⟨⟨ci, ⟨UInt64.ofNat t.nonce⟩, gp, UInt64.ofNat t.gasLimit, ⟨t.recipient, h3⟩, am, t.data, acc⟩, y, r', s'⟩, ?_, ?_⟩
  · refine (decode_list_iff m (fun _ => rfl) hl).mpr ⟨p, hi, ?_⟩
    simp only [decTransactionEip2930]
    rw [(decodeAsItems_ok_iff m hp).mpr ⟨_, hs, rfl⟩]
    simp only [bind_ok, List.map_cons, List.map_nil, List.length_cons, List.length_nil, ne_eq, Nat.reduceAdd, not_true_eq_false, if_false,
      nextItem, pure_def, e0, e1, e2, e3, e4, e5, e6, e7, e8, e9, el, f1, f2]
    rw [built_eip2930 _ rfl rfl rfl rfl rfl rfl]
    rfl
  · exact ⟨⟨d0, u64_toNat (by omega), h1, d2, u64_toNat h2, rfl, d5, rfl, ea⟩, rfl, d8, d9⟩

theorem eip1559_accept {data : List UInt8} (hl : data.length < 2 ^ 64) {x : TransactionEip1559}
    (h : decode m (decTransactionEip1559 m w) data = .ok x) :
    ∃ t r s, Eip1559Of w x.payload t ∧ Denotes w x.r (r : Nat) ∧ Denotes w x.s (s : Nat) ∧
      IsListOf (t.kinds x.yParity.toU8.toNat r s) data := by
  obtain ⟨p, hi, h⟩ := (decode_list_iff m (fun _ => rfl) hl).mp h
  have hp : p.length < 2 ^ 64 := Nat.lt_of_le_of_lt (relaxed_le hi) hl
  simp only [decTransactionEip1559] at h
  obtain ⟨ds, h1, h⟩ := bind_eq_ok.mp h
  obtain ⟨as, hs, rfl⟩ := (decodeAsItems_ok_iff m hp).mp h1
  split at h
  · cases h
  rename_i h9
  obtain ⟨a0, a1, af, a2, a3, a4, a5, a6, al, a7, a8, a9, rfl⟩ := seq_twelve (by simpa using h9)
  have hal : al.2.length < 2 ^ 64 := Nat.lt_of_le_of_lt (seq_mem_le hs al (by simp)) hp
  simp only [List.map_cons, List.map_nil, nextItem, bind_ok, pure_def, bind_eq_ok, Out.ok.injEq] at h
  obtain ⟨_, ⟨ci, e0, rfl⟩, _, ⟨nonce, e1, rfl⟩, _, ⟨fp, ef, rfl⟩, _, ⟨gp, e2, rfl⟩, _, ⟨gl, e3, rfl⟩, _, ⟨ad, e4, rfl⟩, _, ⟨am, e5, rfl⟩, _,
    ⟨dt, e6, rfl⟩, _, ⟨acc, el, rfl⟩, pl, e7, v, e8, v', e9, y, ey, r, e10, s, e11, rfl⟩ := h
  rw [built_eip1559 _ rfl rfl rfl rfl rfl rfl rfl] at e7
  cases e7
  obtain ⟨c, i0, d0, o0, l0⟩ := decBig_ok e0
  obtain ⟨n1, i1, o1, l1⟩ := decNonce_ok_iff.mp e1
  obtain ⟨f, if', df, of', lf⟩ := decBig_ok ef
  obtain ⟨g, i2, d2, o2, l2⟩ := decBig_ok e2
  obtain ⟨i3, o3, l3⟩ := decU64_ok_iff.mp e3
  obtain ⟨a, i5, d5, o5, l5⟩ := decBig_ok e5
  obtain ⟨i8, o8, l8⟩ := decU64_ok_iff.mp e8
  obtain ⟨r', i10, d10, o10, l10⟩ := decBig_ok e10
  obtain ⟨s', i11, d11, o11, l11⟩ := decBig_ok e11
  rw [u8FromU64_ok_iff.mp e9, yParityFromU8_ok_iff.mp ey] at l8
  exact ⟨⟨c, nonce.value.toNat, f, g, gl.toNat, ad.data, a, dt, accesses acc⟩, r', s', ⟨d0, rfl, n1, df, d2, rfl, rfl, d5, rfl, rfl⟩, d10, d11,
    isListOf_iff.mpr ⟨p, _, [i0, i1, if', i2, i3, .bytes ad.data, i5, .bytes dt, accessItem (accesses acc), i8, i10, i11], hi, hs,
      ⟨o0, o1, of', o2, o3, decAddress_ok_iff.mp e4, o5, decVecU8_ok_iff.mp e6, (decAccessList_ok_iff m hal).mp el, o8, o10, o11, trivial⟩,
      ⟨l0, l1, lf, l2, l3, rfl, l5, rfl, rfl, l8, l10, l11, trivial⟩⟩⟩

theorem eip1559_accepts {data : List UInt8} (hl : data.length < 2 ^ 64) {t : Eip1559} (ht : t.Valid) {y : YParity} {r s : Nat}
    (h : IsListOf (t.kinds y.toU8.toNat r s) data) :
    (decode m (decTransactionEip1559 m w) data).Yields fun x =>
      Eip1559Of w x.payload t ∧ x.yParity = y ∧ Denotes w x.r r ∧ Denotes w x.s s := by
  obtain ⟨h1, h2, h3, h4⟩ := ht
  obtain ⟨acc, ea⟩ := exists_accesses _ h4
  obtain ⟨p, as, xs, hi, hs, ho, hf⟩ := isListOf_iff.mp h
  have hp : p.length < 2 ^ 64 := Nat.lt_of_le_of_lt (relaxed_le hi) hl
  match xs, hf with
  | [i0, i1, if', i2, i3, i4, i5, i6, il, i7, i8, i9], ⟨l0, l1, lf, l2, l3, l4, l5, l6, ll, l7, l8, l9, _⟩ =>
  match as, ho with
  | [a0, a1, af, a2, a3, a4, a5, a6, al, a7, a8, a9], ⟨o0, o1, of', o2, o3, o4, o5, o6, ol, o7, o8, o9, _⟩ =>
  subst l4 l6 ll
  have hal : al.2.length < 2 ^ 64 := Nat.lt_of_le_of_lt (seq_mem_le hs al (by simp)) hp
  have e1 := decNonce_ok_iff (a := a1) (n := ⟨UInt64.ofNat t.nonce⟩)|>.mpr (by
    simp only [u64_toNat (show t.nonce < 2 ^ 64 by omega)]; exact ⟨h1, i1, o1, l1⟩)
  obtain ⟨ci, e0, d0⟩ := decBig_lax (w := w) o0 l0
  obtain ⟨fp, ef, df⟩ := decBig_lax (w := w) of' lf
  obtain ⟨gp, e2, d2⟩ := decBig_lax (w := w) o2 l2
  have e3 := decU64_ok_iff (a := a3) (n := UInt64.ofNat t.gasLimit)|>.mpr (by rw [u64_toNat h2]; exact ⟨i3, o3, l3⟩)
  have e4 := decAddress_ok_iff (a := a4) (x := ⟨t.recipient, h3⟩)|>.mpr o4
  obtain ⟨am, e5, d5⟩ := decBig_lax (w := w) o5 l5
  have e6 := decVecU8_ok_iff.mpr o6
  have el := (decAccessList_ok_iff m hal).mpr (ea ▸ ol)
  have e7 := decU64_ok_iff (a := a7) (n := UInt64.ofNat y.toU8.toNat)|>.mpr (by
    rw [u64_toNat (by have := y.toU8.toNat_lt; omega)]; exact ⟨i7, o7, l7⟩)
  obtain ⟨-, f1, f2⟩ := yParity_dec y
  obtain ⟨r', e8, d8⟩ := decBig_lax (w := w) o8 l8
  obtain ⟨s', e9, d9⟩ := decBig_lax (w := w) o9 l9
  refine ⟨⟨⟨ci, ⟨UInt64.ofNat t.nonce⟩, fp, gp, UInt64.ofNat t.gasLimit, ⟨t.recipient, h3⟩, am, t.data, acc⟩, y, r', s'⟩, ?_, ?_⟩
  · refine (decode_list_iff m (fun _ => rfl) hl).mpr ⟨p, hi, ?_⟩
    simp only [decTransactionEip1559]
    rw [(decodeAsItems_ok_iff m hp).mpr ⟨_, hs, rfl⟩]
    simp only [bind_ok, List.map_cons, List.map_nil, List.length_cons, List.length_nil, ne_eq, Nat.reduceAdd, not_true_eq_false, if_false,
      nextItem, pure_def, e0, e1, ef, e2, e3, e4, e5, e6, e7, e8, e9, el, f1, f2]
    rw [built_eip1559 _ rfl rfl rfl rfl rfl rfl rfl]
    rfl
  · exact ⟨⟨d0, u64_toNat (by omega), h1, df, d2, u64_toNat h2, rfl, d5, rfl, ea⟩, rfl, d8, d9⟩

end LCT.Ethereum
