import Verif.Spec.TxPanics
import Verif.Lemmas.Ethereum.Total
import Verif.Lemmas.RlpPanic

/-!
# Exactly when the transaction decoders panic
-/

namespace LCT.Ethereum
open LCT.BigInt LCT.Rlp LCT.Spec LCT.Spec.Eth LCT.Out
variable {w : Nat} [hw : DigitWidth w] {α β : Type}

theorem bind_eq_panic {x : Out RlpErr α} {f : α → Out RlpErr β} :
    (x >>= f) = .panic ↔ x = .panic ∨ ∃ a, x = .ok a ∧ f a = .panic := by
  cases x with
  | ok a => simp [bind_ok]
  | err e => exact ⟨fun h => (nomatch h), fun h => (match h with | .inl h => nomatch h | .inr ⟨_, h, _⟩ => nomatch h)⟩
  | panic => exact ⟨fun _ => .inl rfl, fun _ => rfl⟩
  | hang => exact ⟨fun h => (nomatch h), fun h => (match h with | .inl h => nomatch h | .inr ⟨_, h, _⟩ => nomatch h)⟩

theorem bind_panic_ret {x : Out RlpErr α} {f : α → Out RlpErr β} (h : x.Returns) :
    (x >>= f) = .panic ↔ ∃ a, x = .ok a ∧ f a = .panic := by
  rw [bind_eq_panic]
  constructor
  · rintro (h' | h')
    · exact absurd h' (returns_iff.mp h).1
    · exact h'
  · exact .inr

theorem set_panic_ret {γ : Type} {x : Out RlpErr α} {g : α → β} {f : β → Out RlpErr γ} (h : x.Returns) :
    ((x >>= fun a => pure (g a)) >>= f) = .panic ↔ ∃ a, x = .ok a ∧ f (g a) = .panic := by
  rcases h with ⟨a, rfl⟩ | ⟨e, rfl⟩
  · simp [bind_ok, pure_def]
  · exact ⟨fun h => (nomatch h), fun ⟨_, h, _⟩ => (nomatch h)⟩

theorem ret_ne_panic {x : Out RlpErr α} (h : x.Returns) : x = .panic ↔ False := iff_false_intro (returns_iff.mp h).1

theorem decodeAsItems_panic_iff {m : Build} {p : List UInt8} (hl : p.length < 2 ^ 64) :
    DecItem.decodeAsItems m ⟨.List, p⟩ = .panic ↔ ChokingItems p := by
  rw [ChokingItems, ← decodeListPayload_panic_iff m p hl]
  simp only [DecItem.decodeAsItems, ne_eq, not_true_eq_false, if_false]
  cases decodeListPayload m p <;> simp [Out.bind]

theorem decode_list_panic {dec : Dec α} (hd : ∀ p, dec ⟨.SingleValue, p⟩ = .err .InvalidFormat) {m : Build} {data : List UInt8}
    (hl : data.length < 2 ^ 64) : decode m dec data = .panic ↔
      (m = .debug ∧ DeclaresHugeLength data) ∨ ∃ p, RelaxedItem .List p data ∧ dec ⟨.List, p⟩ = .panic := by
  unfold decode DecItem.newFromData
  by_cases hh : DeclaresHugeLength data
  · have hn : ∀ p, ¬ RelaxedItem .List p data := by
      intro p hp
      have := huge_not_relaxed (rest := []) hp hl
      rw [List.append_nil] at this
      exact this hh
    rw [decodeData_huge m data hh]
    cases m
    · simp [Out.bind, hh]
    · simp [Out.bind, hn]
  · rcases decodeData_returns m data hh with ⟨⟨t, p⟩, e⟩ | ⟨er, e⟩
    · have hr := (decodeData_iff m data t p hl).mp e
      rw [e]
      simp only [Out.bind, hh, and_false, false_or]
      cases t with
      | SingleValue =>
        rw [hd]
        refine ⟨fun h => (nomatch h), ?_⟩
        rintro ⟨q, hq, -⟩
        rw [(decodeData_iff m data .List q hl).mpr hq] at e
        cases e
      | List =>
        constructor
        · exact fun h => ⟨p, hr, h⟩
        · rintro ⟨q, hq, h⟩
          rw [(decodeData_iff m data .List q hl).mpr hq] at e
          cases e
          exact h
    · rw [e]
      simp only [Out.bind, hh, and_false, false_or]
      refine ⟨fun h => (nomatch h), ?_⟩
      rintro ⟨q, hq, -⟩
      rw [(decodeData_iff m data .List q hl).mpr hq] at e
      cases e

/-! ## Access lists -/

theorem decVec_keys_panic {m : Build} {k : ItemType × List UInt8} (hl : k.2.length < 2 ^ 64) :
    decVec m decStorageKey ⟨k.1, k.2⟩ = .panic ↔ (k.1 = .SingleValue ∧ m = .debug) ∨ (k.1 = .List ∧ ChokingItems k.2) := by
  obtain ⟨t, p⟩ := k
  cases t with
  | SingleValue => cases m <;> simp [decVec, dassert, rassert, DecItem.decodeAsItems, Out.bind]
  | List =>
    rw [← decodeAsItems_panic_iff (m := m) hl]
    have : decVec m decStorageKey ⟨.List, p⟩ = (DecItem.decodeAsItems m ⟨.List, p⟩ >>= decAll decStorageKey) := by
      cases m <;> rfl
    rw [this, bind_eq_panic]
    constructor
    · rintro (h | ⟨a, -, h⟩)
      · exact .inr ⟨rfl, h⟩
      · obtain ⟨_, d, _, _, _, h⟩ := (decAll_panic_iff _ _).mp h
        exact absurd h (returns_iff.mp (decStorageKey_returns d)).1
    · rintro (⟨h, -⟩ | ⟨-, h⟩)
      · cases h
      · exact .inl h

theorem decAddress_some {a : ItemType × List UInt8} :
    (∃ x, decAddress ⟨a.1, a.2⟩ = .ok x) ↔ a.1 = .SingleValue ∧ a.2.length = 20 := by
  constructor
  · rintro ⟨x, h⟩
    have := decAddress_ok_iff.mp h
    cases this
    exact ⟨rfl, x.len⟩
  · rintro ⟨h1, h2⟩
    exact ⟨⟨a.2, h2⟩, decAddress_ok_iff.mpr (by obtain ⟨t, p⟩ := a; cases h1; rfl)⟩

theorem entry_panic {m : Build} {e : ItemType × List UInt8} (hl : e.2.length < 2 ^ 64) :
    decAccessListItem m ⟨e.1, e.2⟩ = .panic ↔ BadEntry m e := by
  obtain ⟨t, p⟩ := e
  simp only at hl
  cases t with
  | SingleValue => simp [decAccessListItem, BadEntry]
  | List =>
    simp only [decAccessListItem, BadEntry, true_and]
    rw [bind_eq_panic, decodeAsItems_panic_iff hl]
    refine or_congr Iff.rfl ?_
    constructor
    · rintro ⟨ds, h1, h⟩
      obtain ⟨as, hs, rfl⟩ := (decodeAsItems_ok_iff m hl).mp h1
      by_cases h2 : as.length = 2
      swap
      · rw [if_pos (by simpa using h2)] at h; cases h
      obtain ⟨a, k, rfl⟩ := seq_two h2
      simp only [List.map_cons, List.map_nil, List.length_cons, List.length_nil, ne_eq, Nat.reduceAdd, not_true_eq_false, if_false, nextItem,
        bind_ok] at h
      obtain ⟨ad, h3, h⟩ := (bind_panic_ret (decAddress_returns _)).mp h
      have hk : k.2.length < 2 ^ 64 := Nat.lt_of_le_of_lt (seq_mem_le hs k (by simp)) hl
      have h4 : decVec m decStorageKey ⟨k.1, k.2⟩ = .panic := by
        rcases bind_eq_panic.mp h with h | ⟨_, _, h⟩
        · exact h
        · cases h
      obtain ⟨ha, hb⟩ := decAddress_some.mp ⟨ad, h3⟩
      obtain ⟨t, q⟩ := a
      cases ha
      exact ⟨q, k, hs, hb, (decVec_keys_panic hk).mp h4⟩
    · rintro ⟨q, k, hs, hb, hk'⟩
      have hk : k.2.length < 2 ^ 64 := Nat.lt_of_le_of_lt (seq_mem_le hs k (by simp)) hl
      obtain ⟨ad, h3⟩ := (decAddress_some (a := (.SingleValue, q))).mpr ⟨rfl, hb⟩
      refine ⟨_, (decodeAsItems_ok_iff m hl).mpr ⟨_, hs, rfl⟩, ?_⟩
      simp only [List.map_cons, List.map_nil, List.length_cons, List.length_nil, ne_eq, Nat.reduceAdd, not_true_eq_false, if_false, nextItem,
        bind_ok]
      refine (bind_panic_ret (decAddress_returns _)).mpr ⟨ad, h3, ?_⟩
      exact bind_eq_panic.mpr (.inl ((decVec_keys_panic hk).mpr hk'))

theorem entry_good {m : Build} {e : ItemType × List UInt8} (hl : e.2.length < 2 ^ 64) :
    (∃ v, decAccessListItem m ⟨e.1, e.2⟩ = .ok v) ↔ GoodEntry e := by
  constructor
  · rintro ⟨v, h⟩
    obtain ⟨h1, h2⟩ := (decAccessListItem_ok_iff m hl).mp h
    refine ⟨⟨v.address.data, v.storageKeys.map (·.data)⟩, v.address.len, ?_, h1, ?_⟩
    · intro k hk
      obtain ⟨k', -, rfl⟩ := List.mem_map.mp hk
      exact k'.len
    · rw [List.map_map]; exact h2
  · rintro ⟨a, h1, h2, h3, h4⟩
    refine ⟨⟨⟨a.address, h1⟩, a.keys.attach.map fun k => ⟨k.1, h2 k.1 k.2⟩⟩, (decAccessListItem_ok_iff m hl).mpr ⟨h3, ?_⟩⟩
    have : (a.keys.attach.map fun k => (⟨k.1, h2 k.1 k.2⟩ : StorageKey)).map (fun k => Item.bytes k.data) = a.keys.map .bytes := by
      rw [List.map_map]
      conv => rhs; rw [← List.attach_map_subtype_val a.keys, List.map_map]
      rfl
    simpa [this] using h4

theorem decAll_good {m : Build} {as : List (ItemType × List UInt8)} (hl : ∀ a ∈ as, a.2.length < 2 ^ 64) :
    (∃ vs, decAll (decAccessListItem m) (as.map fun x => ⟨x.1, x.2⟩) = .ok vs) ↔ ∀ a ∈ as, GoodEntry a := by
  induction as with
  | nil => exact ⟨fun _ a h => (nomatch h), fun _ => ⟨[], rfl⟩⟩
  | cons a as ih =>
    have ih := ih fun x hx => hl x (by simp [hx])
    have ha := entry_good (m := m) (hl a (by simp))
    simp only [List.map_cons, decAll, List.mem_cons, forall_eq_or_imp]
    rw [← ih, ← ha]
    constructor
    · rintro ⟨vs, h⟩
      obtain ⟨v, h1, h⟩ := out_bind_eq_ok.mp h
      obtain ⟨vs', h2, -⟩ := out_bind_eq_ok.mp h
      exact ⟨⟨v, h1⟩, vs', h2⟩
    · rintro ⟨⟨v, h1⟩, vs, h2⟩
      exact ⟨v :: vs, by rw [h1, out_bind_ok, h2, out_bind_ok]⟩

theorem accessList_panic {m : Build} {al : ItemType × List UInt8} (hl : al.2.length < 2 ^ 64) :
    decAccessList m ⟨al.1, al.2⟩ = .panic ↔ BadAccessList m al := by
  obtain ⟨t, p⟩ := al
  simp only at hl
  cases t with
  | SingleValue => simp [decAccessList, BadAccessList]
  | List =>
    simp only [BadAccessList, true_and]
    have : decAccessList m ⟨.List, p⟩ = (DecItem.decodeAsItems m ⟨.List, p⟩ >>= decAll (decAccessListItem m)) := by
      cases m <;> rfl
    rw [this, bind_eq_panic, decodeAsItems_panic_iff hl]
    refine or_congr Iff.rfl ?_
    constructor
    · rintro ⟨ds, h1, h⟩
      obtain ⟨as, hs, rfl⟩ := (decodeAsItems_ok_iff m hl).mp h1
      obtain ⟨pre, a, post, e, hpre, ha⟩ := (decAll_panic_iff _ _).mp h
      obtain ⟨good, rest, rfl, rfl, e2⟩ := List.map_eq_append_iff.mp e
      obtain ⟨b, rest', rfl, rfl, rfl⟩ := List.map_eq_cons_iff.mp e2
      have hb : ∀ x ∈ good ++ b :: rest', x.2.length < 2 ^ 64 := fun x hx => Nat.lt_of_le_of_lt (seq_mem_le hs x hx) hl
      exact ⟨good, b, rest', hs, (decAll_good fun a ha => hb a (by simp [ha])).mp hpre, (entry_panic (hb b (by simp))).mp ha⟩
    · rintro ⟨good, b, rest, hs, hg, hbad⟩
      have hb : ∀ x ∈ good ++ b :: rest, x.2.length < 2 ^ 64 := fun x hx => Nat.lt_of_le_of_lt (seq_mem_le hs x hx) hl
      refine ⟨_, (decodeAsItems_ok_iff m hl).mpr ⟨_, hs, rfl⟩, (decAll_panic_iff _ _).mpr ?_⟩
      exact ⟨good.map fun x => ⟨x.1, x.2⟩, ⟨b.1, b.2⟩, rest.map fun x => ⟨x.1, x.2⟩, by simp,
        (decAll_good fun a ha => hb a (by simp [ha])).mpr hg, (entry_panic (hb b (by simp))).mpr hbad⟩

/-! ## Single fields -/

theorem decBig_some {a : ItemType × List UInt8} : (∃ x, decBig w ⟨a.1, a.2⟩ = .ok x) ↔ a.1 = .SingleValue := by
  obtain ⟨t, p⟩ := a
  constructor
  · rintro ⟨x, h⟩
    obtain ⟨_, _, _, ho, b, rfl, _⟩ := decBig_ok h
    cases ho; rfl
  · rintro h
    cases h
    obtain ⟨x, h, -⟩ := decBig_lax (w := w) (a := (.SingleValue, p)) (i := .bytes p) (n := ofBE p) rfl ⟨p, rfl, rfl⟩
    exact ⟨x, h⟩

theorem decU64_some {a : ItemType × List UInt8} : (∃ x, decU64 ⟨a.1, a.2⟩ = .ok x) ↔ a.1 = .SingleValue ∧ a.2.length ≤ 8 := by
  obtain ⟨t, p⟩ := a
  constructor
  · rintro ⟨x, h⟩
    obtain ⟨_, ho, b, rfl, hb, _⟩ := decU64_ok_iff.mp h
    cases ho; exact ⟨rfl, hb⟩
  · rintro ⟨h1, h2⟩
    cases h1
    have : ofBE p < 2 ^ 64 :=
      Nat.lt_of_lt_of_le (ofBE_lt p) (Nat.le_trans (Nat.pow_le_pow_right (by decide) h2) (by decide))
    exact ⟨UInt64.ofNat (ofBE p), decU64_ok_iff.mpr ⟨.bytes p, rfl, p, rfl, h2, by
      rw [UInt64.toNat_ofNat', Nat.mod_eq_of_lt this]⟩⟩

theorem decNonce_some {a : ItemType × List UInt8} :
    (∃ x, decNonce ⟨a.1, a.2⟩ = .ok x) ↔ a.1 = .SingleValue ∧ a.2.length ≤ 8 ∧ ofBE a.2 < 2 ^ 64 - 1 := by
  obtain ⟨t, p⟩ := a
  constructor
  · rintro ⟨x, h⟩
    obtain ⟨hn, _, ho, b, rfl, hb, hv⟩ := decNonce_ok_iff.mp h
    cases ho; exact ⟨rfl, hb, by rw [hv]; exact hn⟩
  · rintro ⟨h1, h2, h3⟩
    cases h1
    simp only at h2 h3
    have : (UInt64.ofNat (ofBE p)).toNat = ofBE p := by
      rw [UInt64.toNat_ofNat', Nat.mod_eq_of_lt (by omega)]
    exact ⟨⟨UInt64.ofNat (ofBE p)⟩, decNonce_ok_iff.mpr ⟨by simpa only [this] using h3, .bytes p, rfl, p, rfl, h2, this.symm⟩⟩

theorem decVecU8_some {a : ItemType × List UInt8} : (∃ x, decVecU8 ⟨a.1, a.2⟩ = .ok x) ↔ a.1 = .SingleValue := by
  obtain ⟨t, p⟩ := a
  constructor
  · rintro ⟨x, h⟩
    have := decVecU8_ok_iff.mp h
    cases this; rfl
  · rintro h
    cases h
    exact ⟨p, decVecU8_ok_iff.mpr rfl⟩

/-! ## Transactions -/

theorem legacy_panic {m : Build} {p : List UInt8} (hl : p.length < 2 ^ 64) : decTransactionLegacy m w ⟨.List, p⟩ = .panic ↔ ChokingItems p := by
  rw [← decodeAsItems_panic_iff (m := m) hl]
  simp only [decTransactionLegacy]
  rw [bind_eq_panic]
  refine or_iff_left ?_
  rintro ⟨ds, hds, h⟩
  revert h
  refine (returns_iff.mp ?_).1
  by_cases h9 : ds.length = 9
  swap
  · rw [if_pos h9]; exact .err _
  obtain ⟨as, rfl⟩ := decodeAsItems_map hds
  obtain ⟨a1, a2, a3, a4, a5, a6, a7, a8, a9, rfl⟩ := seq_nine (by simpa using h9)
  simp only [List.map_cons, List.map_nil, List.length_cons, List.length_nil, ne_eq, Nat.reduceAdd, not_true_eq_false, if_false, nextItem, bind_ok]
  refine Returns.bind (Returns.bind (decNonce_returns _) fun _ _ => .ok _) fun _ _ => ?_
  refine Returns.bind (Returns.bind (decBig_returns _) fun _ _ => .ok _) fun _ _ => ?_
  refine Returns.bind (Returns.bind (decU64_returns _) fun _ _ => .ok _) fun _ _ => ?_
  refine Returns.bind (Returns.bind (decAddress_returns _) fun _ _ => .ok _) fun _ _ => ?_
  refine Returns.bind (Returns.bind (decBig_returns _) fun _ _ => .ok _) fun _ _ => ?_
  refine Returns.bind (Returns.bind (decVecU8_returns _) fun _ _ => .ok _) fun _ _ => ?_
  refine Returns.bind (built_returns (buildLegacy_returns _)) fun _ _ => ?_
  refine Returns.bind (decU64_returns _) fun _ _ => ?_
  refine Returns.bind (u8FromU64_returns _) fun _ _ => ?_
  refine Returns.bind (decBig_returns _) fun _ _ => ?_
  refine Returns.bind (decBig_returns _) fun _ _ => ?_
  exact .ok _

theorem eip155_panic {m : Build} {p : List UInt8} (hl : p.length < 2 ^ 64) : decTransactionEip155 m w ⟨.List, p⟩ = .panic ↔ ChokingItems p := by
  rw [← decodeAsItems_panic_iff (m := m) hl]
  simp only [decTransactionEip155]
  rw [bind_eq_panic]
  refine or_iff_left ?_
  rintro ⟨ds, hds, h⟩
  revert h
  refine (returns_iff.mp ?_).1
  by_cases h9 : ds.length = 9
  swap
  · rw [if_pos h9]; exact .err _
  obtain ⟨as, rfl⟩ := decodeAsItems_map hds
  obtain ⟨a1, a2, a3, a4, a5, a6, a7, a8, a9, rfl⟩ := seq_nine (by simpa using h9)
  simp only [List.map_cons, List.map_nil, List.length_cons, List.length_nil, ne_eq, Nat.reduceAdd, not_true_eq_false, if_false, nextItem, bind_ok]
  refine Returns.bind (decNonce_returns _) fun _ _ => ?_
  refine Returns.bind (decBig_returns _) fun _ _ => ?_
  refine Returns.bind (decU64_returns _) fun _ _ => ?_
  refine Returns.bind (decAddress_returns _) fun _ _ => ?_
  refine Returns.bind (decBig_returns _) fun _ _ => ?_
  refine Returns.bind (decVecU8_returns _) fun _ _ => ?_
  refine Returns.bind (decBig_returns _) fun v hv => ?_
  refine Returns.bind (decBig_returns _) fun _ _ => ?_
  refine Returns.bind (decBig_returns _) fun _ _ => ?_
  obtain ⟨n, -, hn, -⟩ := decBig_ok hv
  by_cases h35 : 35 ≤ n
  · obtain ⟨n35, c, c', q1, q2, q3, q4, -⟩ := eip155_chain m hn h35
    simp only [q1, q2, q3, q4, bind_ok, Bool.false_eq_true, if_false]
    exact Returns.bind (built_returns (buildEip155_returns _)) fun _ _ => .ok _
  · obtain ⟨n35, q1, q2⟩ := eip155_small m hn (by omega)
    simp only [q1, q2, bind_ok, if_true]
    exact .err _

theorem single_mk {a : ItemType × List UInt8} (h : a.1 = .SingleValue) : a = (.SingleValue, a.2) := by
  obtain ⟨t, p⟩ := a; cases h; rfl

theorem eip2930_panic {m : Build} {p : List UInt8} (hl : p.length < 2 ^ 64) : decTransactionEip2930 m w ⟨.List, p⟩ = .panic ↔
    ChokingItems p ∨ ∃ front al y r s, RelaxedSeq (front ++ [al, y, r, s]) p ∧ GoodFront2930 front ∧ BadAccessList m al := by
  rw [← decodeAsItems_panic_iff (m := m) hl]
  simp only [decTransactionEip2930]
  rw [bind_eq_panic]
  refine or_congr Iff.rfl ?_
  constructor
  · rintro ⟨ds, hds, h⟩
    obtain ⟨as, hs, rfl⟩ := (decodeAsItems_ok_iff m hl).mp hds
    by_cases h11 : as.length = 11
    swap
    · rw [if_pos (by simpa using h11)] at h; cases h
    obtain ⟨a0, a1, a2, a3, a4, a5, a6, al, y, r, s, rfl⟩ := seq_eleven h11
    simp only [List.map_cons, List.map_nil, List.length_cons, List.length_nil, ne_eq, Nat.reduceAdd, not_true_eq_false, if_false, nextItem,
      bind_ok] at h
    obtain ⟨_, e0, h⟩ := (set_panic_ret (decBig_returns _)).mp h
    obtain ⟨_, e1, h⟩ := (set_panic_ret (decNonce_returns _)).mp h
    obtain ⟨_, e2, h⟩ := (set_panic_ret (decBig_returns _)).mp h
    obtain ⟨_, e3, h⟩ := (set_panic_ret (decU64_returns _)).mp h
    obtain ⟨_, e4, h⟩ := (set_panic_ret (decAddress_returns _)).mp h
    obtain ⟨_, e5, h⟩ := (set_panic_ret (decBig_returns _)).mp h
    obtain ⟨_, e6, h⟩ := (set_panic_ret (decVecU8_returns _)).mp h
    have f0 := decBig_some.mp ⟨_, e0⟩
    obtain ⟨f1, f1', f1''⟩ := decNonce_some.mp ⟨_, e1⟩
    have f2 := decBig_some.mp ⟨_, e2⟩
    obtain ⟨f3, f3'⟩ := decU64_some.mp ⟨_, e3⟩
    obtain ⟨f4, f4'⟩ := decAddress_some.mp ⟨_, e4⟩
    have f5 := decBig_some.mp ⟨_, e5⟩
    have f6 := decVecU8_some.mp ⟨_, e6⟩
    refine ⟨[a0, a1, a2, a3, a4, a5, a6], al, y, r, s, hs, ⟨a0.2, a1.2, a2.2, a3.2, a4.2, a5.2, a6.2, ?_, f1', f1'', f3', f4'⟩, ?_⟩
    · simp only [List.map_cons, List.map_nil, ← single_mk f0, ← single_mk f1, ← single_mk f2, ← single_mk f3, ← single_mk f4, ← single_mk f5,
        ← single_mk f6]
    · refine (accessList_panic (Nat.lt_of_le_of_lt (seq_mem_le hs al (by simp)) hl)).mp ?_
      rcases bind_eq_panic.mp h with h | ⟨b, -, h⟩
      · rcases bind_eq_panic.mp h with h | ⟨_, _, h⟩
        · exact h
        · cases h
      · revert h
        refine fun h => absurd h (returns_iff.mp ?_).1
        refine Returns.bind (built_returns (buildEip2930_returns _)) fun _ _ => ?_
        refine Returns.bind (decU64_returns _) fun _ _ => ?_
        refine Returns.bind (u8FromU64_returns _) fun _ _ => ?_
        refine Returns.bind (yParityFromU8_returns _) fun _ _ => ?_
        refine Returns.bind (decBig_returns _) fun _ _ => ?_
        refine Returns.bind (decBig_returns _) fun _ _ => ?_
        exact .ok _
  · rintro ⟨_, al, y, r, s, hs, ⟨c0, c1, c2, c3, c4, c5, c6, rfl, h1, h1', h3, h4⟩, hal⟩
    refine ⟨_, (decodeAsItems_ok_iff m hl).mpr ⟨_, hs, rfl⟩, ?_⟩
    simp only [List.map_cons, List.map_nil, List.cons_append, List.nil_append, List.length_cons, List.length_nil, ne_eq, Nat.reduceAdd,
      not_true_eq_false, if_false, nextItem, bind_ok]
    obtain ⟨_, e0⟩ := (decBig_some (w := w) (a := (.SingleValue, c0))).mpr rfl
    obtain ⟨_, e1⟩ := (decNonce_some (a := (.SingleValue, c1))).mpr ⟨rfl, h1, h1'⟩
    obtain ⟨_, e2⟩ := (decBig_some (w := w) (a := (.SingleValue, c2))).mpr rfl
    obtain ⟨_, e3⟩ := (decU64_some (a := (.SingleValue, c3))).mpr ⟨rfl, h3⟩
    obtain ⟨_, e4⟩ := (decAddress_some (a := (.SingleValue, c4))).mpr ⟨rfl, h4⟩
    obtain ⟨_, e5⟩ := (decBig_some (w := w) (a := (.SingleValue, c5))).mpr rfl
    obtain ⟨_, e6⟩ := (decVecU8_some (a := (.SingleValue, c6))).mpr rfl
    refine (set_panic_ret (decBig_returns _)).mpr ⟨_, e0, ?_⟩
    refine (set_panic_ret (decNonce_returns _)).mpr ⟨_, e1, ?_⟩
    refine (set_panic_ret (decBig_returns _)).mpr ⟨_, e2, ?_⟩
    refine (set_panic_ret (decU64_returns _)).mpr ⟨_, e3, ?_⟩
    refine (set_panic_ret (decAddress_returns _)).mpr ⟨_, e4, ?_⟩
    refine (set_panic_ret (decBig_returns _)).mpr ⟨_, e5, ?_⟩
    refine (set_panic_ret (decVecU8_returns _)).mpr ⟨_, e6, ?_⟩
    exact bind_eq_panic.mpr (.inl (bind_eq_panic.mpr (.inl ((accessList_panic (Nat.lt_of_le_of_lt (seq_mem_le hs al (by simp)) hl)).mpr hal))))

theorem eip1559_panic {m : Build} {p : List UInt8} (hl : p.length < 2 ^ 64) : decTransactionEip1559 m w ⟨.List, p⟩ = .panic ↔
    ChokingItems p ∨ ∃ front al y r s, RelaxedSeq (front ++ [al, y, r, s]) p ∧ GoodFront1559 front ∧ BadAccessList m al := by
  rw [← decodeAsItems_panic_iff (m := m) hl]
  simp only [decTransactionEip1559]
  rw [bind_eq_panic]
  refine or_congr Iff.rfl ?_
  constructor
  · rintro ⟨ds, hds, h⟩
    obtain ⟨as, hs, rfl⟩ := (decodeAsItems_ok_iff m hl).mp hds
    by_cases h12 : as.length = 12
    swap
    · rw [if_pos (by simpa using h12)] at h; cases h
    obtain ⟨a0, a1, a2, a2', a3, a4, a5, a6, al, y, r, s, rfl⟩ := seq_twelve h12
    simp only [List.map_cons, List.map_nil, List.length_cons, List.length_nil, ne_eq, Nat.reduceAdd, not_true_eq_false, if_false, nextItem,
      bind_ok] at h
    obtain ⟨_, e0, h⟩ := (set_panic_ret (decBig_returns _)).mp h
    obtain ⟨_, e1, h⟩ := (set_panic_ret (decNonce_returns _)).mp h
    obtain ⟨_, e2, h⟩ := (set_panic_ret (decBig_returns _)).mp h
    obtain ⟨_, e2', h⟩ := (set_panic_ret (decBig_returns _)).mp h
    obtain ⟨_, e3, h⟩ := (set_panic_ret (decU64_returns _)).mp h
    obtain ⟨_, e4, h⟩ := (set_panic_ret (decAddress_returns _)).mp h
    obtain ⟨_, e5, h⟩ := (set_panic_ret (decBig_returns _)).mp h
    obtain ⟨_, e6, h⟩ := (set_panic_ret (decVecU8_returns _)).mp h
    have f0 := decBig_some.mp ⟨_, e0⟩
    obtain ⟨f1, f1', f1''⟩ := decNonce_some.mp ⟨_, e1⟩
    have f2 := decBig_some.mp ⟨_, e2⟩
    have f2' := decBig_some.mp ⟨_, e2'⟩
    obtain ⟨f3, f3'⟩ := decU64_some.mp ⟨_, e3⟩
    obtain ⟨f4, f4'⟩ := decAddress_some.mp ⟨_, e4⟩
    have f5 := decBig_some.mp ⟨_, e5⟩
    have f6 := decVecU8_some.mp ⟨_, e6⟩
    refine ⟨[a0, a1, a2, a2', a3, a4, a5, a6], al, y, r, s, hs,
      ⟨a0.2, a1.2, a2.2, a2'.2, a3.2, a4.2, a5.2, a6.2, ?_, f1', f1'', f3', f4'⟩, ?_⟩
    · simp only [List.map_cons, List.map_nil, ← single_mk f0, ← single_mk f1, ← single_mk f2, ← single_mk f2', ← single_mk f3, ← single_mk f4,
        ← single_mk f5, ← single_mk f6]
    · refine (accessList_panic (Nat.lt_of_le_of_lt (seq_mem_le hs al (by simp)) hl)).mp ?_
      rcases bind_eq_panic.mp h with h | ⟨b, -, h⟩
      · rcases bind_eq_panic.mp h with h | ⟨_, _, h⟩
        · exact h
        · cases h
      · revert h
        refine fun h => absurd h (returns_iff.mp ?_).1
        refine Returns.bind (built_returns (buildEip1559_returns _)) fun _ _ => ?_
        refine Returns.bind (decU64_returns _) fun _ _ => ?_
        refine Returns.bind (u8FromU64_returns _) fun _ _ => ?_
        refine Returns.bind (yParityFromU8_returns _) fun _ _ => ?_
        refine Returns.bind (decBig_returns _) fun _ _ => ?_
        refine Returns.bind (decBig_returns _) fun _ _ => ?_
        exact .ok _
  · rintro ⟨_, al, y, r, s, hs, ⟨c0, c1, c2, c2', c3, c4, c5, c6, rfl, h1, h1', h3, h4⟩, hal⟩
    refine ⟨_, (decodeAsItems_ok_iff m hl).mpr ⟨_, hs, rfl⟩, ?_⟩
    simp only [List.map_cons, List.map_nil, List.cons_append, List.nil_append, List.length_cons, List.length_nil, ne_eq, Nat.reduceAdd,
      not_true_eq_false, if_false, nextItem, bind_ok]
    obtain ⟨_, e0⟩ := (decBig_some (w := w) (a := (.SingleValue, c0))).mpr rfl
    obtain ⟨_, e1⟩ := (decNonce_some (a := (.SingleValue, c1))).mpr ⟨rfl, h1, h1'⟩
    obtain ⟨_, e2⟩ := (decBig_some (w := w) (a := (.SingleValue, c2))).mpr rfl
    obtain ⟨_, e2'⟩ := (decBig_some (w := w) (a := (.SingleValue, c2'))).mpr rfl
    obtain ⟨_, e3⟩ := (decU64_some (a := (.SingleValue, c3))).mpr ⟨rfl, h3⟩
    obtain ⟨_, e4⟩ := (decAddress_some (a := (.SingleValue, c4))).mpr ⟨rfl, h4⟩
    obtain ⟨_, e5⟩ := (decBig_some (w := w) (a := (.SingleValue, c5))).mpr rfl
    obtain ⟨_, e6⟩ := (decVecU8_some (a := (.SingleValue, c6))).mpr rfl
    refine (set_panic_ret (decBig_returns _)).mpr ⟨_, e0, ?_⟩
    refine (set_panic_ret (decNonce_returns _)).mpr ⟨_, e1, ?_⟩
    refine (set_panic_ret (decBig_returns _)).mpr ⟨_, e2, ?_⟩
    refine (set_panic_ret (decBig_returns _)).mpr ⟨_, e2', ?_⟩
    refine (set_panic_ret (decU64_returns _)).mpr ⟨_, e3, ?_⟩
    refine (set_panic_ret (decAddress_returns _)).mpr ⟨_, e4, ?_⟩
    refine (set_panic_ret (decBig_returns _)).mpr ⟨_, e5, ?_⟩
    refine (set_panic_ret (decVecU8_returns _)).mpr ⟨_, e6, ?_⟩
    exact bind_eq_panic.mpr (.inl (bind_eq_panic.mpr (.inl ((accessList_panic (Nat.lt_of_le_of_lt (seq_mem_le hs al (by simp)) hl)).mpr hal))))

theorem decode_untyped_panic {dec : Dec α} (hd : ∀ p, dec ⟨.SingleValue, p⟩ = .err .InvalidFormat) {m : Build} {data : List UInt8}
    (hl : data.length < 2 ^ 64) (h : ∀ p : List UInt8, p.length < 2 ^ 64 → (dec ⟨.List, p⟩ = .panic ↔ ChokingItems p)) :
    decode m dec data = .panic ↔ ChokesUntyped m data := by
  rw [decode_list_panic hd hl, ChokesUntyped]
  refine or_congr Iff.rfl (exists_congr fun p => and_congr_right fun hp => h p (Nat.lt_of_le_of_lt (relaxed_le hp) hl))

theorem decode_typed_panic {dec : Dec α} (hd : ∀ p, dec ⟨.SingleValue, p⟩ = .err .InvalidFormat) {m : Build} {data : List UInt8}
    (hl : data.length < 2 ^ 64) {gf : List (ItemType × List UInt8) → Prop} (h : ∀ p : List UInt8, p.length < 2 ^ 64 → (dec ⟨.List, p⟩ = .panic ↔
      ChokingItems p ∨ ∃ front al y r s, RelaxedSeq (front ++ [al, y, r, s]) p ∧ gf front ∧ BadAccessList m al)) :
    decode m dec data = .panic ↔ ChokesTyped m gf data := by
  rw [decode_list_panic hd hl, ChokesTyped, ChokesUntyped, or_assoc]
  refine or_congr Iff.rfl ?_
  constructor
  · rintro ⟨p, hp, hx⟩
    rcases (h p (Nat.lt_of_le_of_lt (relaxed_le hp) hl)).mp hx with hx | ⟨f, al, y, r, s, h1, h2, h3⟩
    · exact .inl ⟨p, hp, hx⟩
    · exact .inr ⟨p, f, al, y, r, s, hp, h1, h2, h3⟩
  · rintro (⟨p, hp, hx⟩ | ⟨p, f, al, y, r, s, hp, h1, h2, h3⟩)
    · exact ⟨p, hp, (h p (Nat.lt_of_le_of_lt (relaxed_le hp) hl)).mpr (.inl hx)⟩
    · exact ⟨p, hp, (h p (Nat.lt_of_le_of_lt (relaxed_le hp) hl)).mpr (.inr ⟨f, al, y, r, s, h1, h2, h3⟩)⟩

end LCT.Ethereum
