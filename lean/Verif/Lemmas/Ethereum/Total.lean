import Verif.Lemmas.Ethereum.Accept

/-!
# Decoding transactions from arbitrary bytes does not panic (with the exceptions stated in the property file)
-/

namespace LCT.Ethereum
open LCT.BigInt LCT.Rlp LCT.Spec LCT.Spec.Eth LCT.Out
variable {w : Nat} [hw : DigitWidth w]

/-- The two builds agree and return; if `L`, the checked build may panic where the other reports a malformed input. -/
def Agr {α : Type} (L : Prop) (a b : Out RlpErr α) : Prop := (a = b ∧ b.Returns) ∨ (L ∧ a = .panic ∧ b = .err .InvalidFormat)

variable {L : Prop} {α β : Type}

theorem agr_ret {x : Out RlpErr α} (h : x.Returns) : Agr L x x := Or.inl ⟨rfl, h⟩
theorem agr_ok (x : α) : Agr L (.ok x) (.ok x) := agr_ret (.ok x)
theorem agr_err (e : RlpErr) : Agr L (.err e : Out RlpErr α) (.err e) := agr_ret (.err e)

theorem agr_bind {a b : Out RlpErr α} {f g : α → Out RlpErr β} (h : Agr L a b) (hf : ∀ x, b = .ok x → Agr L (f x) (g x)) :
    Agr L (a >>= f) (b >>= g) := by
  rcases h with ⟨rfl, ⟨x, rfl⟩ | ⟨e, rfl⟩⟩ | ⟨hL, rfl, rfl⟩
  · exact hf x rfl
  · exact agr_err e
  · exact Or.inr ⟨hL, rfl, rfl⟩

theorem agr_of {a b : Out RlpErr α} (h1 : a.Returns) (h2 : b.Returns) (h : ∀ x, a = .ok x ↔ b = .ok x) (n1 : NoMismatch a)
    (n2 : NoMismatch b) : Agr L a b := by
  rcases h2 with ⟨x, rfl⟩ | ⟨e, rfl⟩
  · rw [(h x).mpr rfl]; exact agr_ok x
  · rcases h1 with ⟨x, rfl⟩ | ⟨e', rfl⟩
    · have := (h x).mp rfl
      cases this
    · cases e
      · cases e'
        · exact agr_err _
        · exact absurd rfl n1
      · exact absurd rfl n2

theorem agr_data (data : List UInt8) (hl : data.length < 2 ^ 64) (hh : HugeFree data) :
    Agr L (decodeData .debug data) (decodeData .release data) := by
  have h0 := hh data (List.suffix_refl _)
  refine agr_of (decodeData_returns _ _ h0) (decodeData_returns _ _ h0) ?_ (decodeData_nm _ _) (decodeData_nm _ _)
  rintro ⟨t, p⟩
  rw [decodeData_iff _ _ _ _ hl, decodeData_iff _ _ _ _ hl]

theorem decodeAsItems_single (m : Build) (p : List UInt8) : DecItem.decodeAsItems m ⟨.SingleValue, p⟩ = .err .InvalidFormat := rfl

theorem decodeAsItems_nm (m : Build) (d : DecItem) : NoMismatch (d.decodeAsItems m) := by
  unfold DecItem.decodeAsItems
  split
  · simp [NoMismatch]
  · exact nm_bind (decodeListLoop_nm m _ _) fun _ => by simp [NoMismatch]

theorem decodeAsItems_returns (m : Build) (d : DecItem) (hh : HugeFree d.payload) : (d.decodeAsItems m).Returns := by
  unfold DecItem.decodeAsItems
  split
  · exact .err _
  · exact Returns.bind (decodeListLoop_returns m _ _ (by omega) hh) fun a _ => .ok _

theorem agr_items (d : DecItem) (hl : d.payload.length < 2 ^ 64) (hh : HugeFree d.payload) :
    Agr L (d.decodeAsItems .debug) (d.decodeAsItems .release) := by
  refine agr_of (decodeAsItems_returns _ _ hh) (decodeAsItems_returns _ _ hh) ?_ (decodeAsItems_nm _ _) (decodeAsItems_nm _ _)
  obtain ⟨t, p⟩ := d
  cases t
  · intro x; rw [decodeAsItems_single, decodeAsItems_single]
  · intro x; rw [decodeAsItems_ok_iff _ hl, decodeAsItems_ok_iff _ hl]

/-- Items of a list are parts of it. -/
theorem items_infix {m : Build} {d : DecItem} {ds : List DecItem} (h : d.decodeAsItems m = .ok ds) : ∀ x ∈ ds, x.payload <:+: d.payload := by
  unfold DecItem.decodeAsItems at h
  split at h
  · cases h
  · obtain ⟨as, h1, h⟩ := out_bind_eq_ok.mp h
    cases h
    intro x hx
    obtain ⟨a, ha, rfl⟩ := List.mem_map.mp hx
    exact (decodeListLoop_items m _ _ _ h1 a ha).1

theorem decNonce_returns (d : DecItem) : (decNonce d).Returns :=
  (decU64_returns d).bind fun n _ => by split <;> first | exact .ok _ | exact .err _

theorem decAddress_returns (d : DecItem) : (decAddress d).Returns := by
  unfold decAddress
  split
  · refine Returns.bind ?_ fun a _ => by split <;> first | exact .ok _ | exact .err _
    unfold DecItem.decodeAsBytes; split <;> first | exact .ok _ | exact .err _
  · exact .err _

theorem decStorageKey_returns (d : DecItem) : (decStorageKey d).Returns := by
  refine Returns.bind ?_ fun a _ => by split <;> first | exact .ok _ | exact .err _
  unfold DecItem.decodeAsBytes; split <;> first | exact .ok _ | exact .err _

theorem decBig_returns (d : DecItem) : (decBig w d).Returns := by
  unfold decBig decBigUintBytes
  split
  · exact .err _
  · simp only [bind_ok]
    obtain ⟨y, e, -⟩ := fromBeBytes_y (ε := RlpErr) w (if d.payload.isEmpty then [0] else d.payload) (by
      split
      · simp
      · rename_i h; simpa using h)
    rw [show BUint.fromBeBytes w _ = BInt.fromBeBytes w _ .positive from rfl, e]
    exact .ok _

theorem u8FromU64_returns (n : UInt64) : (u8FromU64 n).Returns := by
  unfold u8FromU64; split <;> first | exact .ok _ | exact .err _

theorem yParityFromU8_returns (n : UInt8) : (yParityFromU8 n).Returns := by
  unfold yParityFromU8; split <;> first | exact .ok _ | exact .err _

theorem built_returns {x : Out RlpErr (Except BuildingError α × Builder)} (h : x.Returns) : (built x).Returns := by
  refine Returns.bind h fun a _ => ?_
  obtain ⟨r, b⟩ := a
  cases r
  · exact .err _
  · exact .ok _

theorem unwrap_some_returns {x : Option α} (h : ¬ x.isNone = true) : ∃ a, x = some a := by
  cases x
  · exact absurd rfl h
  · exact ⟨_, rfl⟩

theorem buildLegacy_returns (b : Builder) : (b.takeAndBuildLegacy : Out RlpErr _).Returns := by
  unfold Builder.takeAndBuildLegacy
  split
  · exact .ok _
  · rename_i h
    simp only [Bool.or_eq_true, not_or] at h
    obtain ⟨⟨⟨⟨h1, h2⟩, h3⟩, h4⟩, h5⟩ := h
    obtain ⟨_, e1⟩ := unwrap_some_returns h1
    obtain ⟨_, e2⟩ := unwrap_some_returns h2
    obtain ⟨_, e3⟩ := unwrap_some_returns h3
    obtain ⟨_, e4⟩ := unwrap_some_returns h4
    obtain ⟨_, e5⟩ := unwrap_some_returns h5
    simp only [e1, e2, e3, e4, e5, unwrap, bind_ok]
    exact .ok _

theorem buildEip155_returns (b : Builder) : (b.takeAndBuildEip155 : Out RlpErr _).Returns := by
  unfold Builder.takeAndBuildEip155
  split
  · exact .ok _
  · rename_i h
    simp only [Bool.or_eq_true, not_or] at h
    obtain ⟨⟨⟨⟨⟨h0, h1⟩, h2⟩, h3⟩, h4⟩, h5⟩ := h
    obtain ⟨_, e0⟩ := unwrap_some_returns h0
    obtain ⟨_, e1⟩ := unwrap_some_returns h1
    obtain ⟨_, e2⟩ := unwrap_some_returns h2
    obtain ⟨_, e3⟩ := unwrap_some_returns h3
    obtain ⟨_, e4⟩ := unwrap_some_returns h4
    obtain ⟨_, e5⟩ := unwrap_some_returns h5
    simp only [e0, e1, e2, e3, e4, e5, unwrap, bind_ok]
    exact .ok _

theorem buildEip2930_returns (b : Builder) : (b.takeAndBuildEip2930 : Out RlpErr _).Returns := by
  unfold Builder.takeAndBuildEip2930
  split
  · exact .ok _
  · rename_i h
    simp only [Bool.or_eq_true, not_or] at h
    obtain ⟨⟨⟨⟨⟨h0, h1⟩, h2⟩, h3⟩, h4⟩, h5⟩ := h
    obtain ⟨_, e0⟩ := unwrap_some_returns h0
    obtain ⟨_, e1⟩ := unwrap_some_returns h1
    obtain ⟨_, e2⟩ := unwrap_some_returns h2
    obtain ⟨_, e3⟩ := unwrap_some_returns h3
    obtain ⟨_, e4⟩ := unwrap_some_returns h4
    obtain ⟨_, e5⟩ := unwrap_some_returns h5
    simp only [e0, e1, e2, e3, e4, e5, unwrap, bind_ok]
    exact .ok _

theorem buildEip1559_returns (b : Builder) : (b.takeAndBuildEip1559 : Out RlpErr _).Returns := by
  unfold Builder.takeAndBuildEip1559
  split
  · exact .ok _
  · rename_i h
    simp only [Bool.or_eq_true, not_or] at h
    obtain ⟨⟨⟨⟨⟨⟨h0, h1⟩, h2⟩, h3⟩, h4⟩, h5⟩, h6⟩ := h
    obtain ⟨_, e0⟩ := unwrap_some_returns h0
    obtain ⟨_, e1⟩ := unwrap_some_returns h1
    obtain ⟨_, e2⟩ := unwrap_some_returns h2
    obtain ⟨_, e3⟩ := unwrap_some_returns h3
    obtain ⟨_, e4⟩ := unwrap_some_returns h4
    obtain ⟨_, e5⟩ := unwrap_some_returns h5
    obtain ⟨_, e6⟩ := unwrap_some_returns h6
    simp only [e0, e1, e2, e3, e4, e5, e6, unwrap, bind_ok]
    exact .ok _

/-! ## Access lists -/

theorem agr_decAll {f g : Dec α} {ds : List DecItem} (h : ∀ d ∈ ds, Agr L (f d) (g d)) : Agr L (decAll f ds) (decAll g ds) := by
  induction ds with
  | nil => exact agr_ok _
  | cons d ds ih =>
    refine agr_bind (h d (by simp)) fun x _ => ?_
    exact agr_bind (ih fun d hd => h d (by simp [hd])) fun xs _ => agr_ok _

/-- In the checked build `Vec<T>` panics on a single value. -/
theorem agr_decVec {f g : Dec α} (d : DecItem) (hl : d.payload.length < 2 ^ 64) (hh : HugeFree d.payload) (hs : d.itemType = .SingleValue → L)
    (h : ∀ i, i.payload.length < 2 ^ 64 → HugeFree i.payload → Agr L (f i) (g i)) : Agr L (decVec .debug f d) (decVec .release g d) := by
  obtain ⟨t, p⟩ := d
  cases t with
  | SingleValue => exact Or.inr ⟨hs rfl, rfl, rfl⟩
  | List =>
    refine agr_bind (a := .ok ()) (b := .ok ()) (agr_ok ()) fun _ _ => ?_
    refine agr_bind (agr_items _ hl hh) fun ds hds => agr_decAll fun i hi => ?_
    have := items_infix hds i hi
    exact h i (Nat.lt_of_le_of_lt this.length_le hl) (hh.infix this)

theorem decodeAsItems_map {m : Build} {d : DecItem} {ds : List DecItem} (h : d.decodeAsItems m = .ok ds) :
    ∃ as : List (ItemType × List UInt8), ds = as.map fun x => ⟨x.1, x.2⟩ := by
  unfold DecItem.decodeAsItems at h
  split at h
  · cases h
  · obtain ⟨as, h1, h⟩ := out_bind_eq_ok.mp h
    cases h
    exact ⟨as, rfl⟩

theorem agr_accessListItem (d : DecItem) (hl : d.payload.length < 2 ^ 64) (hh : HugeFree d.payload) :
    Agr True (decAccessListItem .debug d) (decAccessListItem .release d) := by
  unfold decAccessListItem
  split
  · exact agr_err _
  · refine agr_bind (agr_items d hl hh) fun ds hds => ?_
    by_cases h2 : ds.length = 2
    · match ds, h2, hds with
      | [a, b], _, hds =>
      have hb := items_infix hds b (by simp)
      simp only [List.length_cons, List.length_nil, Nat.reduceAdd, ne_eq, not_true_eq_false, if_false, nextItem, bind_ok]
      refine agr_bind (agr_ret (decAddress_returns a)) fun _ _ => ?_
      refine agr_bind (agr_decVec b (Nat.lt_of_le_of_lt hb.length_le hl) (hh.infix hb) (fun _ => trivial) fun i _ _ =>
        agr_ret (decStorageKey_returns i)) fun _ _ => agr_ok _
    · rw [if_pos h2, if_pos h2]; exact agr_err _

theorem agr_accessList (d : DecItem) (hl : d.payload.length < 2 ^ 64) (hh : HugeFree d.payload) :
    Agr True (decAccessList .debug d) (decAccessList .release d) := by
  unfold decAccessList
  split
  · exact agr_err _
  · exact agr_decVec d hl hh (fun _ => trivial) fun i h1 h2 => agr_accessListItem i h1 h2

/-! ## Transactions -/

theorem agr_decode {f g : Dec α} (data : List UInt8) (hl : data.length < 2 ^ 64) (hh : HugeFree data)
    (h : ∀ d : DecItem, d.payload.length < 2 ^ 64 → HugeFree d.payload → Agr L (f d) (g d)) :
    Agr L (decode .debug f data) (decode .release g data) := by
  unfold decode DecItem.newFromData
  refine agr_bind (agr_bind (agr_data data hl hh) fun x _ => agr_ok _) fun d hd => ?_
  obtain ⟨⟨t, p⟩, h1, h2⟩ := out_bind_eq_ok.mp hd
  cases h2
  have hp : p <:+: data := by
    simp only [decodeData] at h1
    obtain ⟨⟨t', hl', n⟩, hd', hk⟩ := out_bind_eq_ok.mp h1
    obtain ⟨total, ht, hk⟩ := out_bind_eq_ok.mp hk
    split at hk
    · cases hk
    · obtain ⟨payload, hp, hk⟩ := out_bind_eq_ok.mp hk
      cases hk
      unfold sliceFrom at hp
      split at hp
      · cases hp
        exact (List.drop_suffix _ _).isInfix
      · cases hp
  exact h ⟨t, p⟩ (Nat.lt_of_le_of_lt hp.length_le hl) (hh.infix hp)

theorem agr_set {x : Out RlpErr α} (f : α → β) (h : x.Returns) : Agr L (x >>= fun a => pure (f a)) (x >>= fun a => pure (f a)) :=
  agr_bind (agr_ret h) fun _ _ => agr_ok _

theorem agr_legacy (d : DecItem) (hl : d.payload.length < 2 ^ 64) (hh : HugeFree d.payload) :
    Agr False (decTransactionLegacy .debug w d) (decTransactionLegacy .release w d) := by
  unfold decTransactionLegacy
  split
  · exact agr_err _
  refine agr_bind (agr_items d hl hh) fun ds hds => ?_
  by_cases h9 : ds.length = 9
  swap
  · rw [if_pos h9]; exact agr_err _
  obtain ⟨as, rfl⟩ := decodeAsItems_map hds
  obtain ⟨a1, a2, a3, a4, a5, a6, a7, a8, a9, rfl⟩ := seq_nine (by simpa using h9)
  simp only [List.map_cons, List.map_nil, List.length_cons, List.length_nil, ne_eq, Nat.reduceAdd, not_true_eq_false, if_false, nextItem, bind_ok]
  refine agr_bind (agr_set _ (decNonce_returns _)) fun _ _ => ?_
  refine agr_bind (agr_set _ (decBig_returns _)) fun _ _ => ?_
  refine agr_bind (agr_set _ (decU64_returns _)) fun _ _ => ?_
  refine agr_bind (agr_set _ (decAddress_returns _)) fun _ _ => ?_
  refine agr_bind (agr_set _ (decBig_returns _)) fun _ _ => ?_
  refine agr_bind (agr_set _ (decVecU8_returns _)) fun _ _ => ?_
  refine agr_bind (agr_ret (built_returns (buildLegacy_returns _))) fun _ _ => ?_
  refine agr_bind (agr_ret (decU64_returns _)) fun _ _ => ?_
  refine agr_bind (agr_ret (u8FromU64_returns _)) fun _ _ => ?_
  refine agr_bind (agr_ret (decBig_returns _)) fun _ _ => ?_
  refine agr_bind (agr_ret (decBig_returns _)) fun _ _ => ?_
  exact agr_ok _

theorem agr_eip2930 (d : DecItem) (hl : d.payload.length < 2 ^ 64) (hh : HugeFree d.payload) :
    Agr True (decTransactionEip2930 .debug w d) (decTransactionEip2930 .release w d) := by
  unfold decTransactionEip2930
  split
  · exact agr_err _
  refine agr_bind (agr_items d hl hh) fun ds hds => ?_
  by_cases h9 : ds.length = 11
  swap
  · rw [if_pos h9, if_pos h9]; exact agr_err _
  have hin := items_infix hds
  obtain ⟨as, rfl⟩ := decodeAsItems_map hds
  obtain ⟨a0, a1, a2, a3, a4, a5, a6, al, a7, a8, a9, rfl⟩ := seq_eleven (by simpa using h9)
  have hin := hin ⟨al.1, al.2⟩ (by simp)
  simp only [List.map_cons, List.map_nil, List.length_cons, List.length_nil, ne_eq, Nat.reduceAdd, not_true_eq_false, if_false, nextItem, bind_ok]
  refine agr_bind (agr_set _ (decBig_returns _)) fun _ _ => ?_
  refine agr_bind (agr_set _ (decNonce_returns _)) fun _ _ => ?_
  refine agr_bind (agr_set _ (decBig_returns _)) fun _ _ => ?_
  refine agr_bind (agr_set _ (decU64_returns _)) fun _ _ => ?_
  refine agr_bind (agr_set _ (decAddress_returns _)) fun _ _ => ?_
  refine agr_bind (agr_set _ (decBig_returns _)) fun _ _ => ?_
  refine agr_bind (agr_set _ (decVecU8_returns _)) fun _ _ => ?_
  refine agr_bind (agr_bind (agr_accessList _ (Nat.lt_of_le_of_lt hin.length_le hl) (hh.infix hin)) fun _ _ => agr_ok _) fun _ _ => ?_
  refine agr_bind (agr_ret (built_returns (buildEip2930_returns _))) fun _ _ => ?_
  refine agr_bind (agr_ret (decU64_returns _)) fun _ _ => ?_
  refine agr_bind (agr_ret (u8FromU64_returns _)) fun _ _ => ?_
  refine agr_bind (agr_ret (yParityFromU8_returns _)) fun _ _ => ?_
  refine agr_bind (agr_ret (decBig_returns _)) fun _ _ => ?_
  refine agr_bind (agr_ret (decBig_returns _)) fun _ _ => ?_
  exact agr_ok _

theorem agr_eip1559 (d : DecItem) (hl : d.payload.length < 2 ^ 64) (hh : HugeFree d.payload) :
    Agr True (decTransactionEip1559 .debug w d) (decTransactionEip1559 .release w d) := by
  unfold decTransactionEip1559
  split
  · exact agr_err _
  refine agr_bind (agr_items d hl hh) fun ds hds => ?_
  by_cases h9 : ds.length = 12
  swap
  · rw [if_pos h9, if_pos h9]; exact agr_err _
  have hin := items_infix hds
  obtain ⟨as, rfl⟩ := decodeAsItems_map hds
  obtain ⟨a0, a1, af, a2, a3, a4, a5, a6, al, a7, a8, a9, rfl⟩ := seq_twelve (by simpa using h9)
  have hin := hin ⟨al.1, al.2⟩ (by simp)
  simp only [List.map_cons, List.map_nil, List.length_cons, List.length_nil, ne_eq, Nat.reduceAdd, not_true_eq_false, if_false, nextItem, bind_ok]
  refine agr_bind (agr_set _ (decBig_returns _)) fun _ _ => ?_
  refine agr_bind (agr_set _ (decNonce_returns _)) fun _ _ => ?_
  refine agr_bind (agr_set _ (decBig_returns _)) fun _ _ => ?_
  refine agr_bind (agr_set _ (decBig_returns _)) fun _ _ => ?_
  refine agr_bind (agr_set _ (decU64_returns _)) fun _ _ => ?_
  refine agr_bind (agr_set _ (decAddress_returns _)) fun _ _ => ?_
  refine agr_bind (agr_set _ (decBig_returns _)) fun _ _ => ?_
  refine agr_bind (agr_set _ (decVecU8_returns _)) fun _ _ => ?_
  refine agr_bind (agr_bind (agr_accessList _ (Nat.lt_of_le_of_lt hin.length_le hl) (hh.infix hin)) fun _ _ => agr_ok _) fun _ _ => ?_
  refine agr_bind (agr_ret (built_returns (buildEip1559_returns _))) fun _ _ => ?_
  refine agr_bind (agr_ret (decU64_returns _)) fun _ _ => ?_
  refine agr_bind (agr_ret (u8FromU64_returns _)) fun _ _ => ?_
  refine agr_bind (agr_ret (yParityFromU8_returns _)) fun _ _ => ?_
  refine agr_bind (agr_ret (decBig_returns _)) fun _ _ => ?_
  refine agr_bind (agr_ret (decBig_returns _)) fun _ _ => ?_
  exact agr_ok _

theorem eip155_returns (m : Build) (d : DecItem) (hh : HugeFree d.payload) : (decTransactionEip155 m w d).Returns := by
  unfold decTransactionEip155
  split
  · exact .err _
  refine Returns.bind (decodeAsItems_returns m d hh) fun ds hds => ?_
  by_cases h9 : ds.length = 9
  swap
  · rw [if_pos h9]; exact .err _
  obtain ⟨as, rfl⟩ := decodeAsItems_map hds
  obtain ⟨a1, a2, a3, a4, a5, a6, a7, a8, a9, rfl⟩ := seq_nine (by simpa using h9)
  simp only [List.map_cons, List.map_nil, List.length_cons, List.length_nil, ne_eq, Nat.reduceAdd, not_true_eq_false, if_false, nextItem, bind_ok]
  refine Returns.bind (decNonce_returns _) fun _ _ => ?_
  refine Returns.bind (decBig_returns _) fun _ _ => ?_
  refine Returns.bind (decU64_returns _) fun _ _ => ?_
  refine Returns.bind (decAddress_returns _) fun _ _ => ?_
  refine Returns.bind (decBig_returns _) fun _ _ => ?_
  refine Returns.bind (decVecU8_returns _) fun _ _ => ?_
  refine Returns.bind (decBig_returns _) fun v hv => ?_
  refine Returns.bind (decBig_returns _) fun _ _ => ?_
  refine Returns.bind (decBig_returns _) fun _ _ => ?_
  obtain ⟨n, -, hn, -⟩ := decBig_ok hv
  by_cases h35 : 35 ≤ n
  · obtain ⟨n35, c, c', q1, q2, q3, q4, -⟩ := eip155_chain m hn h35
    simp only [q1, q2, q3, q4, bind_ok, Bool.false_eq_true, if_false]
    exact Returns.bind (built_returns (buildEip155_returns _)) fun _ _ => .ok _
  · obtain ⟨n35, q1, q2⟩ := eip155_small m hn (by omega)
    simp only [q1, q2, bind_ok, if_true]
    exact .err _

theorem decode_returns_huge {f : Dec α} (m : Build) (data : List UInt8) (hh : HugeFree data)
    (h : ∀ d : DecItem, HugeFree d.payload → (f d).Returns) : (decode m f data).Returns := by
  unfold decode DecItem.newFromData
  refine Returns.bind (Returns.bind (decodeData_returns m data (hh data (List.suffix_refl _))) fun x _ => .ok _) fun d hd => ?_
  obtain ⟨⟨t, p⟩, h1, h2⟩ := out_bind_eq_ok.mp hd
  cases h2
  refine h ⟨t, p⟩ (hh.infix ?_)
  simp only [decodeData] at h1
  obtain ⟨⟨t', hl', n⟩, hd', hk⟩ := out_bind_eq_ok.mp h1
  obtain ⟨total, ht, hk⟩ := out_bind_eq_ok.mp hk
  split at hk
  · cases hk
  · obtain ⟨payload, hp, hk⟩ := out_bind_eq_ok.mp hk
    cases hk
    unfold sliceFrom at hp
    split at hp
    · cases hp
      exact (List.drop_suffix _ _).isInfix
    · cases hp

/-! ## Termination -/

def NH (x : Out RlpErr α) : Prop := x ≠ .hang

theorem nh_bind {x : Out RlpErr α} {f : α → Out RlpErr β} (h : NH x) (hf : ∀ a, x = .ok a → NH (f a)) : NH (x >>= f) := by
  cases x with
  | ok a => exact hf a rfl
  | err e => exact fun h => by cases h
  | panic => exact fun h => by cases h
  | hang => exact absurd rfl h

theorem nh_ret {x : Out RlpErr α} (h : x.Returns) : NH x := (returns_iff.mp h).2

theorem nh_decodeData (m : Build) (data : List UInt8) : NH (decodeData m data) := by
  by_cases hh : DeclaresHugeLength data
  · rw [decodeData_huge m data hh]
    cases m <;> exact fun h => by cases h
  · exact nh_ret (decodeData_returns m data hh)

theorem nh_items (m : Build) (d : DecItem) : NH (d.decodeAsItems m) := by
  unfold DecItem.decodeAsItems
  split
  · exact nh_ret (.err _)
  · exact nh_bind (decodeListLoop_ne_hang m _ _ (by omega)) fun _ _ => nh_ret (.ok _)

theorem nh_decAll {f : Dec α} (h : ∀ d, NH (f d)) (ds : List DecItem) : NH (decAll f ds) := by
  induction ds with
  | nil => exact nh_ret (.ok _)
  | cons d ds ih => exact nh_bind (h d) fun _ _ => nh_bind ih fun _ _ => nh_ret (.ok _)

theorem nh_decVec (m : Build) {f : Dec α} (h : ∀ d, NH (f d)) (d : DecItem) : NH (decVec m f d) := by
  refine nh_bind ?_ fun _ _ => nh_bind (nh_items m d) fun ds _ => nh_decAll h ds
  unfold dassert NH
  split
  · unfold rassert; split <;> simp
  · simp

theorem nh_accessList (m : Build) (d : DecItem) : NH (decAccessList m d) := by
  unfold decAccessList
  split
  · exact nh_ret (.err _)
  · refine nh_decVec m (fun d => ?_) d
    unfold decAccessListItem
    split
    · exact nh_ret (.err _)
    · refine nh_bind (nh_items m d) fun ds hds => ?_
      by_cases h2 : ds.length = 2
      · match ds, h2 with
        | [a, b], _ =>
        simp only [List.length_cons, List.length_nil, Nat.reduceAdd, ne_eq, not_true_eq_false, if_false, nextItem, bind_ok]
        refine nh_bind (nh_ret (decAddress_returns a)) fun _ _ => ?_
        exact nh_bind (nh_decVec m (fun i => nh_ret (decStorageKey_returns i)) b) fun _ _ => nh_ret (.ok _)
      · rw [if_pos h2]; exact nh_ret (.err _)

theorem nh_set {x : Out RlpErr α} (f : α → β) (h : x.Returns) : NH (x >>= fun a => pure (f a)) :=
  nh_bind (nh_ret h) fun _ _ => nh_ret (.ok _)

theorem nh_decode {f : Dec α} (m : Build) (data : List UInt8) (h : ∀ d : DecItem, NH (f d)) : NH (decode m f data) :=
  nh_bind (nh_bind (nh_decodeData m data) fun _ _ => nh_ret (.ok _)) fun d _ => h d

theorem nh_legacy (m : Build) (d : DecItem) : NH (decTransactionLegacy m w d) := by
  unfold decTransactionLegacy
  split
  · exact nh_ret (.err _)
  refine nh_bind (nh_items m d) fun ds hds => ?_
  by_cases h9 : ds.length = 9
  swap
  · rw [if_pos h9]; exact nh_ret (.err _)
  obtain ⟨as, rfl⟩ := decodeAsItems_map hds
  obtain ⟨a1, a2, a3, a4, a5, a6, a7, a8, a9, rfl⟩ := seq_nine (by simpa using h9)
  simp only [List.map_cons, List.map_nil, List.length_cons, List.length_nil, ne_eq, Nat.reduceAdd, not_true_eq_false, if_false, nextItem, bind_ok]
  refine nh_bind (nh_set _ (decNonce_returns _)) fun _ _ => ?_
  refine nh_bind (nh_set _ (decBig_returns _)) fun _ _ => ?_
  refine nh_bind (nh_set _ (decU64_returns _)) fun _ _ => ?_
  refine nh_bind (nh_set _ (decAddress_returns _)) fun _ _ => ?_
  refine nh_bind (nh_set _ (decBig_returns _)) fun _ _ => ?_
  refine nh_bind (nh_set _ (decVecU8_returns _)) fun _ _ => ?_
  refine nh_bind (nh_ret (built_returns (buildLegacy_returns _))) fun _ _ => ?_
  refine nh_bind (nh_ret (decU64_returns _)) fun _ _ => ?_
  refine nh_bind (nh_ret (u8FromU64_returns _)) fun _ _ => ?_
  refine nh_bind (nh_ret (decBig_returns _)) fun _ _ => ?_
  refine nh_bind (nh_ret (decBig_returns _)) fun _ _ => ?_
  exact nh_ret (.ok _)

theorem nh_eip2930 (m : Build) (d : DecItem) : NH (decTransactionEip2930 m w d) := by
  unfold decTransactionEip2930
  split
  · exact nh_ret (.err _)
  refine nh_bind (nh_items m d) fun ds hds => ?_
  by_cases h9 : ds.length = 11
  swap
  · rw [if_pos h9]; exact nh_ret (.err _)
  obtain ⟨as, rfl⟩ := decodeAsItems_map hds
  obtain ⟨a0, a1, a2, a3, a4, a5, a6, al, a7, a8, a9, rfl⟩ := seq_eleven (by simpa using h9)
  simp only [List.map_cons, List.map_nil, List.length_cons, List.length_nil, ne_eq, Nat.reduceAdd, not_true_eq_false, if_false, nextItem, bind_ok]
  refine nh_bind (nh_set _ (decBig_returns _)) fun _ _ => ?_
  refine nh_bind (nh_set _ (decNonce_returns _)) fun _ _ => ?_
  refine nh_bind (nh_set _ (decBig_returns _)) fun _ _ => ?_
  refine nh_bind (nh_set _ (decU64_returns _)) fun _ _ => ?_
  refine nh_bind (nh_set _ (decAddress_returns _)) fun _ _ => ?_
  refine nh_bind (nh_set _ (decBig_returns _)) fun _ _ => ?_
  refine nh_bind (nh_set _ (decVecU8_returns _)) fun _ _ => ?_
  refine nh_bind (nh_bind (nh_accessList m _) fun _ _ => nh_ret (.ok _)) fun _ _ => ?_
  refine nh_bind (nh_ret (built_returns (buildEip2930_returns _))) fun _ _ => ?_
  refine nh_bind (nh_ret (decU64_returns _)) fun _ _ => ?_
  refine nh_bind (nh_ret (u8FromU64_returns _)) fun _ _ => ?_
  refine nh_bind (nh_ret (yParityFromU8_returns _)) fun _ _ => ?_
  refine nh_bind (nh_ret (decBig_returns _)) fun _ _ => ?_
  refine nh_bind (nh_ret (decBig_returns _)) fun _ _ => ?_
  exact nh_ret (.ok _)

theorem nh_eip1559 (m : Build) (d : DecItem) : NH (decTransactionEip1559 m w d) := by
  unfold decTransactionEip1559
  split
  · exact nh_ret (.err _)
  refine nh_bind (nh_items m d) fun ds hds => ?_
  by_cases h9 : ds.length = 12
  swap
  · rw [if_pos h9]; exact nh_ret (.err _)
  obtain ⟨as, rfl⟩ := decodeAsItems_map hds
  obtain ⟨a0, a1, af, a2, a3, a4, a5, a6, al, a7, a8, a9, rfl⟩ := seq_twelve (by simpa using h9)
  simp only [List.map_cons, List.map_nil, List.length_cons, List.length_nil, ne_eq, Nat.reduceAdd, not_true_eq_false, if_false, nextItem, bind_ok]
  refine nh_bind (nh_set _ (decBig_returns _)) fun _ _ => ?_
  refine nh_bind (nh_set _ (decNonce_returns _)) fun _ _ => ?_
  refine nh_bind (nh_set _ (decBig_returns _)) fun _ _ => ?_
  refine nh_bind (nh_set _ (decBig_returns _)) fun _ _ => ?_
  refine nh_bind (nh_set _ (decU64_returns _)) fun _ _ => ?_
  refine nh_bind (nh_set _ (decAddress_returns _)) fun _ _ => ?_
  refine nh_bind (nh_set _ (decBig_returns _)) fun _ _ => ?_
  refine nh_bind (nh_set _ (decVecU8_returns _)) fun _ _ => ?_
  refine nh_bind (nh_bind (nh_accessList m _) fun _ _ => nh_ret (.ok _)) fun _ _ => ?_
  refine nh_bind (nh_ret (built_returns (buildEip1559_returns _))) fun _ _ => ?_
  refine nh_bind (nh_ret (decU64_returns _)) fun _ _ => ?_
  refine nh_bind (nh_ret (u8FromU64_returns _)) fun _ _ => ?_
  refine nh_bind (nh_ret (yParityFromU8_returns _)) fun _ _ => ?_
  refine nh_bind (nh_ret (decBig_returns _)) fun _ _ => ?_
  refine nh_bind (nh_ret (decBig_returns _)) fun _ _ => ?_
  exact nh_ret (.ok _)

theorem nh_eip155 (m : Build) (d : DecItem) : NH (decTransactionEip155 m w d) := by
  unfold decTransactionEip155
  split
  · exact nh_ret (.err _)
  refine nh_bind (nh_items m d) fun ds hds => ?_
  by_cases h9 : ds.length = 9
  swap
  · rw [if_pos h9]; exact nh_ret (.err _)
  obtain ⟨as, rfl⟩ := decodeAsItems_map hds
  obtain ⟨a1, a2, a3, a4, a5, a6, a7, a8, a9, rfl⟩ := seq_nine (by simpa using h9)
  simp only [List.map_cons, List.map_nil, List.length_cons, List.length_nil, ne_eq, Nat.reduceAdd, not_true_eq_false, if_false, nextItem, bind_ok]
  refine nh_bind (nh_ret (decNonce_returns _)) fun _ _ => ?_
  refine nh_bind (nh_ret (decBig_returns _)) fun _ _ => ?_
  refine nh_bind (nh_ret (decU64_returns _)) fun _ _ => ?_
  refine nh_bind (nh_ret (decAddress_returns _)) fun _ _ => ?_
  refine nh_bind (nh_ret (decBig_returns _)) fun _ _ => ?_
  refine nh_bind (nh_ret (decVecU8_returns _)) fun _ _ => ?_
  refine nh_bind (nh_ret (decBig_returns _)) fun v hv => ?_
  refine nh_bind (nh_ret (decBig_returns _)) fun _ _ => ?_
  refine nh_bind (nh_ret (decBig_returns _)) fun _ _ => ?_
  obtain ⟨n, -, hn, -⟩ := decBig_ok hv
  by_cases h35 : 35 ≤ n
  · obtain ⟨n35, c, c', q1, q2, q3, q4, -⟩ := eip155_chain m hn h35
    simp only [q1, q2, q3, q4, bind_ok, Bool.false_eq_true, if_false]
    exact nh_bind (nh_ret (built_returns (buildEip155_returns _))) fun _ _ => nh_ret (.ok _)
  · obtain ⟨n35, q1, q2⟩ := eip155_small m hn (by omega)
    simp only [q1, q2, bind_ok, if_true]
    exact nh_ret (.err _)


end LCT.Ethereum
