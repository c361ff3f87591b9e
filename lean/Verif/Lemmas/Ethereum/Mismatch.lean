import Verif.Lemmas.Ethereum.Accept

/-!
# Only the EIP-155 decoder reports a type mismatch
-/

namespace LCT.Ethereum
open LCT LCT.BigInt LCT.Rlp LCT.Spec LCT.Spec.Eth LCT.Out
variable {w : Nat} [DigitWidth w]

theorem nm_ok {α : Type} (a : α) : NoMismatch (.ok a : Out RlpErr α) := nofun
theorem nm_invalid {α : Type} : NoMismatch (.err .InvalidFormat : Out RlpErr α) := nofun

theorem nextItem_nm (l : List DecItem) : NoMismatch (nextItem l) := by
  cases l <;> exact nofun

theorem items_nm (m : Build) (d : DecItem) : NoMismatch (d.decodeAsItems m) := by
  unfold DecItem.decodeAsItems
  split
  · exact nofun
  · exact nm_bind (decodeListLoop_nm m _ _) fun _ => nm_ok _

theorem decAll_nm {α : Type} {f : Dec α} (h : ∀ d, NoMismatch (f d)) (ds : List DecItem) : NoMismatch (decAll f ds) := by
  induction ds with
  | nil => exact nm_ok _
  | cons d ds ih => exact nm_bind (h d) fun _ => nm_bind ih fun _ => nm_ok _

theorem decVec_nm (m : Build) {α : Type} {f : Dec α} (h : ∀ d, NoMismatch (f d)) (d : DecItem) : NoMismatch (decVec m f d) := by
  refine nm_bind ?_ fun _ => nm_bind (items_nm m d) fun ds => decAll_nm h ds
  unfold dassert rassert NoMismatch
  split
  · split <;> simp
  · simp

theorem decStorageKey_nm (d : DecItem) : NoMismatch (decStorageKey d) := by
  refine nm_bind ?_ fun _ => ?_
  · unfold DecItem.decodeAsBytes
    split <;> exact nofun
  · split <;> exact nofun

theorem decAccessList_nm (m : Build) (d : DecItem) : NoMismatch (decAccessList m d) := by
  unfold decAccessList
  split
  · exact nofun
  · refine decVec_nm m (fun d => ?_) d
    unfold decAccessListItem
    split
    · exact nofun
    · refine nm_bind (items_nm m d) fun ds => ?_
      split
      · exact nofun
      · exact nm_bind (nextItem_nm _) fun ⟨_, _⟩ => nm_bind (decAddress_nm _) fun _ => nm_bind (nextItem_nm _) fun ⟨_, _⟩ =>
          nm_bind (decVec_nm m decStorageKey_nm _) fun _ => nm_ok _

theorem built_nm {α : Type} {x : Out RlpErr (Except BuildingError α × Builder)} (h : NoMismatch x) : NoMismatch (built x) := by
  refine nm_bind h fun ⟨r, _⟩ => ?_
  cases r <;> exact nofun

theorem unwrap_nm {α : Type} (x : Option α) : NoMismatch (unwrap x) := by
  cases x <;> exact nofun

theorem u8FromU64_nm (n : UInt64) : NoMismatch (u8FromU64 n) := by
  unfold u8FromU64
  split <;> exact nofun

theorem yParityFromU8_nm (n : UInt8) : NoMismatch (yParityFromU8 n) := by
  unfold yParityFromU8
  split <;> exact nofun

theorem buildLegacy_nm (b : Builder) : NoMismatch (b.takeAndBuildLegacy) := by
  unfold Builder.takeAndBuildLegacy
  split
  · exact nofun
  · exact nm_bind (unwrap_nm _) fun _ => nm_bind (unwrap_nm _) fun _ => nm_bind (unwrap_nm _) fun _ => nm_bind (unwrap_nm _) fun _ =>
      nm_bind (unwrap_nm _) fun _ => nm_ok _

theorem buildEip2930_nm (b : Builder) : NoMismatch (b.takeAndBuildEip2930) := by
  unfold Builder.takeAndBuildEip2930
  split
  · exact nofun
  · exact nm_bind (unwrap_nm _) fun _ => nm_bind (unwrap_nm _) fun _ => nm_bind (unwrap_nm _) fun _ => nm_bind (unwrap_nm _) fun _ =>
      nm_bind (unwrap_nm _) fun _ => nm_bind (unwrap_nm _) fun _ => nm_ok _

theorem buildEip1559_nm (b : Builder) : NoMismatch (b.takeAndBuildEip1559) := by
  unfold Builder.takeAndBuildEip1559
  split
  · exact nofun
  · exact nm_bind (unwrap_nm _) fun _ => nm_bind (unwrap_nm _) fun _ => nm_bind (unwrap_nm _) fun _ => nm_bind (unwrap_nm _) fun _ =>
      nm_bind (unwrap_nm _) fun _ => nm_bind (unwrap_nm _) fun _ => nm_bind (unwrap_nm _) fun _ => nm_ok _

/-- One field given to the builder. -/
theorem set_nm {α β : Type} {x : Out RlpErr α} (f : α → β) (h : NoMismatch x) : NoMismatch (x >>= fun a => pure (f a)) :=
  nm_bind h fun _ => nm_ok _

theorem legacy_nm (m : Build) (d : DecItem) : NoMismatch (decTransactionLegacy m w d) := by
  unfold decTransactionLegacy
  split
  · exact nofun
  refine nm_bind (items_nm m d) fun ds => ?_
  split
  · exact nofun
  exact nm_bind (nextItem_nm _) fun ⟨_, _⟩ => nm_bind (set_nm _ (decNonce_nm _)) fun _ =>
    nm_bind (nextItem_nm _) fun ⟨_, _⟩ => nm_bind (set_nm _ (decBig_nm _)) fun _ =>
    nm_bind (nextItem_nm _) fun ⟨_, _⟩ => nm_bind (set_nm _ (decU64_nm _)) fun _ =>
    nm_bind (nextItem_nm _) fun ⟨_, _⟩ => nm_bind (set_nm _ (decAddress_nm _)) fun _ =>
    nm_bind (nextItem_nm _) fun ⟨_, _⟩ => nm_bind (set_nm _ (decBig_nm _)) fun _ =>
    nm_bind (nextItem_nm _) fun ⟨_, _⟩ => nm_bind (set_nm _ (decVecU8_nm _)) fun _ =>
    nm_bind (built_nm (buildLegacy_nm _)) fun _ =>
    nm_bind (nextItem_nm _) fun ⟨_, _⟩ => nm_bind (decU64_nm _) fun _ => nm_bind (u8FromU64_nm _) fun _ =>
    nm_bind (nextItem_nm _) fun ⟨_, _⟩ => nm_bind (decBig_nm _) fun _ =>
    nm_bind (nextItem_nm _) fun ⟨_, _⟩ => nm_bind (decBig_nm _) fun _ => nm_ok _

theorem eip2930_nm (m : Build) (d : DecItem) : NoMismatch (decTransactionEip2930 m w d) := by
  unfold decTransactionEip2930
  split
  · exact nofun
  refine nm_bind (items_nm m d) fun ds => ?_
  split
  · exact nofun
  exact nm_bind (nextItem_nm _) fun ⟨_, _⟩ => nm_bind (set_nm _ (decBig_nm _)) fun _ =>
    nm_bind (nextItem_nm _) fun ⟨_, _⟩ => nm_bind (set_nm _ (decNonce_nm _)) fun _ =>
    nm_bind (nextItem_nm _) fun ⟨_, _⟩ => nm_bind (set_nm _ (decBig_nm _)) fun _ =>
    nm_bind (nextItem_nm _) fun ⟨_, _⟩ => nm_bind (set_nm _ (decU64_nm _)) fun _ =>
    nm_bind (nextItem_nm _) fun ⟨_, _⟩ => nm_bind (set_nm _ (decAddress_nm _)) fun _ =>
    nm_bind (nextItem_nm _) fun ⟨_, _⟩ => nm_bind (set_nm _ (decBig_nm _)) fun _ =>
    nm_bind (nextItem_nm _) fun ⟨_, _⟩ => nm_bind (set_nm _ (decVecU8_nm _)) fun _ =>
    nm_bind (nextItem_nm _) fun ⟨_, _⟩ => nm_bind (set_nm _ (decAccessList_nm m _)) fun _ =>
    nm_bind (built_nm (buildEip2930_nm _)) fun _ =>
    nm_bind (nextItem_nm _) fun ⟨_, _⟩ => nm_bind (decU64_nm _) fun _ => nm_bind (u8FromU64_nm _) fun _ => nm_bind (yParityFromU8_nm _) fun _ =>
    nm_bind (nextItem_nm _) fun ⟨_, _⟩ => nm_bind (decBig_nm _) fun _ =>
    nm_bind (nextItem_nm _) fun ⟨_, _⟩ => nm_bind (decBig_nm _) fun _ => nm_ok _

theorem eip1559_nm (m : Build) (d : DecItem) : NoMismatch (decTransactionEip1559 m w d) := by
  unfold decTransactionEip1559
  split
  · exact nofun
  refine nm_bind (items_nm m d) fun ds => ?_
  split
  · exact nofun
  exact nm_bind (nextItem_nm _) fun ⟨_, _⟩ => nm_bind (set_nm _ (decBig_nm _)) fun _ =>
    nm_bind (nextItem_nm _) fun ⟨_, _⟩ => nm_bind (set_nm _ (decNonce_nm _)) fun _ =>
    nm_bind (nextItem_nm _) fun ⟨_, _⟩ => nm_bind (set_nm _ (decBig_nm _)) fun _ =>
    nm_bind (nextItem_nm _) fun ⟨_, _⟩ => nm_bind (set_nm _ (decBig_nm _)) fun _ =>
    nm_bind (nextItem_nm _) fun ⟨_, _⟩ => nm_bind (set_nm _ (decU64_nm _)) fun _ =>
    nm_bind (nextItem_nm _) fun ⟨_, _⟩ => nm_bind (set_nm _ (decAddress_nm _)) fun _ =>
    nm_bind (nextItem_nm _) fun ⟨_, _⟩ => nm_bind (set_nm _ (decBig_nm _)) fun _ =>
    nm_bind (nextItem_nm _) fun ⟨_, _⟩ => nm_bind (set_nm _ (decVecU8_nm _)) fun _ =>
    nm_bind (nextItem_nm _) fun ⟨_, _⟩ => nm_bind (set_nm _ (decAccessList_nm m _)) fun _ =>
    nm_bind (built_nm (buildEip1559_nm _)) fun _ =>
    nm_bind (nextItem_nm _) fun ⟨_, _⟩ => nm_bind (decU64_nm _) fun _ => nm_bind (u8FromU64_nm _) fun _ => nm_bind (yParityFromU8_nm _) fun _ =>
    nm_bind (nextItem_nm _) fun ⟨_, _⟩ => nm_bind (decBig_nm _) fun _ =>
    nm_bind (nextItem_nm _) fun ⟨_, _⟩ => nm_bind (decBig_nm _) fun _ => nm_ok _

theorem decode_nm {α : Type} (m : Build) {f : Dec α} (h : ∀ d, NoMismatch (f d)) (data : List UInt8) : NoMismatch (decode m f data) :=
  nm_bind (nm_bind (decodeData_nm m data) fun _ => nm_ok _) fun d => h d

end LCT.Ethereum
