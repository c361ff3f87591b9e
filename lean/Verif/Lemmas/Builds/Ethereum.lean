import Verif.Lemmas.Builds.Crypto
import Verif.Lemmas.Builds.Rlp
import Verif.Model.Ethereum.Transaction
import Verif.Model.Ethereum.Display
import Verif.Model.Ethereum.Account

/-!
# Ethereum types, transactions and accounts in debug and release builds
-/

namespace LCT.Mono
open Lean.Order (monotone)

@[partial_fixpoint_monotone] theorem Ethereum.eip55ChecksumEncode :
    ∀ (b : Build → Build), monotone b → ∀ ε lowerHex, monotone fun m => @LCT.Ethereum.eip55ChecksumEncode ε (b m) lowerHex := by
  intro b hb ε lowerHex
  refine pass (F := fun m => @LCT.Ethereum.eip55ChecksumEncode ε m lowerHex) ?_ hb
  unfold LCT.Ethereum.eip55ChecksumEncode
  mono

@[partial_fixpoint_monotone] theorem Ethereum.Address.toChecksummedHex :
    ∀ (b : Build → Build), monotone b → ∀ ε a, monotone fun m => @LCT.Ethereum.Address.toChecksummedHex ε (b m) a := by
  intro b hb ε a
  refine pass (F := fun m => @LCT.Ethereum.Address.toChecksummedHex ε m a) ?_ hb
  unfold LCT.Ethereum.Address.toChecksummedHex
  mono

@[partial_fixpoint_monotone] theorem Ethereum.Address.display :
    ∀ (b : Build → Build), monotone b → ∀ ε a, monotone fun m => @LCT.Ethereum.Address.display ε (b m) a := by
  intro b hb ε a
  refine pass (F := fun m => @LCT.Ethereum.Address.display ε m a) ?_ hb
  unfold LCT.Ethereum.Address.display
  mono

@[partial_fixpoint_monotone] theorem Ethereum.Wei.fromDecimal :
    ∀ (b : Build → Build), monotone b → ∀ w s, monotone fun m => @LCT.Ethereum.Wei.fromDecimal (b m) w s := by
  intro b hb w s
  refine pass (F := fun m => @LCT.Ethereum.Wei.fromDecimal m w s) ?_ hb
  unfold LCT.Ethereum.Wei.fromDecimal
  mono

@[partial_fixpoint_monotone] theorem Ethereum.Wei.tryFromStr :
    ∀ (b : Build → Build), monotone b → ∀ w s, monotone fun m => @LCT.Ethereum.Wei.tryFromStr (b m) w s := by
  intro b hb w s
  refine pass (F := fun m => @LCT.Ethereum.Wei.tryFromStr m w s) ?_ hb
  unfold LCT.Ethereum.Wei.tryFromStr
  mono

@[partial_fixpoint_monotone] theorem Ethereum.Wei.display :
    ∀ (b : Build → Build), monotone b → ∀ ε w x, monotone fun m => @LCT.Ethereum.Wei.display ε (b m) w x := by
  intro b hb ε w x
  refine pass (F := fun m => @LCT.Ethereum.Wei.display ε m w x) ?_ hb
  unfold LCT.Ethereum.Wei.display
  mono

@[partial_fixpoint_monotone] theorem Ethereum.encBig :
    ∀ (b : Build → Build), monotone b → ∀ ε w x e, monotone fun m => @LCT.Ethereum.encBig ε (b m) w x e := by
  intro b hb ε w x e
  refine pass (F := fun m => @LCT.Ethereum.encBig ε m w x e) ?_ hb
  unfold LCT.Ethereum.encBig
  mono

@[partial_fixpoint_monotone] theorem Ethereum.decAccessListItem_apply :
    ∀ (b : Build → Build), monotone b → ∀ d, monotone fun m => LCT.Ethereum.decAccessListItem (b m) d := by
  intro b hb d
  refine pass (F := fun m => LCT.Ethereum.decAccessListItem m d) ?_ hb
  unfold LCT.Ethereum.decAccessListItem
  mono

@[partial_fixpoint_monotone] theorem Ethereum.decAccessListItem :
    ∀ (b : Build → Build), monotone b → monotone fun m => LCT.Ethereum.decAccessListItem (b m) := by
  intro b hb
  exact Lean.Order.monotone_of_monotone_apply _ fun d => Ethereum.decAccessListItem_apply b hb d

@[partial_fixpoint_monotone] theorem Ethereum.decAccessList_apply :
    ∀ (b : Build → Build), monotone b → ∀ d, monotone fun m => LCT.Ethereum.decAccessList (b m) d := by
  intro b hb d
  refine pass (F := fun m => LCT.Ethereum.decAccessList m d) ?_ hb
  unfold LCT.Ethereum.decAccessList
  mono

@[partial_fixpoint_monotone] theorem Ethereum.decAccessList :
    ∀ (b : Build → Build), monotone b → monotone fun m => LCT.Ethereum.decAccessList (b m) := by
  intro b hb
  exact Lean.Order.monotone_of_monotone_apply _ fun d => Ethereum.decAccessList_apply b hb d

@[partial_fixpoint_monotone] theorem Ethereum.encodeM :
    ∀ ε α (enc : Build → α → LCT.Rlp.EncItem → Out ε LCT.Rlp.EncItem), (∀ v e, monotone fun m => enc m v e) → ∀ v,
      monotone fun m => LCT.Ethereum.encodeM (enc m) v := by
  intro ε α enc h v
  unfold LCT.Ethereum.encodeM
  mono using h

@[partial_fixpoint_monotone] theorem Ethereum.signDefault :
    ∀ (b : Build → Build), monotone b → ∀ w fuel nonceFuel rand hash key o, monotone fun m => @LCT.Ethereum.signDefault (b m) w fuel nonceFuel rand hash key o := by
  intro b hb w fuel nonceFuel rand hash key o
  refine pass (F := fun m => @LCT.Ethereum.signDefault m w fuel nonceFuel rand hash key o) ?_ hb
  unfold LCT.Ethereum.signDefault
  mono

@[partial_fixpoint_monotone] theorem Ethereum.PayloadLegacy.encodeTo :
    ∀ (b : Build → Build), monotone b → ∀ ε w p e, monotone fun m => @LCT.Ethereum.PayloadLegacy.encodeTo ε (b m) w p e := by
  intro b hb ε w p e
  refine pass (F := fun m => @LCT.Ethereum.PayloadLegacy.encodeTo ε m w p e) ?_ hb
  unfold LCT.Ethereum.PayloadLegacy.encodeTo
  mono

@[partial_fixpoint_monotone] theorem Ethereum.PayloadEip155.encodeTo :
    ∀ (b : Build → Build), monotone b → ∀ ε w p e, monotone fun m => @LCT.Ethereum.PayloadEip155.encodeTo ε (b m) w p e := by
  intro b hb ε w p e
  refine pass (F := fun m => @LCT.Ethereum.PayloadEip155.encodeTo ε m w p e) ?_ hb
  unfold LCT.Ethereum.PayloadEip155.encodeTo
  mono

@[partial_fixpoint_monotone] theorem Ethereum.PayloadEip2930.encodeTo :
    ∀ (b : Build → Build), monotone b → ∀ ε w p e, monotone fun m => @LCT.Ethereum.PayloadEip2930.encodeTo ε (b m) w p e := by
  intro b hb ε w p e
  refine pass (F := fun m => @LCT.Ethereum.PayloadEip2930.encodeTo ε m w p e) ?_ hb
  unfold LCT.Ethereum.PayloadEip2930.encodeTo
  mono

@[partial_fixpoint_monotone] theorem Ethereum.PayloadEip1559.encodeTo :
    ∀ (b : Build → Build), monotone b → ∀ ε w p e, monotone fun m => @LCT.Ethereum.PayloadEip1559.encodeTo ε (b m) w p e := by
  intro b hb ε w p e
  refine pass (F := fun m => @LCT.Ethereum.PayloadEip1559.encodeTo ε m w p e) ?_ hb
  unfold LCT.Ethereum.PayloadEip1559.encodeTo
  mono

@[partial_fixpoint_monotone] theorem Ethereum.keccak :
    ∀ (b : Build → Build), monotone b → ∀ ε message, monotone fun m => @LCT.Ethereum.keccak ε (b m) message := by
  intro b hb ε message
  refine pass (F := fun m => @LCT.Ethereum.keccak ε m message) ?_ hb
  unfold LCT.Ethereum.keccak
  mono

@[partial_fixpoint_monotone] theorem Ethereum.PayloadLegacy.sign :
    ∀ (b : Build → Build), monotone b → ∀ w fuel nonceFuel rand key o p, monotone fun m => @LCT.Ethereum.PayloadLegacy.sign (b m) w fuel nonceFuel rand key o p := by
  intro b hb w fuel nonceFuel rand key o p
  refine pass (F := fun m => @LCT.Ethereum.PayloadLegacy.sign m w fuel nonceFuel rand key o p) ?_ hb
  unfold LCT.Ethereum.PayloadLegacy.sign
  mono

@[partial_fixpoint_monotone] theorem Ethereum.PayloadEip155.sign :
    ∀ (b : Build → Build), monotone b → ∀ w fuel nonceFuel rand key o p, monotone fun m => @LCT.Ethereum.PayloadEip155.sign (b m) w fuel nonceFuel rand key o p := by
  intro b hb w fuel nonceFuel rand key o p
  refine pass (F := fun m => @LCT.Ethereum.PayloadEip155.sign m w fuel nonceFuel rand key o p) ?_ hb
  unfold LCT.Ethereum.PayloadEip155.sign
  mono

@[partial_fixpoint_monotone] theorem Ethereum.PayloadEip2930.sign :
    ∀ (b : Build → Build), monotone b → ∀ w fuel nonceFuel rand key o p, monotone fun m => @LCT.Ethereum.PayloadEip2930.sign (b m) w fuel nonceFuel rand key o p := by
  intro b hb w fuel nonceFuel rand key o p
  refine pass (F := fun m => @LCT.Ethereum.PayloadEip2930.sign m w fuel nonceFuel rand key o p) ?_ hb
  unfold LCT.Ethereum.PayloadEip2930.sign
  mono

@[partial_fixpoint_monotone] theorem Ethereum.PayloadEip1559.sign :
    ∀ (b : Build → Build), monotone b → ∀ w fuel nonceFuel rand key o p, monotone fun m => @LCT.Ethereum.PayloadEip1559.sign (b m) w fuel nonceFuel rand key o p := by
  intro b hb w fuel nonceFuel rand key o p
  refine pass (F := fun m => @LCT.Ethereum.PayloadEip1559.sign m w fuel nonceFuel rand key o p) ?_ hb
  unfold LCT.Ethereum.PayloadEip1559.sign
  mono

@[partial_fixpoint_monotone] theorem Ethereum.TransactionLegacy.encodeTo :
    ∀ (b : Build → Build), monotone b → ∀ ε w t e, monotone fun m => @LCT.Ethereum.TransactionLegacy.encodeTo ε (b m) w t e := by
  intro b hb ε w t e
  refine pass (F := fun m => @LCT.Ethereum.TransactionLegacy.encodeTo ε m w t e) ?_ hb
  unfold LCT.Ethereum.TransactionLegacy.encodeTo
  mono

@[partial_fixpoint_monotone] theorem Ethereum.TransactionEip155.encodeTo :
    ∀ (b : Build → Build), monotone b → ∀ ε w t e, monotone fun m => @LCT.Ethereum.TransactionEip155.encodeTo ε (b m) w t e := by
  intro b hb ε w t e
  refine pass (F := fun m => @LCT.Ethereum.TransactionEip155.encodeTo ε m w t e) ?_ hb
  unfold LCT.Ethereum.TransactionEip155.encodeTo
  mono

@[partial_fixpoint_monotone] theorem Ethereum.TransactionEip2930.encodeTo :
    ∀ (b : Build → Build), monotone b → ∀ ε w t e, monotone fun m => @LCT.Ethereum.TransactionEip2930.encodeTo ε (b m) w t e := by
  intro b hb ε w t e
  refine pass (F := fun m => @LCT.Ethereum.TransactionEip2930.encodeTo ε m w t e) ?_ hb
  unfold LCT.Ethereum.TransactionEip2930.encodeTo
  mono

@[partial_fixpoint_monotone] theorem Ethereum.TransactionEip1559.encodeTo :
    ∀ (b : Build → Build), monotone b → ∀ ε w t e, monotone fun m => @LCT.Ethereum.TransactionEip1559.encodeTo ε (b m) w t e := by
  intro b hb ε w t e
  refine pass (F := fun m => @LCT.Ethereum.TransactionEip1559.encodeTo ε m w t e) ?_ hb
  unfold LCT.Ethereum.TransactionEip1559.encodeTo
  mono

@[partial_fixpoint_monotone] theorem Ethereum.TransactionLegacy.encode :
    ∀ (b : Build → Build), monotone b → ∀ ε w t, monotone fun m => @LCT.Ethereum.TransactionLegacy.encode ε (b m) w t := by
  intro b hb ε w t
  refine pass (F := fun m => @LCT.Ethereum.TransactionLegacy.encode ε m w t) ?_ hb
  unfold LCT.Ethereum.TransactionLegacy.encode
  mono

@[partial_fixpoint_monotone] theorem Ethereum.TransactionEip155.encode :
    ∀ (b : Build → Build), monotone b → ∀ ε w t, monotone fun m => @LCT.Ethereum.TransactionEip155.encode ε (b m) w t := by
  intro b hb ε w t
  refine pass (F := fun m => @LCT.Ethereum.TransactionEip155.encode ε m w t) ?_ hb
  unfold LCT.Ethereum.TransactionEip155.encode
  mono

@[partial_fixpoint_monotone] theorem Ethereum.TransactionEip2930.encode :
    ∀ (b : Build → Build), monotone b → ∀ ε w t, monotone fun m => @LCT.Ethereum.TransactionEip2930.encode ε (b m) w t := by
  intro b hb ε w t
  refine pass (F := fun m => @LCT.Ethereum.TransactionEip2930.encode ε m w t) ?_ hb
  unfold LCT.Ethereum.TransactionEip2930.encode
  mono

@[partial_fixpoint_monotone] theorem Ethereum.TransactionEip1559.encode :
    ∀ (b : Build → Build), monotone b → ∀ ε w t, monotone fun m => @LCT.Ethereum.TransactionEip1559.encode ε (b m) w t := by
  intro b hb ε w t
  refine pass (F := fun m => @LCT.Ethereum.TransactionEip1559.encode ε m w t) ?_ hb
  unfold LCT.Ethereum.TransactionEip1559.encode
  mono

@[partial_fixpoint_monotone] theorem Ethereum.decTransactionLegacy_apply :
    ∀ (b : Build → Build), monotone b → ∀ w d, monotone fun m => LCT.Ethereum.decTransactionLegacy (b m) w d := by
  intro b hb w d
  refine pass (F := fun m => LCT.Ethereum.decTransactionLegacy m w d) ?_ hb
  unfold LCT.Ethereum.decTransactionLegacy
  mono

@[partial_fixpoint_monotone] theorem Ethereum.decTransactionLegacy :
    ∀ (b : Build → Build), monotone b → ∀ w, monotone fun m => LCT.Ethereum.decTransactionLegacy (b m) w := by
  intro b hb w
  exact Lean.Order.monotone_of_monotone_apply _ fun d => Ethereum.decTransactionLegacy_apply b hb w d

@[partial_fixpoint_monotone] theorem Ethereum.decTransactionEip155_apply :
    ∀ (b : Build → Build), monotone b → ∀ w d, monotone fun m => LCT.Ethereum.decTransactionEip155 (b m) w d := by
  intro b hb w d
  refine pass (F := fun m => LCT.Ethereum.decTransactionEip155 m w d) ?_ hb
  unfold LCT.Ethereum.decTransactionEip155
  mono

@[partial_fixpoint_monotone] theorem Ethereum.decTransactionEip155 :
    ∀ (b : Build → Build), monotone b → ∀ w, monotone fun m => LCT.Ethereum.decTransactionEip155 (b m) w := by
  intro b hb w
  exact Lean.Order.monotone_of_monotone_apply _ fun d => Ethereum.decTransactionEip155_apply b hb w d

@[partial_fixpoint_monotone] theorem Ethereum.decTransactionEip2930_apply :
    ∀ (b : Build → Build), monotone b → ∀ w d, monotone fun m => LCT.Ethereum.decTransactionEip2930 (b m) w d := by
  intro b hb w d
  refine pass (F := fun m => LCT.Ethereum.decTransactionEip2930 m w d) ?_ hb
  unfold LCT.Ethereum.decTransactionEip2930
  mono

@[partial_fixpoint_monotone] theorem Ethereum.decTransactionEip2930 :
    ∀ (b : Build → Build), monotone b → ∀ w, monotone fun m => LCT.Ethereum.decTransactionEip2930 (b m) w := by
  intro b hb w
  exact Lean.Order.monotone_of_monotone_apply _ fun d => Ethereum.decTransactionEip2930_apply b hb w d

@[partial_fixpoint_monotone] theorem Ethereum.decTransactionEip1559_apply :
    ∀ (b : Build → Build), monotone b → ∀ w d, monotone fun m => LCT.Ethereum.decTransactionEip1559 (b m) w d := by
  intro b hb w d
  refine pass (F := fun m => LCT.Ethereum.decTransactionEip1559 m w d) ?_ hb
  unfold LCT.Ethereum.decTransactionEip1559
  mono

@[partial_fixpoint_monotone] theorem Ethereum.decTransactionEip1559 :
    ∀ (b : Build → Build), monotone b → ∀ w, monotone fun m => LCT.Ethereum.decTransactionEip1559 (b m) w := by
  intro b hb w
  exact Lean.Order.monotone_of_monotone_apply _ fun d => Ethereum.decTransactionEip1559_apply b hb w d

@[partial_fixpoint_monotone] theorem Ethereum.AccessListItem.display :
    ∀ (b : Build → Build), monotone b → ∀ ε it, monotone fun m => @LCT.Ethereum.AccessListItem.display ε (b m) it := by
  intro b hb ε it
  refine pass (F := fun m => @LCT.Ethereum.AccessListItem.display ε m it) ?_ hb
  unfold LCT.Ethereum.AccessListItem.display
  mono

@[partial_fixpoint_monotone] theorem Ethereum.displayItems :
    ∀ (b : Build → Build), monotone b → ∀ ε x1 x2, monotone fun m => @LCT.Ethereum.displayItems ε (b m) x1 x2 := by
  intro b hb ε x1 x2
  refine pass (F := fun m => @LCT.Ethereum.displayItems ε m x1 x2) ?_ hb
  induction x1 generalizing x2 with
  | nil =>
    unfold LCT.Ethereum.displayItems
    mono
  | cons _ _ ih =>
    unfold LCT.Ethereum.displayItems
    mono using ih

@[partial_fixpoint_monotone] theorem Ethereum.AccessList.display :
    ∀ (b : Build → Build), monotone b → ∀ ε l, monotone fun m => @LCT.Ethereum.AccessList.display ε (b m) l := by
  intro b hb ε l
  refine pass (F := fun m => @LCT.Ethereum.AccessList.display ε m l) ?_ hb
  unfold LCT.Ethereum.AccessList.display
  mono

@[partial_fixpoint_monotone] theorem Ethereum.displayUint :
    ∀ (b : Build → Build), monotone b → ∀ ε w n, monotone fun m => @LCT.Ethereum.displayUint ε (b m) w n := by
  intro b hb ε w n
  refine pass (F := fun m => @LCT.Ethereum.displayUint ε m w n) ?_ hb
  unfold LCT.Ethereum.displayUint
  mono

@[partial_fixpoint_monotone] theorem Ethereum.PayloadLegacy.display :
    ∀ (b : Build → Build), monotone b → ∀ ε w p, monotone fun m => @LCT.Ethereum.PayloadLegacy.display ε (b m) w p := by
  intro b hb ε w p
  refine pass (F := fun m => @LCT.Ethereum.PayloadLegacy.display ε m w p) ?_ hb
  unfold LCT.Ethereum.PayloadLegacy.display
  mono

@[partial_fixpoint_monotone] theorem Ethereum.PayloadEip155.display :
    ∀ (b : Build → Build), monotone b → ∀ ε w p, monotone fun m => @LCT.Ethereum.PayloadEip155.display ε (b m) w p := by
  intro b hb ε w p
  refine pass (F := fun m => @LCT.Ethereum.PayloadEip155.display ε m w p) ?_ hb
  unfold LCT.Ethereum.PayloadEip155.display
  mono

@[partial_fixpoint_monotone] theorem Ethereum.PayloadEip2930.display :
    ∀ (b : Build → Build), monotone b → ∀ ε w p, monotone fun m => @LCT.Ethereum.PayloadEip2930.display ε (b m) w p := by
  intro b hb ε w p
  refine pass (F := fun m => @LCT.Ethereum.PayloadEip2930.display ε m w p) ?_ hb
  unfold LCT.Ethereum.PayloadEip2930.display
  mono

@[partial_fixpoint_monotone] theorem Ethereum.PayloadEip1559.display :
    ∀ (b : Build → Build), monotone b → ∀ ε w p, monotone fun m => @LCT.Ethereum.PayloadEip1559.display ε (b m) w p := by
  intro b hb ε w p
  refine pass (F := fun m => @LCT.Ethereum.PayloadEip1559.display ε m w p) ?_ hb
  unfold LCT.Ethereum.PayloadEip1559.display
  mono

@[partial_fixpoint_monotone] theorem Ethereum.TransactionLegacy.display :
    ∀ (b : Build → Build), monotone b → ∀ ε w t, monotone fun m => @LCT.Ethereum.TransactionLegacy.display ε (b m) w t := by
  intro b hb ε w t
  refine pass (F := fun m => @LCT.Ethereum.TransactionLegacy.display ε m w t) ?_ hb
  unfold LCT.Ethereum.TransactionLegacy.display
  mono

@[partial_fixpoint_monotone] theorem Ethereum.TransactionEip155.display :
    ∀ (b : Build → Build), monotone b → ∀ ε w t, monotone fun m => @LCT.Ethereum.TransactionEip155.display ε (b m) w t := by
  intro b hb ε w t
  refine pass (F := fun m => @LCT.Ethereum.TransactionEip155.display ε m w t) ?_ hb
  unfold LCT.Ethereum.TransactionEip155.display
  mono

@[partial_fixpoint_monotone] theorem Ethereum.TransactionEip2930.display :
    ∀ (b : Build → Build), monotone b → ∀ ε w t, monotone fun m => @LCT.Ethereum.TransactionEip2930.display ε (b m) w t := by
  intro b hb ε w t
  refine pass (F := fun m => @LCT.Ethereum.TransactionEip2930.display ε m w t) ?_ hb
  unfold LCT.Ethereum.TransactionEip2930.display
  mono

@[partial_fixpoint_monotone] theorem Ethereum.TransactionEip1559.display :
    ∀ (b : Build → Build), monotone b → ∀ ε w t, monotone fun m => @LCT.Ethereum.TransactionEip1559.display ε (b m) w t := by
  intro b hb ε w t
  refine pass (F := fun m => @LCT.Ethereum.TransactionEip1559.display ε m w t) ?_ hb
  unfold LCT.Ethereum.TransactionEip1559.display
  mono

@[partial_fixpoint_monotone] theorem Ethereum.EoaPrivateKey.new :
    ∀ (b : Build → Build), monotone b → ∀ ε w data x1, monotone fun m => @LCT.Ethereum.EoaPrivateKey.new ε (b m) w data x1 := by
  intro b hb ε w data x1
  refine pass (F := fun m => @LCT.Ethereum.EoaPrivateKey.new ε m w data x1) ?_ hb
  unfold LCT.Ethereum.EoaPrivateKey.new
  mono

@[partial_fixpoint_monotone] theorem Ethereum.EoaPrivateKey.publicKey :
    ∀ (b : Build → Build), monotone b → ∀ ε w k, monotone fun m => @LCT.Ethereum.EoaPrivateKey.publicKey ε (b m) w k := by
  intro b hb ε w k
  refine pass (F := fun m => @LCT.Ethereum.EoaPrivateKey.publicKey ε m w k) ?_ hb
  unfold LCT.Ethereum.EoaPrivateKey.publicKey
  mono

@[partial_fixpoint_monotone] theorem Ethereum.EoaPublicKey.address :
    ∀ (b : Build → Build), monotone b → ∀ ε w k, monotone fun m => @LCT.Ethereum.EoaPublicKey.address ε (b m) w k := by
  intro b hb ε w k
  refine pass (F := fun m => @LCT.Ethereum.EoaPublicKey.address ε m w k) ?_ hb
  unfold LCT.Ethereum.EoaPublicKey.address
  mono

end LCT.Mono
