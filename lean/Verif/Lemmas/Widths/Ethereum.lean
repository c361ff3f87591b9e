import Verif.Lemmas.Widths.Crypto
import Verif.Model.Ethereum.Account
import Verif.Model.Ethereum.Display

/-!
# Agreement of builds with different digit widths: accounts and transactions
-/

namespace LCT.Widths
open LCT.BigInt LCT.Spec LCT.Out LCT.Crypto LCT.Hash LCT.Random LCT.Ethereum LCT.Rlp
variable {ε : Type} (m : Build) (w w' : Nat) [hw : DigitWidth w] [hw' : DigitWidth w']
variable {x x' : BInt}

theorem bind_bind {α β γ : Type} (x : Out ε α) (f : α → Out ε β) (g : β → Out ε γ) : (x >>= f) >>= g = x >>= fun a => f a >>= g := by
  cases x <;> rfl

theorem pure_bind' {α β : Type} (a : α) (f : α → Out ε β) : (pure a : Out ε α) >>= f = f a := rfl

/-! ## Accounts -/

theorem eoaNew (data : List UInt8) (len : data.length = 32) :
    Agree (AgreeOpt (SamePrivate w w')) (EoaPrivateKey.new m w data len : Out ε _) (EoaPrivateKey.new m w' data len) := by
  unfold EoaPrivateKey.new
  agree

theorem address {pk pk' : PublicKey} (hk : SamePublic w w' pk pk') :
    Agree Eq (EoaPublicKey.address m w pk : Out ε _) (EoaPublicKey.address m w' pk') := by
  unfold EoaPublicKey.address
  agree

/-! ## Numbers -/

theorem weiDisplay (hx : SameInt w w' x x') : Agree Eq (Wei.display m w x : Out ε _) (Wei.display m w' x') := by
  unfold Wei.display
  agree

theorem displayUint (hx : SameInt w w' x x') : Agree Eq (Ethereum.displayUint m w x : Out ε _) (Ethereum.displayUint m w' x') :=
  display m w w' hx

theorem encBig (hx : SameInt w w' x x') (e : EncItem) : Agree Eq (Ethereum.encBig m w x e : Out ε _) (Ethereum.encBig m w' x' e) := by
  unfold Ethereum.encBig
  agree

theorem decBig (d : DecItem) : Agree (SameInt w w') (Ethereum.decBig w d) (Ethereum.decBig w' d) := by
  unfold Ethereum.decBig
  agree

macro_rules | `(tactic| agree_call) => `(tactic| (with_reducible apply LCT.Widths.weiDisplay; agree_arg))
macro_rules | `(tactic| agree_call) => `(tactic| (with_reducible apply LCT.Widths.displayUint; agree_arg))
macro_rules | `(tactic| agree_call) => `(tactic| (with_reducible apply LCT.Widths.encBig; agree_arg))
macro_rules | `(tactic| agree_call) => `(tactic| (with_reducible apply LCT.Widths.decBig))
macro_rules | `(tactic| agree_arg_ext) => `(tactic| (with_reducible apply LCT.Spec.SamePayloadLegacy.gasPrice; agree_arg))
macro_rules | `(tactic| agree_arg_ext) => `(tactic| (with_reducible apply LCT.Spec.SamePayloadLegacy.amount; agree_arg))
macro_rules | `(tactic| agree_arg_ext) => `(tactic| (with_reducible apply LCT.Spec.SamePayloadEip155.chainId; agree_arg))
macro_rules | `(tactic| agree_arg_ext) => `(tactic| (with_reducible apply LCT.Spec.SamePayloadEip155.gasPrice; agree_arg))
macro_rules | `(tactic| agree_arg_ext) => `(tactic| (with_reducible apply LCT.Spec.SamePayloadEip155.amount; agree_arg))
macro_rules | `(tactic| agree_arg_ext) => `(tactic| (with_reducible apply LCT.Spec.SamePayloadEip2930.chainId; agree_arg))
macro_rules | `(tactic| agree_arg_ext) => `(tactic| (with_reducible apply LCT.Spec.SamePayloadEip2930.gasPrice; agree_arg))
macro_rules | `(tactic| agree_arg_ext) => `(tactic| (with_reducible apply LCT.Spec.SamePayloadEip2930.amount; agree_arg))
macro_rules | `(tactic| agree_arg_ext) => `(tactic| (with_reducible apply LCT.Spec.SamePayloadEip1559.chainId; agree_arg))
macro_rules | `(tactic| agree_arg_ext) => `(tactic| (with_reducible apply LCT.Spec.SamePayloadEip1559.maxPriorityFeePerGas; agree_arg))
macro_rules | `(tactic| agree_arg_ext) => `(tactic| (with_reducible apply LCT.Spec.SamePayloadEip1559.maxFeePerGas; agree_arg))
macro_rules | `(tactic| agree_arg_ext) => `(tactic| (with_reducible apply LCT.Spec.SamePayloadEip1559.amount; agree_arg))
macro_rules | `(tactic| agree_arg_ext) => `(tactic| (with_reducible apply LCT.Spec.SameLegacy.payload; agree_arg))
macro_rules | `(tactic| agree_arg_ext) => `(tactic| (with_reducible apply LCT.Spec.SameLegacy.r; agree_arg))
macro_rules | `(tactic| agree_arg_ext) => `(tactic| (with_reducible apply LCT.Spec.SameLegacy.s; agree_arg))
macro_rules | `(tactic| agree_arg_ext) => `(tactic| (with_reducible apply LCT.Spec.SameEip155.payload; agree_arg))
macro_rules | `(tactic| agree_arg_ext) => `(tactic| (with_reducible apply LCT.Spec.SameEip155.v; agree_arg))
macro_rules | `(tactic| agree_arg_ext) => `(tactic| (with_reducible apply LCT.Spec.SameEip155.r; agree_arg))
macro_rules | `(tactic| agree_arg_ext) => `(tactic| (with_reducible apply LCT.Spec.SameEip155.s; agree_arg))
macro_rules | `(tactic| agree_arg_ext) => `(tactic| (with_reducible apply LCT.Spec.SameEip2930.payload; agree_arg))
macro_rules | `(tactic| agree_arg_ext) => `(tactic| (with_reducible apply LCT.Spec.SameEip2930.r; agree_arg))
macro_rules | `(tactic| agree_arg_ext) => `(tactic| (with_reducible apply LCT.Spec.SameEip2930.s; agree_arg))
macro_rules | `(tactic| agree_arg_ext) => `(tactic| (with_reducible apply LCT.Spec.SameEip1559.payload; agree_arg))
macro_rules | `(tactic| agree_arg_ext) => `(tactic| (with_reducible apply LCT.Spec.SameEip1559.r; agree_arg))
macro_rules | `(tactic| agree_arg_ext) => `(tactic| (with_reducible apply LCT.Spec.SameEip1559.s; agree_arg))

omit hw hw' in
theorem fromBigint (hx : SameInt w w' x x') (h : 0 < toInt w x) :
    AgreeOpt (SameInt w w') (BUint.fromBigint x) (BUint.fromBigint x') := by
  have key (v : Nat) (y : BInt) (h : 0 < toInt v y) : BUint.fromBigint y = some y := by
    unfold BUint.fromBigint
    rw [if_neg]
    unfold BInt.isSignNegative
    rw [toInt_eq] at h
    cases hs : y.sign with
    | negative => rw [hs] at h; dsimp only at h; omega
    | positive => simp
  have h' : 0 < toInt w' x' := by
    obtain ⟨a, hx, hx'⟩ := hx
    rw [hx'.2, ← hx.2]; exact h
  rw [key w x h, key w' x' h']
  exact .some hx

/-! ## Builders -/

theorem isNone {α β : Type} {R : α → β → Prop} {o : Option α} {o' : Option β} (h : AgreeOpt R o o') : o.isNone = o'.isNone := by
  cases h <;> rfl

omit hw hw' in
theorem takeAndBuildLegacy {b b' : Builder} (hb : SameBuilder w w' b b') :
    Agree (fun z z' => AgreeRes (SamePayloadLegacy w w') z.1 z'.1 ∧ SameBuilder w w' z.2 z'.2) (b.takeAndBuildLegacy : Out ε _)
      b'.takeAndBuildLegacy := by
  unfold Builder.takeAndBuildLegacy
  rw [hb.nonce, isNone hb.gasPrice, hb.gasLimit, hb.destination, isNone hb.amount]
  refine .ite (fun _ => .pure ⟨.error _, hb⟩) fun _ => ?_
  refine (Agree.of_eq rfl).bind fun nonce nonce' h_nonce => ?_
  subst h_nonce
  refine (Agree.unwrap hb.gasPrice).bind fun gasPrice gasPrice' h_gasPrice => ?_
  refine (Agree.of_eq rfl).bind fun gasLimit gasLimit' h_gasLimit => ?_
  subst h_gasLimit
  refine (Agree.of_eq rfl).bind fun destination destination' h_destination => ?_
  subst h_destination
  refine (Agree.unwrap hb.amount).bind fun amount amount' h_amount => ?_
  refine .pure ⟨.ok ⟨rfl, h_gasPrice, rfl, rfl, h_amount, congrArg (·.getD []) hb.data⟩, ?_⟩
  exact ⟨hb.chainId, rfl, .none, hb.maxPriorityFeePerGas, hb.maxFeePerGas, rfl, rfl, .none, rfl, hb.accessList⟩

omit hw hw' in
theorem takeAndBuildEip155 {b b' : Builder} (hb : SameBuilder w w' b b') :
    Agree (fun z z' => AgreeRes (SamePayloadEip155 w w') z.1 z'.1 ∧ SameBuilder w w' z.2 z'.2) (b.takeAndBuildEip155 : Out ε _)
      b'.takeAndBuildEip155 := by
  unfold Builder.takeAndBuildEip155
  rw [isNone hb.chainId, hb.nonce, isNone hb.gasPrice, hb.gasLimit, hb.destination, isNone hb.amount]
  refine .ite (fun _ => .pure ⟨.error _, hb⟩) fun _ => ?_
  refine (Agree.unwrap hb.chainId).bind fun chainId chainId' h_chainId => ?_
  refine (Agree.of_eq rfl).bind fun nonce nonce' h_nonce => ?_
  subst h_nonce
  refine (Agree.unwrap hb.gasPrice).bind fun gasPrice gasPrice' h_gasPrice => ?_
  refine (Agree.of_eq rfl).bind fun gasLimit gasLimit' h_gasLimit => ?_
  subst h_gasLimit
  refine (Agree.of_eq rfl).bind fun destination destination' h_destination => ?_
  subst h_destination
  refine (Agree.unwrap hb.amount).bind fun amount amount' h_amount => ?_
  refine .pure ⟨.ok ⟨h_chainId, rfl, h_gasPrice, rfl, rfl, h_amount, congrArg (·.getD []) hb.data⟩, ?_⟩
  exact ⟨.none, rfl, .none, hb.maxPriorityFeePerGas, hb.maxFeePerGas, rfl, rfl, .none, rfl, hb.accessList⟩

omit hw hw' in
theorem takeAndBuildEip2930 {b b' : Builder} (hb : SameBuilder w w' b b') :
    Agree (fun z z' => AgreeRes (SamePayloadEip2930 w w') z.1 z'.1 ∧ SameBuilder w w' z.2 z'.2) (b.takeAndBuildEip2930 : Out ε _)
      b'.takeAndBuildEip2930 := by
  unfold Builder.takeAndBuildEip2930
  rw [isNone hb.chainId, hb.nonce, isNone hb.gasPrice, hb.gasLimit, hb.destination, isNone hb.amount]
  refine .ite (fun _ => .pure ⟨.error _, hb⟩) fun _ => ?_
  refine (Agree.unwrap hb.chainId).bind fun chainId chainId' h_chainId => ?_
  refine (Agree.of_eq rfl).bind fun nonce nonce' h_nonce => ?_
  subst h_nonce
  refine (Agree.unwrap hb.gasPrice).bind fun gasPrice gasPrice' h_gasPrice => ?_
  refine (Agree.of_eq rfl).bind fun gasLimit gasLimit' h_gasLimit => ?_
  subst h_gasLimit
  refine (Agree.of_eq rfl).bind fun destination destination' h_destination => ?_
  subst h_destination
  refine (Agree.unwrap hb.amount).bind fun amount amount' h_amount => ?_
  refine .pure ⟨.ok ⟨h_chainId, rfl, h_gasPrice, rfl, rfl, h_amount, congrArg (·.getD []) hb.data, congrArg (·.getD []) hb.accessList⟩, ?_⟩
  exact ⟨.none, rfl, .none, hb.maxPriorityFeePerGas, hb.maxFeePerGas, rfl, rfl, .none, rfl, rfl⟩

omit hw hw' in
theorem takeAndBuildEip1559 {b b' : Builder} (hb : SameBuilder w w' b b') :
    Agree (fun z z' => AgreeRes (SamePayloadEip1559 w w') z.1 z'.1 ∧ SameBuilder w w' z.2 z'.2) (b.takeAndBuildEip1559 : Out ε _)
      b'.takeAndBuildEip1559 := by
  unfold Builder.takeAndBuildEip1559
  rw [isNone hb.chainId, hb.nonce, isNone hb.maxPriorityFeePerGas, isNone hb.maxFeePerGas, hb.gasLimit, hb.destination, isNone hb.amount]
  refine .ite (fun _ => .pure ⟨.error _, hb⟩) fun _ => ?_
  refine (Agree.unwrap hb.chainId).bind fun chainId chainId' h_chainId => ?_
  refine (Agree.of_eq rfl).bind fun nonce nonce' h_nonce => ?_
  subst h_nonce
  refine (Agree.unwrap hb.maxPriorityFeePerGas).bind fun maxPriorityFeePerGas maxPriorityFeePerGas' h_maxPriorityFeePerGas => ?_
  refine (Agree.unwrap hb.maxFeePerGas).bind fun maxFeePerGas maxFeePerGas' h_maxFeePerGas => ?_
  refine (Agree.of_eq rfl).bind fun gasLimit gasLimit' h_gasLimit => ?_
  subst h_gasLimit
  refine (Agree.of_eq rfl).bind fun destination destination' h_destination => ?_
  subst h_destination
  refine (Agree.unwrap hb.amount).bind fun amount amount' h_amount => ?_
  refine .pure ⟨.ok ⟨h_chainId, rfl, h_maxPriorityFeePerGas, h_maxFeePerGas, rfl, rfl, h_amount, congrArg (·.getD []) hb.data, congrArg (·.getD []) hb.accessList⟩, ?_⟩
  exact ⟨.none, rfl, hb.gasPrice, .none, .none, rfl, rfl, .none, rfl, rfl⟩

/-! ## Payloads and transactions -/

theorem encodePayloadLegacy {p p' : PayloadLegacy} (hp : SamePayloadLegacy w w' p p') :
    Agree Eq (encodeM (PayloadLegacy.encodeTo m w) p : Out ε _) (encodeM (PayloadLegacy.encodeTo m w') p') := by
  unfold encodeM PayloadLegacy.encodeTo
  rw [hp.nonce, hp.gasLimit, hp.destination, hp.data]
  simp only [bind_bind]
  agree

theorem displayPayloadLegacy {p p' : PayloadLegacy} (hp : SamePayloadLegacy w w' p p') :
    Agree Eq (p.display m w : Out ε _) (p'.display m w') := by
  unfold PayloadLegacy.display
  rw [hp.nonce, hp.gasLimit, hp.destination, hp.data]
  agree

macro_rules | `(tactic| agree_call) => `(tactic| (with_reducible apply LCT.Widths.encodePayloadLegacy; agree_arg))
macro_rules | `(tactic| agree_call) => `(tactic| (with_reducible apply LCT.Widths.displayPayloadLegacy; agree_arg))

theorem encodePayloadEip155 {p p' : PayloadEip155} (hp : SamePayloadEip155 w w' p p') :
    Agree Eq (encodeM (PayloadEip155.encodeTo m w) p : Out ε _) (encodeM (PayloadEip155.encodeTo m w') p') := by
  unfold encodeM PayloadEip155.encodeTo
  rw [hp.nonce, hp.gasLimit, hp.destination, hp.data]
  simp only [bind_bind]
  agree

theorem displayPayloadEip155 {p p' : PayloadEip155} (hp : SamePayloadEip155 w w' p p') :
    Agree Eq (p.display m w : Out ε _) (p'.display m w') := by
  unfold PayloadEip155.display
  rw [hp.nonce, hp.gasLimit, hp.destination, hp.data]
  agree

macro_rules | `(tactic| agree_call) => `(tactic| (with_reducible apply LCT.Widths.encodePayloadEip155; agree_arg))
macro_rules | `(tactic| agree_call) => `(tactic| (with_reducible apply LCT.Widths.displayPayloadEip155; agree_arg))

theorem encodePayloadEip2930 {p p' : PayloadEip2930} (hp : SamePayloadEip2930 w w' p p') :
    Agree Eq (encodeM (PayloadEip2930.encodeTo m w) p : Out ε _) (encodeM (PayloadEip2930.encodeTo m w') p') := by
  unfold encodeM PayloadEip2930.encodeTo
  rw [hp.nonce, hp.gasLimit, hp.destination, hp.data, hp.accessList]
  simp only [bind_bind]
  agree

theorem displayPayloadEip2930 {p p' : PayloadEip2930} (hp : SamePayloadEip2930 w w' p p') :
    Agree Eq (p.display m w : Out ε _) (p'.display m w') := by
  unfold PayloadEip2930.display
  rw [hp.nonce, hp.gasLimit, hp.destination, hp.data, hp.accessList]
  agree

macro_rules | `(tactic| agree_call) => `(tactic| (with_reducible apply LCT.Widths.encodePayloadEip2930; agree_arg))
macro_rules | `(tactic| agree_call) => `(tactic| (with_reducible apply LCT.Widths.displayPayloadEip2930; agree_arg))

theorem encodePayloadEip1559 {p p' : PayloadEip1559} (hp : SamePayloadEip1559 w w' p p') :
    Agree Eq (encodeM (PayloadEip1559.encodeTo m w) p : Out ε _) (encodeM (PayloadEip1559.encodeTo m w') p') := by
  unfold encodeM PayloadEip1559.encodeTo
  rw [hp.nonce, hp.gasLimit, hp.destination, hp.data, hp.accessList]
  simp only [bind_bind]
  agree

theorem displayPayloadEip1559 {p p' : PayloadEip1559} (hp : SamePayloadEip1559 w w' p p') :
    Agree Eq (p.display m w : Out ε _) (p'.display m w') := by
  unfold PayloadEip1559.display
  rw [hp.nonce, hp.gasLimit, hp.destination, hp.data, hp.accessList]
  agree

macro_rules | `(tactic| agree_call) => `(tactic| (with_reducible apply LCT.Widths.encodePayloadEip1559; agree_arg))
macro_rules | `(tactic| agree_call) => `(tactic| (with_reducible apply LCT.Widths.displayPayloadEip1559; agree_arg))

section
variable (f nf : Nat) (rand : Nat → Out RandomError (List UInt8)) {sk sk' : PrivateKey} (o : SigningOptions)

theorem signLegacy (hk : SamePrivate w w' sk sk') {p p' : PayloadLegacy} (hp : SamePayloadLegacy w w' p p') :
    Agree (SameLegacy w w') (p.sign m w f nf rand sk o) (p'.sign m w' f nf rand sk' o) := by
  unfold PayloadLegacy.sign
  iterate 2 agree_step
  refine ((signWithOptions m w w' hk f nf _ rand _ o).mapErr _).bind ?_
  rintro ⟨s, id⟩ ⟨s', id'⟩ ⟨hs, rfl : id = id'⟩
  refine (Agree.unwrap (fromBigint w w' hs.same.r hs.r)).bind fun r r' hr => ?_
  refine (Agree.unwrap (fromBigint w w' hs.same.s hs.s)).bind fun s s' hs => ?_
  exact .pure ⟨hp, rfl, hr, hs⟩

theorem signEip155 (hk : SamePrivate w w' sk sk') {p p' : PayloadEip155} (hp : SamePayloadEip155 w w' p p') :
    Agree (SameEip155 w w') (p.sign m w f nf rand sk o) (p'.sign m w' f nf rand sk' o) := by
  unfold PayloadEip155.sign
  iterate 2 agree_step
  refine ((signWithOptions m w w' hk f nf _ rand _ o).mapErr _).bind ?_
  rintro ⟨s, id⟩ ⟨s', id'⟩ ⟨hs, rfl : id = id'⟩
  refine (Agree.unwrap (fromBigint w w' hs.same.r hs.r)).bind fun r r' hr => ?_
  refine (Agree.unwrap (fromBigint w w' hs.same.s hs.s)).bind fun s s' hs => ?_
  refine (buintOfNat w w' _).bind fun y y' hy => ?_
  refine (buintOfNat w w' _).bind fun t t' ht => ?_
  refine (mul m w w' hp.chainId ht).bind fun c c' hc => ?_
  refine (add m w w' hy hc).bind fun v v' hv => ?_
  refine (buintOfNat w w' _).bind fun t t' ht => ?_
  refine (add m w w' hv ht).bind fun v v' hv => ?_
  exact .pure ⟨hp, hv, hr, hs⟩

theorem signEip2930 (hk : SamePrivate w w' sk sk') {p p' : PayloadEip2930} (hp : SamePayloadEip2930 w w' p p') :
    Agree (SameEip2930 w w') (p.sign m w f nf rand sk o) (p'.sign m w' f nf rand sk' o) := by
  unfold PayloadEip2930.sign
  iterate 2 agree_step
  refine ((signWithOptions m w w' hk f nf _ rand _ o).mapErr _).bind ?_
  rintro ⟨s, id⟩ ⟨s', id'⟩ ⟨hs, rfl : id = id'⟩
  refine (Agree.unwrap (fromBigint w w' hs.same.r hs.r)).bind fun r r' hr => ?_
  refine (Agree.unwrap (fromBigint w w' hs.same.s hs.s)).bind fun s s' hs => ?_
  exact .pure ⟨hp, rfl, hr, hs⟩

theorem signEip1559 (hk : SamePrivate w w' sk sk') {p p' : PayloadEip1559} (hp : SamePayloadEip1559 w w' p p') :
    Agree (SameEip1559 w w') (p.sign m w f nf rand sk o) (p'.sign m w' f nf rand sk' o) := by
  unfold PayloadEip1559.sign
  iterate 2 agree_step
  refine ((signWithOptions m w w' hk f nf _ rand _ o).mapErr _).bind ?_
  rintro ⟨s, id⟩ ⟨s', id'⟩ ⟨hs, rfl : id = id'⟩
  refine (Agree.unwrap (fromBigint w w' hs.same.r hs.r)).bind fun r r' hr => ?_
  refine (Agree.unwrap (fromBigint w w' hs.same.s hs.s)).bind fun s s' hs => ?_
  exact .pure ⟨hp, rfl, hr, hs⟩

end

theorem encodeLegacy {t t' : TransactionLegacy} (ht : SameLegacy w w' t t') : Agree Eq (t.encode m w : Out ε _) (t'.encode m w') := by
  unfold TransactionLegacy.encode encodeM TransactionLegacy.encodeTo
  rw [ht.payload.nonce, ht.payload.gasLimit, ht.payload.destination, ht.payload.data, ht.v]
  simp only [bind_bind]
  agree

theorem displayLegacy {t t' : TransactionLegacy} (ht : SameLegacy w w' t t') : Agree Eq (t.display m w : Out ε _) (t'.display m w') := by
  unfold TransactionLegacy.display
  rw [ht.v]
  agree

theorem encodeEip155 {t t' : TransactionEip155} (ht : SameEip155 w w' t t') : Agree Eq (t.encode m w : Out ε _) (t'.encode m w') := by
  unfold TransactionEip155.encode encodeM TransactionEip155.encodeTo
  rw [ht.payload.nonce, ht.payload.gasLimit, ht.payload.destination, ht.payload.data]
  simp only [bind_bind]
  agree

theorem displayEip155 {t t' : TransactionEip155} (ht : SameEip155 w w' t t') : Agree Eq (t.display m w : Out ε _) (t'.display m w') := by
  unfold TransactionEip155.display
  agree

theorem encodeEip2930 {t t' : TransactionEip2930} (ht : SameEip2930 w w' t t') : Agree Eq (t.encode m w : Out ε _) (t'.encode m w') := by
  unfold TransactionEip2930.encode encodeM TransactionEip2930.encodeTo
  rw [ht.payload.nonce, ht.payload.gasLimit, ht.payload.destination, ht.payload.data, ht.payload.accessList, ht.yParity]
  simp only [bind_bind]
  agree

theorem displayEip2930 {t t' : TransactionEip2930} (ht : SameEip2930 w w' t t') : Agree Eq (t.display m w : Out ε _) (t'.display m w') := by
  unfold TransactionEip2930.display
  rw [ht.yParity]
  agree

theorem encodeEip1559 {t t' : TransactionEip1559} (ht : SameEip1559 w w' t t') : Agree Eq (t.encode m w : Out ε _) (t'.encode m w') := by
  unfold TransactionEip1559.encode encodeM TransactionEip1559.encodeTo
  rw [ht.payload.nonce, ht.payload.gasLimit, ht.payload.destination, ht.payload.data, ht.payload.accessList, ht.yParity]
  simp only [bind_bind]
  agree

theorem displayEip1559 {t t' : TransactionEip1559} (ht : SameEip1559 w w' t t') : Agree Eq (t.display m w : Out ε _) (t'.display m w') := by
  unfold TransactionEip1559.display
  rw [ht.yParity]
  agree

theorem decLegacy (d : DecItem) : Agree (SameLegacy w w') (decTransactionLegacy m w d) (decTransactionLegacy m w' d) := by
  unfold decTransactionLegacy
  split
  · exact .err _
  agree_step
  refine .ite (fun _ => .err _) fun _ => ?_
  simp only [bind_bind, pure_bind']
  agree
  refine Agree.bind (R := SamePayloadLegacy w w') (.ok ⟨rfl, by assumption, rfl, rfl, by assumption, rfl⟩) fun p p' hp => ?_
  agree
  exact .pure ⟨hp, rfl, by assumption, by assumption⟩

theorem decEip155 (d : DecItem) : Agree (SameEip155 w w') (decTransactionEip155 m w d) (decTransactionEip155 m w' d) := by
  unfold decTransactionEip155
  split
  · exact .err _
  agree_step
  refine .ite (fun _ => .err _) fun _ => ?_
  agree
  refine Agree.bind (R := SamePayloadEip155 w w') (.ok ⟨by assumption, rfl, by assumption, rfl, rfl, by assumption, rfl⟩) fun p p' hp => ?_
  exact .pure ⟨hp, by assumption, by assumption, by assumption⟩

theorem decEip2930 (d : DecItem) : Agree (SameEip2930 w w') (decTransactionEip2930 m w d) (decTransactionEip2930 m w' d) := by
  unfold decTransactionEip2930
  split
  · exact .err _
  agree_step
  refine .ite (fun _ => .err _) fun _ => ?_
  simp only [bind_bind, pure_bind']
  agree
  refine Agree.bind (R := SamePayloadEip2930 w w') (.ok ⟨by assumption, rfl, by assumption, rfl, rfl, by assumption, rfl, rfl⟩) fun p p' hp => ?_
  agree
  exact .pure ⟨hp, rfl, by assumption, by assumption⟩

theorem decEip1559 (d : DecItem) : Agree (SameEip1559 w w') (decTransactionEip1559 m w d) (decTransactionEip1559 m w' d) := by
  unfold decTransactionEip1559
  split
  · exact .err _
  agree_step
  refine .ite (fun _ => .err _) fun _ => ?_
  simp only [bind_bind, pure_bind']
  agree
  refine Agree.bind (R := SamePayloadEip1559 w w') (.ok ⟨by assumption, rfl, by assumption, by assumption, rfl, rfl, by assumption, rfl, rfl⟩) fun p p' hp => ?_
  agree
  exact .pure ⟨hp, rfl, by assumption, by assumption⟩

end LCT.Widths
