import Verif.Lemmas.Widths.Ethereum
import Verif.Model.Examples

/-!
# Agreement of builds with different digit widths: the example programs
-/

namespace LCT.Widths
open LCT.BigInt LCT.Spec LCT.Out LCT.Crypto LCT.Random LCT.Ethereum LCT.Rlp LCT.Examples
variable {ε : Type} (m : Build) (w w' : Nat) [hw : DigitWidth w] [hw' : DigitWidth w']

theorem expect {ε' α β : Type} {R : α → β → Prop} {x : Out ε' α} {y : Out ε' β} (h : Agree R x y) :
    Agree R (Examples.expect x : Out ε α) (Examples.expect y) := by
  cases h with
  | ok h => exact .ok h
  | err => exact .panic
  | panic => exact .panic
  | hang => exact .hang

theorem decode {α : Type} {R : α → α → Prop} {f g : Dec α} (h : ∀ d, Agree R (f d) (g d)) (data : List UInt8) :
    Agree R (Rlp.decode m f data) (Rlp.decode m g data) := by
  exact Agree.bind (R := Eq) .refl fun d d' hd => hd ▸ h d

theorem txDecoder (arg : Option (List UInt8)) : Agree Eq (Examples.txDecoder m w arg : Out ε _) (Examples.txDecoder m w' arg) := by
  unfold Examples.txDecoder
  iterate 2 agree_step
  rename_i data
  rcases data with _ | ⟨b, rest⟩
  · exact .panic
  dsimp only
  refine .ite (fun _ => ?_) fun _ => .ite (fun _ => ?_) fun _ => ?_
  · refine (expect (decode m (decEip1559 m w w') rest)).bind fun t t' ht => ?_
    refine (displayEip1559 m w w' ht).bind fun _ _ h => .pure (h ▸ rfl)
  · refine (expect (decode m (decEip2930 m w w') rest)).bind fun t t' ht => ?_
    refine (displayEip2930 m w w' ht).bind fun _ _ h => .pure (h ▸ rfl)
  · have h := decode m (decEip155 m w w') (b :: rest)
    revert h
    generalize Rlp.decode m (decTransactionEip155 m w) (b :: rest) = u
    generalize Rlp.decode m (decTransactionEip155 m w') (b :: rest) = u'
    intro h
    cases h with
    | ok ht => exact (displayEip155 m w w' ht).bind fun _ _ h => .pure (h ▸ rfl)
    | err e =>
      cases e with
      | InvalidFormat => exact .panic
      | TransactionTypeMismatch =>
        refine (expect (decode m (decLegacy m w w') (b :: rest))).bind fun t t' ht => ?_
        refine (displayLegacy m w w' ht).bind fun _ _ h => .pure (h ▸ rfl)
    | panic => exact .panic
    | hang => exact .hang

theorem keyToAddress (arg : Option (List UInt8)) : Agree Eq (Examples.keyToAddress m w arg : Out ε _) (Examples.keyToAddress m w' arg) := by
  unfold Examples.keyToAddress
  iterate 2 agree_step
  split
  · refine (eoaNew m w w' _ _).bind fun o o' ho => ?_
    refine (Agree.unwrap ho).bind fun k k' hk => ?_
    refine (publicKey m w w' hk).bind fun k k' hk => ?_
    refine (address m w w' hk).bind fun a a' ha => ?_
    subst ha
    exact .refl
  · exact .panic

theorem vanityLoop (clock : Nat → Option Nat) (random : Nat → Out RandomError (List UInt8)) (pre : List UInt8) (est f n : Nat)
    (out : List UInt8) :
    Agree Eq (Examples.vanityLoop m w clock random pre est f n out : Out ε _) (Examples.vanityLoop m w' clock random pre est f n out) := by
  induction f generalizing n out with
  | zero => exact .hang
  | succ f ih =>
    unfold Examples.vanityLoop
    iterate 3 agree_step
    split
    · refine (eoaNew m w w' _ _).bind fun o o' ho => ?_
      refine (Agree.unwrap ho).bind fun k k' hk => ?_
      refine (publicKey m w w' hk).bind fun k k' hk => ?_
      refine (address m w w' hk).bind fun a a' ha => ?_
      subst ha
      agree_step
      refine .ite (fun _ => ih _ _) fun _ => .refl
    · exact .panic

theorem vanityAddress (fuel : Nat) (clock : Nat → Option Nat) (random : Nat → Out RandomError (List UInt8)) (arg : Option (List UInt8)) :
    Agree Eq (Examples.vanityAddress m w fuel clock random arg : Out ε _) (Examples.vanityAddress m w' fuel clock random arg) := by
  unfold Examples.vanityAddress
  iterate 4 agree_step
  exact vanityLoop m w w' _ _ _ _ _ _ _

end LCT.Widths
