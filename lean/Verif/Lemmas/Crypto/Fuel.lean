import Verif.Model.Crypto.Signing

/-!
# More fuel does not change an answer
-/

namespace LCT.Crypto
open LCT.Out LCT.Hash LCT.Random LCT.BigInt

/-- `y` is `x`, or `x` ran out of fuel. -/
def Upto {ε α : Type} (x y : Out ε α) : Prop := x = .hang ∨ x = y

theorem Upto.refl {ε α : Type} (x : Out ε α) : Upto x x := .inr rfl

theorem Upto.bind {ε α β : Type} {x y : Out ε α} {f g : α → Out ε β} (h : Upto x y) (hf : ∀ a, Upto (f a) (g a)) : Upto (x >>= f) (y >>= g) := by
  rcases h with rfl | rfl
  · exact .inl rfl
  · cases x with
    | ok a => exact hf a
    | _ => exact .inr rfl

theorem Upto.mapErr {ε ε' α : Type} {x y : Out ε α} {f : ε → ε'} (h : Upto x y) : Upto (x.mapErr f) (y.mapErr f) := by
  rcases h with rfl | rfl
  · exact .inl rfl
  · exact .inr rfl

variable (m : Build) (w : Nat) (H : Hasher)

theorem nonceLoop_upto {ε : Type} (g : Rfc6979) : ∀ (f f' : Nat), f ≤ f' → ∀ (st : H.State) (k v : List UInt8),
    Upto (nonceLoop m w H g f st k v : Out ε _) (nonceLoop m w H g f' st k v)
  | 0, _, _, _, _, _ => .inl rfl
  | f + 1, 0, h, _, _, _ => absurd h (by omega)
  | f + 1, f' + 1, h, st, k, v => by
    unfold nonceLoop
    refine (Upto.refl _).bind fun r => (Upto.refl _).bind fun nonce => (Upto.refl _).bind fun ok => ?_
    split
    · exact .refl _
    · exact (Upto.refl _).bind fun r' => (Upto.refl _).bind fun r'' => nonceLoop_upto g f f' (by omega) _ _ _

theorem generateNonce_upto (g : Rfc6979) {f f' : Nat} (h : f ≤ f') (hash : List UInt8) (key : PrivateKey) (st : H.State)
    (rand : Out RandomError (List UInt8)) : Upto (g.generateNonce m w H f hash key st rand) (g.generateNonce m w H f' hash key st rand) := by
  unfold Rfc6979.generateNonce
  exact (Upto.refl _).bind fun _ => (Upto.refl _).bind fun _ => (Upto.refl _).bind fun _ => (Upto.refl _).bind fun _ =>
    (Upto.refl _).bind fun _ => (Upto.refl _).bind fun _ => nonceLoop_upto m w H g f f' h _ _ _

theorem signLoop_upto (o : SigningOptions) (g : Rfc6979) (hash : List UInt8) (hashN : BInt) (key : PrivateKey)
    (rand : Nat → Out RandomError (List UInt8)) {nf nf' : Nat} (hn : nf ≤ nf') : ∀ (f f' : Nat), f ≤ f' → ∀ (i : Nat) (st : H.State),
    Upto (signLoop m w H nf o g hash hashN key rand f i st) (signLoop m w H nf' o g hash hashN key rand f' i st)
  | 0, _, _, _, _ => .inl rfl
  | f + 1, 0, h, _, _ => absurd h (by omega)
  | f + 1, f' + 1, h, i, st => by
    unfold signLoop
    refine (generateNonce_upto m w H g hn hash key st (rand i)).mapErr.bind fun r => (Upto.refl _).bind fun s => ?_
    cases s with
    | none => exact signLoop_upto o g hash hashN key rand hn f f' (by omega) _ _
    | some _ => exact .refl _

/-- A result of signing is the same with more fuel. -/
theorem sign_upto {f f' nf nf' : Nat} (hf : f ≤ f') (hn : nf ≤ nf') (st : H.State) (rand : Nat → Out RandomError (List UInt8)) (hash : List UInt8)
    (key : PrivateKey) (o : SigningOptions) :
    Upto (signWithOptions m w H f nf st rand hash key o) (signWithOptions m w H f' nf' st rand hash key o) := by
  unfold signWithOptions
  exact (Upto.refl _).bind fun _ => (Upto.refl _).bind fun _ => (Upto.refl _).bind fun _ => (Upto.refl _).bind fun _ =>
    (Upto.refl _).bind fun _ => (Upto.refl _).bind fun _ => (Upto.refl _).bind fun _ => (Upto.refl _).bind fun _ =>
    signLoop_upto m w H o _ hash _ key rand hn f f' hf 0 st

end LCT.Crypto
