import Verif.Lemmas.Crypto.NamedCheck
import Verif.Lemmas.Math.Pocklington
import Mathlib.Tactic.NormNum.Prime

/-!
# The primes for P-521: the chain up to 273 bits
-/

namespace LCT.Named
open LCT.Spec LCT.Curve LCT.ValidCurve LCT.Pocklington

theorem prime_5537689 : Nat.Prime 5537689 :=
  prime_of_check _ [⟨17749, 0, 2⟩] (by decide +kernel) (by
    simp only [List.forall_mem_cons]
    exact ⟨(by norm_num), by simp⟩)

theorem prime_7418454315071 : Nat.Prime 7418454315071 :=
  prime_of_check _ [⟨5537689, 0, 2⟩] (by decide +kernel) (by
    simp only [List.forall_mem_cons]
    exact ⟨prime_5537689, by simp⟩)

theorem prime_2505366815667214971487 : Nat.Prime 2505366815667214971487 :=
  prime_of_check _ [⟨7418454315071, 0, 2⟩] (by decide +kernel) (by
    simp only [List.forall_mem_cons]
    exact ⟨prime_7418454315071, by simp⟩)

theorem prime_26542432233788059346030705770761433 : Nat.Prime 26542432233788059346030705770761433 :=
  prime_of_check _ [⟨2505366815667214971487, 0, 2⟩] (by decide +kernel) (by
    simp only [List.forall_mem_cons]
    exact ⟨prime_2505366815667214971487, by simp⟩)

theorem mul_30196102765322025128136095925830817443544222749853671012437 : Certify.mul 30196102765322025128136095925830817443544222749853671012437
    0
    (1997500498012656276035310908821804880860628288045719511678,
      7143338687506076780171371447528269266223817583504740306708)
    (Nat.log2 26542432233788059346030705770761433 + 1) (26542432233788059346030705770761433 - 1) =
    some (1997500498012656276035310908821804880860628288045719511678,
      30196102765322025128136095925830817443544222749853671012437 - 7143338687506076780171371447528269266223817583504740306708) := by decide +kernel

theorem prime_30196102765322025128136095925830817443544222749853671012437 : Nat.Prime 30196102765322025128136095925830817443544222749853671012437 :=
  prime_of (b := 20969860902360657767021952684632099011565955720662832282078)
    ⟨by decide +kernel, by decide +kernel, by decide +kernel, by decide +kernel, mul_30196102765322025128136095925830817443544222749853671012437⟩
    prime_26542432233788059346030705770761433 (by decide +kernel) (by decide +kernel)

theorem mul_6772392777438735970727980235487203615852951073339162121065152026470643441079977787 : Certify.mul 6772392777438735970727980235487203615852951073339162121065152026470643441079977787
    322323449722582802168193002159619710409812482923554259469246692037827849216610011
    (2632600420071741522383087757815190960353934461917835958962298934649910723673693630,
      4475661594684865168149482279411861141206865931245794003136802713280016126181920197)
    (Nat.log2 30196102765322025128136095925830817443544222749853671012437 + 1) (30196102765322025128136095925830817443544222749853671012437 - 1) =
    some (2632600420071741522383087757815190960353934461917835958962298934649910723673693630,
      6772392777438735970727980235487203615852951073339162121065152026470643441079977787 - 4475661594684865168149482279411861141206865931245794003136802713280016126181920197) := by decide +kernel

theorem prime_6772392777438735970727980235487203615852951073339162121065152026470643441079977787 : Nat.Prime 6772392777438735970727980235487203615852951073339162121065152026470643441079977787 :=
  prime_of (b := 1125685281624092425961317279028674215715550931721888383413173271510059486890618379)
    ⟨by decide +kernel, by decide +kernel, by decide +kernel, by decide +kernel, mul_6772392777438735970727980235487203615852951073339162121065152026470643441079977787⟩
    prime_30196102765322025128136095925830817443544222749853671012437 (by decide +kernel) (by decide +kernel)

end LCT.Named
