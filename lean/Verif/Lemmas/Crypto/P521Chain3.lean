import Verif.Lemmas.Crypto.P521Chain2

/-!
# The primes for P-521: the chain up to 391 bits
-/

namespace LCT.Named
open LCT.Spec LCT.Curve LCT.ValidCurve LCT.Pocklington

theorem mul_3615194794881930010216942559103847593050265703173292383701371712350878926821661243755933835426896058418509759880171943 : Certify.mul 3615194794881930010216942559103847593050265703173292383701371712350878926821661243755933835426896058418509759880171943
    730541028312181189075228067967978840196906321547954731224586489522314501886992989654132077723699840588772584390738861
    (572548229698683333448505617013214220412179717863954142924396035700200444807927481037876778181602083324655825887672182,
      1009807793403390270025209106869593609804367148033932733998541153293077480356738621059677635430176840425928928897765704)
    (Nat.log2 920001251968759792992650400955916348091021419199096503083762247492858773743786040445862789269122397 + 1) (920001251968759792992650400955916348091021419199096503083762247492858773743786040445862789269122397 - 1) =
    some (572548229698683333448505617013214220412179717863954142924396035700200444807927481037876778181602083324655825887672182,
      3615194794881930010216942559103847593050265703173292383701371712350878926821661243755933835426896058418509759880171943 - 1009807793403390270025209106869593609804367148033932733998541153293077480356738621059677635430176840425928928897765704) := by decide +kernel

theorem prime_3615194794881930010216942559103847593050265703173292383701371712350878926821661243755933835426896058418509759880171943 : Nat.Prime 3615194794881930010216942559103847593050265703173292383701371712350878926821661243755933835426896058418509759880171943 :=
  prime_of (b := 539598402597338877158461578217632639057755077765871737077119858564988692039904682488618799414242045266337485659851060)
    ⟨by decide +kernel, by decide +kernel, by decide +kernel, by decide +kernel, mul_3615194794881930010216942559103847593050265703173292383701371712350878926821661243755933835426896058418509759880171943⟩
    prime_920001251968759792992650400955916348091021419199096503083762247492858773743786040445862789269122397 (by decide +kernel) (by decide +kernel)

end LCT.Named
