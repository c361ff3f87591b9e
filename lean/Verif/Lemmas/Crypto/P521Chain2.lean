import Verif.Lemmas.Crypto.P521Chain1

/-!
# The primes for P-521: the chain up to 330 bits
-/

namespace LCT.Named
open LCT.Spec LCT.Curve LCT.ValidCurve LCT.Pocklington

theorem mul_920001251968759792992650400955916348091021419199096503083762247492858773743786040445862789269122397 : Certify.mul 920001251968759792992650400955916348091021419199096503083762247492858773743786040445862789269122397
    681099009098200119955889684981123812439782523605651799149971108541146475900382879715160449637382226
    (742285538648711039543889207215024976936685909027392543077147185815871932442279445248588295825489508,
      823438448288818373577090185869878821316225001298688215578954154142700086040214314630515627163186905)
    (Nat.log2 6772392777438735970727980235487203615852951073339162121065152026470643441079977787 + 1) (6772392777438735970727980235487203615852951073339162121065152026470643441079977787 - 1) =
    some (742285538648711039543889207215024976936685909027392543077147185815871932442279445248588295825489508,
      920001251968759792992650400955916348091021419199096503083762247492858773743786040445862789269122397 - 823438448288818373577090185869878821316225001298688215578954154142700086040214314630515627163186905) := by decide +kernel

theorem prime_920001251968759792992650400955916348091021419199096503083762247492858773743786040445862789269122397 : Nat.Prime 920001251968759792992650400955916348091021419199096503083762247492858773743786040445862789269122397 :=
  prime_of (b := 584310690969249479328575185663969586980349480115194591716214008937305787861635553797517867602949656)
    ⟨by decide +kernel, by decide +kernel, by decide +kernel, by decide +kernel, mul_920001251968759792992650400955916348091021419199096503083762247492858773743786040445862789269122397⟩
    prime_6772392777438735970727980235487203615852951073339162121065152026470643441079977787 (by decide +kernel) (by decide +kernel)

end LCT.Named
