import Verif.Lemmas.Crypto.P521Order

/-!
# P-521 is valid

The order is prime: its predecessor has a large prime factor, whose primality is shown by a chain of points on curves (the Atkin-Goldwasser-Kilian
test), each checked by computation inside the kernel.
-/

namespace LCT.Named
open LCT.Spec LCT.Curve LCT.ValidCurve LCT.Pocklington

theorem prime_6864797660130609714981900799081393217269435300143305409394463459185543183397655394245057746333217197532963996371363321113864768612440380340372808892707005449 : Nat.Prime 6864797660130609714981900799081393217269435300143305409394463459185543183397655394245057746333217197532963996371363321113864768612440380340372808892707005449 :=
  prime_of_check _ [⟨3615194794881930010216942559103847593050265703173292383701371712350878926821661243755933835426896058418509759880171943, 0, 2⟩] (by decide +kernel) (by
    simp only [List.forall_mem_cons]
    exact ⟨prime_3615194794881930010216942559103847593050265703173292383701371712350878926821661243755933835426896058418509759880171943, by simp⟩)

namespace secp521r1

theorem prime_n : Nat.Prime NamedCurve.secp521r1.n := prime_6864797660130609714981900799081393217269435300143305409394463459185543183397655394245057746333217197532963996371363321113864768612440380340372808892707005449

theorem checked : Checked NamedCurve.secp521r1 where
  prime_n := prime_n
  onCurve := ⟨by decide +kernel, by decide +kernel, by decide +kernel, by decide +kernel, mul⟩
  two_le := by decide +kernel
  square := by decide +kernel
  a_le := by decide +kernel
  b_le := by decide +kernel
  third := by decide +kernel
  root := ⟨noRoot, noRoot_check⟩
  disc := by decide +kernel
  b_ne := by decide +kernel

end secp521r1

end LCT.Named
