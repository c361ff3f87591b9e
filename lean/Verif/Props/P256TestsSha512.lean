import Verif.Props.P256Tests

/-!
# C100: the test with SHA-512 as it is
-/

namespace LCT.Props
open LCT.BigInt LCT.Spec LCT.Out LCT.Modular LCT.Curve LCT.Hash LCT.Crypto LCT.Codecs LCT.Random LCT.RandomTests LCT.P256Tests

namespace P256Published

/-- SHA-512, computed by the model where it is known to agree with the specification. -/
def sha512 (msg : List UInt8) : List UInt8 :=
  if msg.length < 2 ^ 61 then
    match (Sha2.Sha512.digest .release Sha2.Sha512.fresh msg : Out Unit _) with
    | .ok (d, _) => d
    | _ => Spec.Sha2.sha512 msg
  else Spec.Sha2.sha512 msg

theorem sha512_eq : Spec.Sha2.sha512 = sha512 := by
  funext msg
  unfold sha512
  split
  · rename_i h
    obtain ⟨st, e⟩ := Hash.Sha2.computes512.digest Unit .release Sha2.Sha512.fresh msg h
    rw [e]
  · rfl

namespace Sha512

def hash : List UInt8 :=
  octets 64 0x39a5e04aaff7455d9850c605364f514c11324ce64016960d23d5dc57d3ffd8f49a739468ab8049bf18eef820cdb1ad6c9015f838556bc7fad4138b23fdf986c7
def e : Nat := 0x39a5e04aaff7455d9850c605364f514c11324ce64016960d23d5dc57d3ffd8f4
def k : Nat := 0x5fa81c63109badb88c1f367b47da606da28cad69aa22c4fe6ad7df73a7173aa5
def r : Nat := 0x8496a60b5e9b47c825488827e0495b0e3fa109ec4568fd3f8d1097678eb97f00
def s : Nat := 0x2362ab1adbe2b8adf9cb9edab740ea6049c028114f2460f96554f61fae3302fe

set_option maxRecDepth 100000 in
theorem hash_eq : Spec.Sha2.sha512 sample = hash := by
  rw [sha512_eq]
  decide +kernel

def K1 : List UInt8 := octets 64 0xa72df471df15d0c80e4e9405515b3a5288ef7b241794820b388eca3fa12c74048d783a473da684e0d24db55675be61c81a120c560679a0452314d7d3e1b22ffa
def V1 : List UInt8 := octets 64 0x059e9b5bc726edb8591e5077a80acbed36f6818f3a68607e2428b177a3031d9bbb28dda1d8020983079fe50116b066d396cbd22235f9863077a6215d80a40751
def K2 : List UInt8 := octets 64 0xae414f4c6037162ac74d9409f7507eb86e05a3ca3f2f0ec66e9eda177fce4996adc50fa53c4f12a4367729693f0fc3f9be894879a1be7ca4cbc4fadaaf6447cc
def V2 : List UInt8 := octets 64 0xb0a351f1493456f053b6d17490cbd706716b66dd16c3d54e8d38a2e3d08f8f0cf24e1437a1ec5c5586c4e179e1861a63c4c36046be08f5fd1fae0b98cc1a5b8a
def T : List UInt8 := octets 64 0x5fa81c63109badb88c1f367b47da606da28cad69aa22c4fe6ad7df73a7173aa5bd1ff43495b692ba9935ef611fc3048d736949aa9edd0055dcc4ae84aa6ff3f1

set_option maxRecDepth 100000 in
theorem K1_eq : hmac sha512 128 (List.replicate 64 0) (List.replicate 64 1 ++ [0] ++ (octets 32 d ++ octets 32 e)) = K1 := by
  decide +kernel

set_option maxRecDepth 100000 in
theorem V1_eq : hmac sha512 128 K1 (List.replicate 64 1) = V1 := by decide +kernel

set_option maxRecDepth 100000 in
theorem K2_eq : hmac sha512 128 K1 (V1 ++ [1] ++ (octets 32 d ++ octets 32 e)) = K2 := by decide +kernel

set_option maxRecDepth 100000 in
theorem V2_eq : hmac sha512 128 K2 V1 = V2 := by decide +kernel

set_option maxRecDepth 100000 in
theorem T_eq : hmac sha512 128 K2 V2 = T := by decide +kernel

theorem nonce (rand : Out RandomError (List UInt8)) : NonceOf Sha2.Sha512 Spec.Sha2.sha512 P256.n d hash false rand k :=
  nonce_of Sha2.Sha512 _ sha512 sha512_eq hash T K1 V1 K2 V2 e k
    (by decide +kernel) (by decide) K1_eq V1_eq K2_eq V2_eq T_eq (by decide +kernel) (by decide) rand

end Sha512

end P256Published
open P256Published

/-- C100 for the test with SHA-512 as it is: it passes. -/
theorem C100_published_sha512 (m : Build) (w : Nat) [DigitWidth w] (rand : Nat → Out RandomError (List UInt8)) :
    ∃ f0, ∀ f nf, f0 ≤ f → f0 ≤ nf →
      sha512Sign m w f nf rand ⟨ascii "C9AFA9D845BA75166B5C215767B1D6934E50C3DB36E89B127B8A622B120F6721", ascii "sample",
        ascii "8496a60b5e9b47c825488827e0495b0e3fa109ec4568fd3f8d1097678eb97f002362ab1adbe2b8adf9cb9edab740ea6049c028114f2460f96554f61fae3302fe"⟩ =
          .ok () := by
  obtain ⟨a1, a2⟩ := published_case Sha2.Sha512 Spec.Sha2.sha512 Sha512.hash Sha512.e Sha512.k Sha512.r Sha512.s
    0x9fb79c8d6d837355f25521f28694907abdaf87f9b18fcacf45b2b72b9859c87e
    (ascii "8496a60b5e9b47c825488827e0495b0e3fa109ec4568fd3f8d1097678eb97f002362ab1adbe2b8adf9cb9edab740ea6049c028114f2460f96554f61fae3302fe")
    Sha512.hash_eq (by decide +kernel) (by decide) Sha512.nonce (by decide +kernel) (by decide) (by decide) (by decide) (by decide) (by decide +kernel)
    (by decide +kernel)
  have hm : ascii "sample" = sample := by decide +kernel
  rw [hm]
  obtain ⟨f1, h1⟩ := C100_sha512 m w rand _ (by decide +kernel) a1
  exact ⟨f1, fun f nf hf hnf => (h1 f nf hf hnf).trans (if_pos a2)⟩

end LCT.Props
