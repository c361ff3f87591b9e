import Verif.Props.TransactionTests
import Verif.Props.WalletPublished

/-!
# C94: the transaction published in EIP-155 as a vector
-/

namespace LCT.Props
open LCT.Spec LCT.Spec.Eth LCT.Out LCT.BigInt LCT.Crypto LCT.Codecs LCT.Ethereum LCT.RandomTests LCT.TransactionTests LCT.Random LCT.Hash

theorem reading_unique {α β : Type} {x : Out Unit α} {R : α → β → Prop} {S : β → Prop} (h : Reading x R S) {b b' : β} (hb : S b) (hb' : S b') : b = b' := by
  rcases h with ⟨a, c, -, -, hS⟩ | ⟨-, hS⟩
  · rw [(hS b).mp hb, (hS b').mp hb']
  · exact absurd hb (hS b)

namespace Published

/-- `0x`, and the digits of the bytes. -/
def hexed (bs : List UInt8) : List UInt8 := 48 :: 120 :: hexOf bs

/-- The example of EIP-155, with another text for the signed transaction. -/
def vectorWith (text : List UInt8) : Untyped :=
  ⟨hexed (List.replicate 32 0x46), some (hexed [9]), some priceText, some (hexed [0x52, 0x08]), some destinationText, some amountText, some (hexed []),
    text⟩

def vector : Untyped := vectorWith (hexed transaction)

theorem digest_eq : (Payload.eip155 exampleFields).digest = e := by
  unfold Payload.digest
  rw [preimage_eq, hash_eq]
  decide +kernel

theorem goodNonce : GoodNonce d (.eip155 exampleFields) k := by
  refine ⟨?_, ?_⟩
  · rw [preimage_eq, hash_eq]
    exact nonce _
  · rw [digest_eq, Unusable, r_eq, s_eq]
    decide

theorem signsTo : SignsTo d (.eip155 exampleFields) (.eip155 exampleFields 37 r s) := by
  have hs : lowS true Secp256k1.n s = s := if_neg fun h => absurd h.2 (by decide)
  refine ⟨by rw [digest_eq]; decide, k, .LowXEvenY, goodNonce, ?_⟩
  simp only
  rw [digest_eq, r_eq, s_eq, hs]
  exact ⟨(describes _).mpr ⟨rfl, rfl⟩, rfl⟩

theorem feasible : (Payload.eip155 exampleFields).Feasible d := by
  refine ⟨by rw [preimage_eq]; decide, fun _ => ⟨k, goodNonce⟩, fun T hT => ?_⟩
  rw [signsTo_unique hT signsTo, wire_eq]
  decide

theorem key_text : KeyText (hexed (List.replicate 32 0x46)) d :=
  ⟨⟨48, 120, _, rfl, [], hexOf (List.replicate 32 0x46), (List.replicate 32 [4, 6]).flatten, 1, rfl, .none,
    ⟨by decide, by decide, by decide⟩, by decide, by decide⟩, by decide, by decide⟩

theorem nonce_text : NonceText (hexed [9]) 9 :=
  ⟨⟨48, 120, _, rfl, .inl ⟨⟨[], hexOf [9], [0, 9], 1, rfl, .none, ⟨by decide, by decide, by decide⟩, by decide⟩, by decide, by decide⟩⟩, by decide⟩

theorem limit_text : LimitText (hexed [0x52, 0x08]) 21000 :=
  ⟨48, 120, _, rfl, .inr ⟨⟨[], hexOf [0x52, 0x08], [5, 2, 0, 8], 1, rfl, .none, ⟨by decide, by decide, by decide⟩, by decide⟩, by decide, by decide⟩⟩

theorem data_text : DataText (hexed []) [] := ⟨48, 120, _, rfl, rfl, nofun, rfl⟩

theorem vector_reads (text : List UInt8) (d' : Nat) (P : Payload) :
    Untyped.Reads (some 1) (vectorWith text) d' P ↔ d' = d ∧ P = .eip155 exampleFields := by
  have hw : DigitWidth 64 := inferInstance
  constructor
  · rintro ⟨_, _, _, _, _, _, e1, e2, e3, e4, e5, e6, h1, n, g, l, a, x, bs, h2, h3, h4, h5, h6, h7, h8⟩
    cases e1; cases e2; cases e3; cases e4; cases e5; cases e6
    obtain ⟨cp, ecp, hD, -⟩ := secp256k1_y (ε := Unit) 64
    have hd := reading_unique (key_reads .release 64 cp hD.order _) h1 key_text
    have hn := reading_unique (nonce_reads _) h2 nonce_text
    have ha := reading_unique (address_reads _) h5 destination_text
    have hb := reading_unique (data_reads _) h7 data_text
    have hg : g = 20000000000 := by have := (price_iff _).mp h3; omega
    have hx : x = 1000000000000000000 := by have := (amount_iff _).mp h6; omega
    have hl : l = 21000 := by
      rcases gasLimit_reads (hexed [0x52, 0x08]) with ⟨l', -, -, hl⟩ | ⟨-, hno⟩ | ⟨-, -, hl⟩
      · rw [(hl _).mp h4, ← (hl _).mp limit_text]
      · obtain ⟨_, _, _, hu, h9, h10⟩ := hno
        obtain ⟨_, _, _, hu', h11⟩ := limit_text
        injection hu.symm.trans hu' with _ hu''
        injection hu'' with _ hu''
        subst hu''
        rcases h11 with ⟨h11, -⟩ | h11
        · exact absurd h11 h9
        · exact absurd h11 (h10 _)
      · exact absurd h4 (hl _)
    subst hd hn ha hb hg hx hl
    exact ⟨rfl, h8⟩
  · rintro ⟨rfl, rfl⟩
    exact ⟨_, _, _, _, _, _, rfl, rfl, rfl, rfl, rfl, rfl, key_text, 9, 20000000000, 21000, _, 1000000000000000000, [], nonce_text,
      (price_iff _).mpr rfl, limit_text, destination_text, (amount_iff _).mpr rfl, data_text, rfl⟩

theorem vector_fair (text : List UInt8) : Untyped.Fair (some 1) (vectorWith text) := by
  refine ⟨?_, fun d' P h => ?_⟩
  · rintro t z (h | h) hz
    · cases h
      rw [(price_iff z).mp hz]
      decide
    · cases h
      rw [(amount_iff z).mp hz]
      decide
  · obtain ⟨rfl, rfl⟩ := (vector_reads text d' P).mp h
    exact feasible

theorem vector_counts (text : List UInt8) : ¬ Untyped.Ignored (vectorWith text) := by
  rintro (h | h | h | h | h | h | ⟨t, h, hno⟩)
  · cases h
  · cases h
  · cases h
  · cases h
  · cases h
  · cases h
  · cases h
    obtain ⟨_, _, _, hu, h9, h10⟩ := hno
    obtain ⟨_, _, _, hu', h11⟩ := limit_text
    injection hu.symm.trans hu' with _ hu''
    injection hu'' with _ hu''
    subst hu''
    rcases h11 with ⟨h11, -⟩ | h11
    · exact absurd h11 h9
    · exact absurd h11 (h10 _)

/-- The claim of the vector is true exactly if its text is the published one (its first two characters may be any). -/
theorem vector_claims (text : List UInt8) :
    Claims (Untyped.Reads (some 1)) Untyped.signed (vectorWith text) ↔ ∃ a b, text = a :: b :: hexOf transaction := by
  constructor
  · rintro ⟨d', P, T, h1, h2, a, b, u, h3, rfl⟩
    obtain ⟨rfl, rfl⟩ := (vector_reads text d' P).mp h1
    rw [signsTo_unique h2 signsTo, wire_eq] at h3
    exact ⟨a, b, h3⟩
  · rintro ⟨a, b, rfl⟩
    exact ⟨d, _, _, (vector_reads _ d _).mpr ⟨rfl, rfl⟩, signsTo, a, b, _, rfl, by rw [wire_eq]⟩

end Published

/-- C94 on the example of EIP-155: a file with 901 copies of it passes (with chain id 1), with 900 copies it fails, and so it does if one
more vector has the wrong text. -/
theorem C94_published (m : Build) (w : Nat) [DigitWidth w] (rand : Nat → Out RandomError (List UInt8))
    (hrand : ∀ i bytes, rand i = .ok bytes → bytes.length = 32) (hpanic : ∀ i, rand i ≠ .panic) (wrong : List UInt8)
    (hwrong : ∀ a b, wrong ≠ a :: b :: hexOf Published.transaction) :
    ∃ f0, ∀ f nf, f0 ≤ f → f0 ≤ nf →
      fileTest (untypedCase m w f nf rand (some 1)) 900 (List.replicate 901 Published.vector) = .ok () ∧
      fileTest (untypedCase m w f nf rand (some 1)) 900 (List.replicate 900 Published.vector) = .panic ∧
      fileTest (untypedCase m w f nf rand (some 1)) 900 (Published.vectorWith wrong :: List.replicate 901 Published.vector) = .panic := by
  classical
  have hfair : ∀ n, ∀ v ∈ List.replicate n Published.vector, Untyped.Fair (some 1) v := fun n v hv => by
    rw [List.eq_of_mem_replicate hv]
    exact Published.vector_fair _
  have hcount : ∀ n, (List.replicate n Published.vector).countP (fun v => decide (¬ Untyped.Ignored v)) = n := fun n => by
    rw [List.countP_replicate, if_pos]
    exact decide_eq_true (Published.vector_counts _)
  have hclaim : Claims (Untyped.Reads (some 1)) Untyped.signed Published.vector := (Published.vector_claims _).mpr ⟨_, _, rfl⟩
  obtain ⟨f1, h1⟩ := C94_untyped m w rand hrand hpanic (some 1) 900 _ (hfair 901)
  obtain ⟨f2, h2⟩ := C94_untyped m w rand hrand hpanic (some 1) 900 _ (hfair 900)
  obtain ⟨f3, h3⟩ := C94_untyped m w rand hrand hpanic (some 1) 900 (Published.vectorWith wrong :: List.replicate 901 Published.vector) fun v hv => by
    rcases List.mem_cons.mp hv with rfl | hv
    · exact Published.vector_fair _
    · exact hfair _ v hv
  refine ⟨max f1 (max f2 f3), fun f nf g1 g2 => ⟨?_, ?_, ?_⟩⟩
  · rw [h1 f nf (by omega) (by omega), if_pos]
    refine ⟨fun v hv _ => ?_, ?_⟩
    · rw [List.eq_of_mem_replicate hv]
      exact hclaim
    · rw [hcount]
      decide
  · rw [h2 f nf (by omega) (by omega), if_neg]
    rintro ⟨-, h⟩
    rw [hcount] at h
    exact absurd h (by decide)
  · rw [h3 f nf (by omega) (by omega), if_neg]
    rintro ⟨h, -⟩
    obtain ⟨a, b, h⟩ := (Published.vector_claims wrong).mp (h _ List.mem_cons_self (Published.vector_counts _))
    exact hwrong a b h

end LCT.Props
